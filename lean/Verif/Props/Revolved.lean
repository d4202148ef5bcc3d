import Verif.Lemmas.Watertight
import Verif.Props.Patches

/-!
# C60: revolved components are watertight
-/

namespace HV
open Spec

theorem zmul_tf {a : ℤ} (h : a + a = 0) : a = 0 := by omega

/-- The rotation of `RevolvedPatch` by an angle. -/
noncomputable def revolveRot (a : ℝ) (p : V) : V :=
  ⟨p.x, p.y * Real.cos a + p.z * Real.sin a, p.z * Real.cos a - p.y * Real.sin a⟩

/-- The grid points of quarter `k` of a revolved component. -/
noncomputable def revolveGrid (f : ℝ → V) (n k i j : ℕ) : V :=
  revolveRot ((k * Real.pi / 2) * (1 - (j : ℝ) / n) + (((k : ℝ) + 1) * Real.pi / 2) * ((j : ℝ) / n)) (f ((i : ℝ) / n))

/-- A new `RevolvedComponent` generates and meshes; the mesh consists of four grids. -/
theorem revolved_mesh (line : PathObj) (f : ℝ → V) (hl : ∀ t, 0 ≤ t → t ≤ 1 → line.call t = .ok (f t))
    (n : ℕ) (hn : 1 ≤ n) (name : Option String) (h : Heap) (id : ℕ) (hid : h id = RevolvedComponent line n name) :
    ∃ h' M c', generatePatches h id = (.ok (), h') ∧ (h' id).mesh = (.ok M, c') ∧
      M.tris = (((List.range 4).map (revolveGrid f n)).map (gridMesh MeshArith.real false n n)).flatten := by
  have hn0 : (n : ℝ) ≠ 0 := by positivity
  have hnp : (0 : ℝ) < n := by positivity
  have hsteps : runSteps ((List.range 4).map fun (i : ℕ) => GenStep.patch ("revolved_fuse_" ++ toString i)
      (.ok (RevolvedPatch line (i * Real.pi / 2) (((i : ℝ) + 1) * Real.pi / 2)))) =
      ⟨(List.range 4).map fun (i : ℕ) => ("revolved_fuse_" ++ toString i,
        RevolvedPatch line (i * Real.pi / 2) (((i : ℝ) + 1) * Real.pi / 2)), [], [], none⟩ :=
    runSteps_patches (List.range 4) (fun i => "revolved_fuse_" ++ toString i)
      (fun (i : ℕ) => RevolvedPatch line (i * Real.pi / 2) (((i : ℝ) + 1) * Real.pi / 2))
  obtain ⟨h', M, c', hg, _, hM, ht⟩ := generated_mesh h id (fun _ => runSteps ((List.range 4).map fun (i : ℕ) =>
      GenStep.patch ("revolved_fuse_" ++ toString i)
      (.ok (RevolvedPatch line (i * Real.pi / 2) (((i : ℝ) + 1) * Real.pi / 2))))) (by rw [hid]; rfl) n hn
    (by rw [hid]; rfl) (by rw [hid]; rfl) (by rw [hid]; rfl) (by rw [hid]; rfl) (by rw [hid]; rfl)
    (by rw [hsteps]) (by rw [hsteps, List.map_map]; exact prefix_ix_nodup _ 4) (by rw [hsteps]; simp)
    ((List.range 4).map (revolveGrid f n))
    (by
      rw [hsteps, List.forall₂_map_right_iff, List.forall₂_map_left_iff, List.forall₂_same]
      intro k _ i hi j hj
      have hi' : (i : ℝ) / n ≤ 1 := by rw [div_le_one hnp]; exact_mod_cast hi
      exact (RevolvedPatch_eq line _ _ _ _ _ (hl ((i : ℝ) / n) (by positivity) hi')))
  exact ⟨h', M, c', hg, hM, ht⟩

/-- C60: if the revolve line evaluates on `[0,1]` and its two ends lie on the `x` axis, then a new `RevolvedComponent` of any
resolution `n ≥ 1` generates and meshes, and the mesh is closed and consistently oriented. -/
theorem C60_watertight (line : PathObj) (f : ℝ → V) (hl : ∀ t, 0 ≤ t → t ≤ 1 → line.call t = .ok (f t))
    (h0 : (f 0).y = 0 ∧ (f 0).z = 0) (h1 : (f 1).y = 0 ∧ (f 1).z = 0) (n : ℕ) (hn : 1 ≤ n) (name : Option String)
    (h : Heap) (id : ℕ) (hid : h id = RevolvedComponent line n name) :
    ∃ h' M c', generatePatches h id = (.ok (), h') ∧ (h' id).mesh = (.ok M, c') ∧ Closed M.tris := by
  have hn0 : (n : ℝ) ≠ 0 := by positivity
  obtain ⟨h', M, c', hg, hM, ht⟩ := revolved_mesh line f hl n hn name h id hid
  refine ⟨h', M, c', hg, hM, ?_⟩
  rw [ht, closed_iff_edgeSum]
  intro φ hφ
  rw [edgeSum_grids φ hφ]
  set P := revolveGrid f n with hP
  have hconst : ∀ k i, (f ((i : ℕ) / n)).y = 0 → (f ((i : ℕ) / n)).z = 0 → pathSum φ (fun j => P k i j) n = 0 := by
    intro k i hy hz
    have : pathSum φ (fun j => P k i j) n = pathSum φ (fun _ => (⟨(f ((i : ℕ) / n)).x, 0, 0⟩ : V)) n := by
      apply pathSum_congr
      intro j _
      simp [hP, revolveGrid, revolveRot, hy, hz]
    rw [this]
    exact pathSum_const φ hφ (fun a ha => zmul_tf ha) _ n
  have hE : ∀ k, pathSum φ (fun j => P k n j) n = 0 := by
    intro k
    apply hconst <;> (rw [div_self hn0]; first | exact h1.1 | exact h1.2)
  have hW : ∀ k, pathSum φ (fun j => P k 0 j) n = 0 := by
    intro k
    apply hconst <;> (simp only [Nat.cast_zero, zero_div]; first | exact h0.1 | exact h0.2)
  have hseam : ∀ k : ℕ, pathSum φ (fun i => P k i n) n = pathSum φ (fun i => P (k + 1) i 0) n := by
    intro k
    apply pathSum_congr
    intro i _
    simp only [hP, revolveGrid]
    congr 1
    rw [div_self hn0]
    push_cast
    simp
  have hlast : pathSum φ (fun i => P 4 i 0) n = pathSum φ (fun i => P 0 i 0) n := by
    apply pathSum_congr
    intro i _
    simp only [hP, revolveGrid, revolveRot]
    have : ((4 : ℕ) : ℝ) * Real.pi / 2 * (1 - ((0 : ℕ) : ℝ) / n) + (((4 : ℕ) : ℝ) + 1) * Real.pi / 2 * (((0 : ℕ) : ℝ) / n)
        = 2 * Real.pi := by simp; ring
    rw [this]
    simp [Real.cos_two_pi, Real.sin_two_pi]
  have e : (List.range 4) = [0, 1, 2, 3] := rfl
  rw [e]
  simp only [List.map_cons, List.map_nil, List.sum_cons, List.sum_nil, bdry, hE, hW, hseam]
  simp only [zero_add, Nat.reduceAdd, hlast]
  ring

/-- The hypotheses are met by a cone-like line from the nose to the base centre. -/
example : ∃ (line : PathObj) (f : ℝ → V), (∀ t, 0 ≤ t → t ≤ 1 → line.call t = .ok (f t)) ∧
    ((f 0).y = 0 ∧ (f 0).z = 0) ∧ ((f 1).y = 0 ∧ (f 1).z = 0) ∧ f (1 / 2) ≠ f 0 := by
  refine ⟨⟨fun t => .ok ⟨t, t * (1 - t), 0⟩, .ok 0⟩, fun t => ⟨t, t * (1 - t), 0⟩, fun _ _ _ => rfl, by norm_num, by norm_num,
    ?_⟩
  intro h
  have := congrArg Vec.x h
  norm_num at this

end HV
