import Verif.Lemmas.RevolvedEnds
import Verif.Props.Curved

/-!
# C115: a body of revolution is closed exactly if its profile starts and ends on the axis
-/

namespace HV
open Spec

namespace Spec

/-- The point lies on the axis of revolution. -/
def OnXAxis (v : V) : Prop := v.y = 0 ∧ v.z = 0

/-- The distance from the axis of revolution. -/
noncomputable def axisDist (v : V) : ℝ := Real.sqrt (v.y ^ 2 + v.z ^ 2)

/-- Turned about the axis the two points describe the same circle. -/
def SameRing (u v : V) : Prop := u.x = v.x ∧ axisDist u = axisDist v

end Spec

theorem vdist_onAxis (v : V) : vdist v (onAxis v) = axisDist v := by
  rw [← Vec.abs_sub_eq_vdist]
  unfold Vec.abs axisDist
  congr 1
  simp [onAxis]

theorem axisDist_eq_zero {v : V} : axisDist v = 0 ↔ OnXAxis v := by
  unfold axisDist OnXAxis
  rw [Real.sqrt_eq_zero (by positivity)]
  constructor
  · intro h
    constructor <;> nlinarith [sq_nonneg v.y, sq_nonneg v.z]
  · rintro ⟨h, k⟩
    simp [h, k]

/-- The closedness of the four grids. -/
theorem revolve_closed_imp (f : ℝ → V) (n : ℕ) (hn : 1 ≤ n) (hr : ¬ SameRing (f 0) (f 1))
    (hc : Closed (((List.range 4).map (revolveGrid f n)).map (gridMesh MeshArith.real false n n)).flatten) : OnXAxis (f 0) ∧ OnXAxis (f 1) := by
  have hn0 : (n : ℝ) ≠ 0 := by positivity
  have hnp : (0 : ℝ) < n := by positivity
  have h1n : (1 : ℝ) ≤ n := by exact_mod_cast hn
  set s := (n : ℝ) * Real.sin (Real.pi / 2 / n) with hs
  have spos : 0 < s := by
    have : 0 < Real.sin (Real.pi / 2 / n) := by
      apply Real.sin_pos_of_pos_of_lt_pi (by have := Real.pi_pos; positivity)
      rw [div_lt_iff₀ hnp]
      nlinarith [Real.pi_pos]
    positivity
  have key : ∀ x : ℝ, (if (f 1).x = x then -(s * ((f 1).y ^ 2 + (f 1).z ^ 2)) else 0) - (if (f 0).x = x then -(s * ((f 0).y ^ 2 + (f 0).z ^ 2)) else 0) = 0 := by
    intro x
    have h := edgeSum_eq_zero_of_balanced (sweep x) (sweep_anti x) (fun a ha => by linarith) _ hc
    rw [edgeSum_grids _ (sweep_anti x), revolve_bdry _ f n hn] at h
    simp only [sweep_end f n _ _ hn, div_self hn0, Nat.cast_zero, zero_div, Finset.sum_const, Finset.card_range, nsmul_eq_mul] at h
    rw [← hs] at h
    have h4 : ((4 : ℕ) : ℝ) ≠ 0 := by norm_num
    exact (mul_eq_zero.1 h).resolve_left h4
  have ax : ∀ v : V, s * (v.y ^ 2 + v.z ^ 2) = 0 → OnXAxis v := by
    intro v hv
    have := (mul_eq_zero.1 hv).resolve_left spos.ne'
    constructor <;> nlinarith [sq_nonneg v.y, sq_nonneg v.z]
  by_cases hx : (f 0).x = (f 1).x
  · have k := key (f 1).x
    rw [if_pos rfl, if_pos hx] at k
    refine absurd ⟨hx, ?_⟩ hr
    have : (f 0).y ^ 2 + (f 0).z ^ 2 = (f 1).y ^ 2 + (f 1).z ^ 2 := mul_left_cancel₀ spos.ne' (by linarith)
    unfold axisDist
    rw [this]
  · have k0 := key (f 0).x
    have k1 := key (f 1).x
    rw [if_neg fun h => hx h.symm, if_pos rfl] at k0
    rw [if_pos rfl, if_neg hx] at k1
    exact ⟨ax _ (by linarith), ax _ (by linarith)⟩

/-- C115: unless both ends of the line describe the same circle, the mesh of a `RevolvedComponent` is closed exactly if both ends lie on the
axis; so any other line leaves a hole. -/
theorem C115_ends (line : PathObj) (f : ℝ → V) (hl : ∀ t, 0 ≤ t → t ≤ 1 → line.call t = .ok (f t)) (hr : ¬ SameRing (f 0) (f 1))
    (n : ℕ) (hn : 1 ≤ n) (name : Option String) (h : Heap) (id : ℕ) (hid : h id = RevolvedComponent line n name) :
    ∃ h' M c', generatePatches h id = (.ok (), h') ∧ (h' id).mesh = (.ok M, c') ∧
      (Closed M.tris ↔ OnXAxis (f 0) ∧ OnXAxis (f 1)) := by
  obtain ⟨h', M, c', g1, g2, g3⟩ := revolved_mesh line f hl n hn name h id hid
  refine ⟨h', M, c', g1, g2, fun hc => ?_, fun ⟨a, b⟩ => ?_⟩
  · rw [g3] at hc
    exact revolve_closed_imp f n hn hr hc
  · obtain ⟨h'', M', c'', k1, k2, k3⟩ := C60_watertight line f hl a b n hn name h id hid
    rw [g1] at k1
    obtain rfl := (Prod.mk.inj k1).2
    rw [g2] at k2
    obtain rfl := Except.ok.inj (Prod.mk.inj k2).1
    exact k3

/-- C115: a line that comes back to its first point makes a closed ring. -/
theorem C115_ring (line : PathObj) (f : ℝ → V) (hl : ∀ t, 0 ≤ t → t ≤ 1 → line.call t = .ok (f t)) (hr : f 0 = f 1)
    (n : ℕ) (hn : 1 ≤ n) (name : Option String) (h : Heap) (id : ℕ) (hid : h id = RevolvedComponent line n name) :
    ∃ h' M c', generatePatches h id = (.ok (), h') ∧ (h' id).mesh = (.ok M, c') ∧ Closed M.tris := by
  have hn0 : (n : ℝ) ≠ 0 := by positivity
  obtain ⟨h', M, c', g1, g2, g3⟩ := revolved_mesh line f hl n hn name h id hid
  refine ⟨h', M, c', g1, g2, ?_⟩
  rw [g3, closed_iff_edgeSum]
  intro φ hφ
  rw [edgeSum_grids φ hφ, revolve_bdry φ f n hn]
  apply Finset.sum_eq_zero
  intro k _
  rw [sub_eq_zero]
  apply pathSum_congr
  intro j _
  simp [revolveGrid, div_self hn0, hr]

/-- The mesh of a bent body of revolution. -/
theorem bent_revolved_mesh (line : PathObj) (f : ℝ → V) (hl : ∀ t, 0 ≤ t → t ≤ 1 → line.call t = .ok (f t)) (l : List Curvature)
    (hb : ∀ k ∈ l, (k.direction = "x" ∨ k.direction = "y") ∧ ∀ x y, ∃ f m, k.fn x y = .ok f ∧ k.fn_dash x y = .ok m)
    (n : ℕ) (hn : 1 ≤ n) (name : Option String) (H : Heap) (id : ℕ) (hid : H id = { RevolvedComponent line n name with curvatures := some l }) :
    ∃ g c, generatePatches H id = (.ok (), g) ∧ pipeline 0 (g id) = (.ok (), c) ∧ ∃ M c', c.mesh = (.ok M, c') ∧
      M.tris = ((((List.range 4).map (revolveGrid f n)).map fun G i j => curveAll l (G i j)).map (gridMesh MeshArith.real false n n)).flatten := by
  have hn0 : (n : ℝ) ≠ 0 := by positivity
  have hnp : (0 : ℝ) < n := by positivity
  have hsteps : runSteps ((List.range 4).map fun (i : ℕ) => GenStep.patch ("revolved_fuse_" ++ toString i)
      (.ok (RevolvedPatch line (i * Real.pi / 2) (((i : ℝ) + 1) * Real.pi / 2)))) =
      ⟨(List.range 4).map fun (i : ℕ) => ("revolved_fuse_" ++ toString i,
        RevolvedPatch line (i * Real.pi / 2) (((i : ℝ) + 1) * Real.pi / 2)), [], [], none⟩ :=
    runSteps_patches (List.range 4) (fun i => "revolved_fuse_" ++ toString i)
      (fun (i : ℕ) => RevolvedPatch line (i * Real.pi / 2) (((i : ℝ) + 1) * Real.pi / 2))
  obtain ⟨g, g1, g2, -⟩ := curved_leaf H id (fun _ => runSteps ((List.range 4).map fun (i : ℕ) =>
      GenStep.patch ("revolved_fuse_" ++ toString i)
      (.ok (RevolvedPatch line (i * Real.pi / 2) (((i : ℝ) + 1) * Real.pi / 2))))) (by rw [hid]; rfl) n hn
    (by rw [hid]; rfl) (by rw [hid]; rfl) (by rw [hid]; rfl) (by rw [hid]; rfl) (by rw [hid]; rfl)
    (by rw [hsteps]) (by rw [hsteps, List.map_map]; exact prefix_ix_nodup _ 4) (by rw [hsteps]; simp)
    ((List.range 4).map (revolveGrid f n))
    (by
      unfold GridsOf
      rw [hsteps, List.forall₂_map_right_iff, List.forall₂_map_left_iff, List.forall₂_same]
      intro k _ i hi j hj
      have hi' : (i : ℝ) / n ≤ 1 := by rw [div_le_one hnp]; exact_mod_cast hi
      exact (RevolvedPatch_eq line _ _ _ _ _ (hl ((i : ℝ) / n) (by positivity) hi')))
    (by rw [hid]; rfl) l (by rw [hid]) hb (by rw [hid]; rfl)
  obtain ⟨c, M, c'', k1, k2, k3⟩ := g2 (by rw [hid]; rfl)
  exact ⟨g, c, g1, k1, M, c'', k2, k3⟩

/-- C115: a line whose ends are within `δ` of the axis makes a mesh whose holes close by moving vertices by at most `δ`; bent by curvatures,
by at most the factor of the curvatures times `δ`. -/
theorem C115_near (line : PathObj) (f : ℝ → V) (hl : ∀ t, 0 ≤ t → t ≤ 1 → line.call t = .ok (f t)) (δ : ℝ) (h0 : axisDist (f 0) ≤ δ)
    (h1 : axisDist (f 1) ≤ δ) (l : List Curvature) (X Y Z κ : ℝ) (hb : Bends l X Y Z κ) (hX : |(f 0).x| ≤ X ∧ |(f 1).x| ≤ X) (hY : 0 ≤ Y) (hZ : 0 ≤ Z)
    (hκ : κ * δ ≤ 1) (n : ℕ) (hn : 1 ≤ n) (name : Option String) (H : Heap) (id : ℕ)
    (hid : H id = { RevolvedComponent line n name with curvatures := some l }) :
    ∃ g c, generatePatches H id = (.ok (), g) ∧ pipeline 0 (g id) = (.ok (), c) ∧ ∃ M c', c.mesh = (.ok M, c') ∧ ClosedUpTo (κ * δ) M.tris := by
  obtain ⟨g, c, g1, k1, M, c'', k2, k3⟩ := bent_revolved_mesh line f hl l (bends_total hb) n hn name H id hid
  refine ⟨g, c, g1, k1, M, c'', k2, ?_⟩
  have hδ : 0 ≤ δ := (Real.sqrt_nonneg _).trans h0
  have h1κ := bends_ge hb hZ
  rw [k3]
  refine Spec.Glued.closed (B := fun _ => True) ((glued_revolved f n hn δ (by rw [vdist_onAxis]; exact h0) (by rw [vdist_onAxis]; exact h1)).map
    (curveAll l) (fun u v hv hd => bends_near hb u v δ ?_ hd hκ) (fun _ _ => trivial) (fun _ h => h)) (by positivity)
  rcases hv with rfl | rfl
  · exact ⟨hX.1, by simpa [onAxis] using hY, by simpa [onAxis] using hZ⟩
  · exact ⟨hX.2, by simpa [onAxis] using hY, by simpa [onAxis] using hZ⟩

/-- An open cylinder is not closed, at any resolution. -/
example (n : ℕ) (hn : 1 ≤ n) : ∃ h' M c', generatePatches (fun _ => RevolvedComponent (Line ⟨0, 1, 0⟩ ⟨1, 1, 0⟩) n none) 0 = (.ok (), h') ∧
    (h' 0).mesh = (.ok M, c') ∧ ¬ Closed M.tris := by
  obtain ⟨h', M, c', g1, g2, g3⟩ := C115_ends (Line (⟨0, 1, 0⟩ : V) ⟨1, 1, 0⟩) (fun t => ⟨t, 1, 0⟩)
    (fun t _ _ => by show Except.ok _ = _; congr 1; ext <;> simp [lineAt]) (fun h => by have := h.1; simp at this) n hn none
    (fun _ => RevolvedComponent (Line ⟨0, 1, 0⟩ ⟨1, 1, 0⟩) n none) 0 rfl
  exact ⟨h', M, c', g1, g2, fun h => by have := (g3.1 h).1.1; simp at this⟩

/-- A cone with a hole of radius a thousandth at its tip is closed up to a thousandth. -/
example (n : ℕ) (hn : 1 ≤ n) : ∃ g c, generatePatches (fun _ => { RevolvedComponent (Line ⟨0, 0.001, 0⟩ ⟨1, 0, 0⟩) n none with curvatures := some [] }) 0 = (.ok (), g) ∧
    pipeline 0 (g 0) = (.ok (), c) ∧ ∃ M c', c.mesh = (.ok M, c') ∧ ClosedUpTo (1 * 0.001) M.tris := by
  refine C115_near (Line (⟨0, 0.001, 0⟩ : V) ⟨1, 0, 0⟩) (fun t => ⟨t, 0.001 * (1 - t), 0⟩) (fun t _ _ => ?_) 0.001 ?_ ?_ [] 1 1 1 1 (.nil _ _ _) (by simp) (by norm_num) (by norm_num)
    (by norm_num) n hn none _ 0 rfl
  · show Except.ok _ = _
    congr 1
    ext <;> simp [lineAt]
  · simp only [axisDist]
    rw [show (0.001 * (1 - 0) : ℝ) ^ 2 + 0 ^ 2 = 0.001 ^ 2 by norm_num, Real.sqrt_sq (by norm_num)]
  · simp [axisDist]
    norm_num

end HV
