import Verif.Props.OneBody
import Verif.Props.Clustering
import Verif.Props.RevolvedEnds

/-!
# Generating a vehicle that is moved as a whole, and bodies of revolution with every option
-/

namespace HV
open Spec Veh

theorem keys_fst {d : Dict String Surf} : d.map Prod.fst = d.keys := rfl

theorem reflect_nodup (c : Comp) (a : Option String) (h : c.patches.keys.Nodup) : (c.reflect a).patches.keys.Nodup := by
  unfold Comp.reflect
  have hm : ∀ (l : List (String × Surf)) (b : String) (d : Dict String Surf), d.keys.Nodup →
      (l.foldl (fun (d : Dict String Surf) e => d.set (e.1 ++ "_mirrored") (MirroredPatch e.2 b)) d).keys.Nodup := by
    intro l b
    induction l with
    | nil => exact fun d hd => hd
    | cons e l ih => exact fun d hd => ih _ (Dict.nodup_set _ _ _ hd)
  split
  · exact h
  · dsimp only
    split_ifs
    · exact Dict.nodup_setAll _ _ h
    · exact hm _ _ _ (by simp [Dict.keys])

theorem curve_nodup (c : Comp) (h : c.patches.keys.Nodup) : c.curve.patches.keys.Nodup := by
  unfold Comp.curve
  split
  · exact h
  · rename_i l hl
    clear hl
    simp only
    generalize c.patches = d at h
    induction l generalizing d with
    | nil => exact h
    | cons k l ih => exact ih _ (by rw [Dict.keys_mapVals]; exact h)

theorem modifier_nodup (c : Comp) (h : c.patches.keys.Nodup) : c.applyModifier.patches.keys.Nodup := by
  unfold Comp.applyModifier
  split
  · exact h
  · simp only [Dict.keys_mapVals]; exact h

theorem rotate_nodup (c : Comp) (θ : ℝ) (a : String) (h : c.patches.keys.Nodup) : (c.rotate θ a).patches.keys.Nodup := by
  simp only [Comp.rotate, Dict.keys_mapVals]; exact h

theorem applyAll_nodup (ts : List Transf) (c : Comp) (h : c.patches.keys.Nodup) : (c.applyAll ts).2.patches.keys.Nodup := by
  induction ts generalizing c with
  | nil => exact h
  | cons t ts ih =>
    unfold Comp.applyAll
    rcases ht : c.applyTransf t with x | c'
    · exact h
    · apply ih
      cases t <;> simp only [Comp.applyTransf, Except.ok.injEq, reduceCtorEq] at ht <;> subst ht
      · exact rotate_nodup _ _ _ h
      · simp only [Comp.translate, Dict.keys_mapVals]; exact h
      · exact reflect_nodup _ _ h
      · exact curve_nodup _ h
      · exact modifier_nodup _ h

theorem pipeline_nodup (angle : ℝ) (c : Comp) (h : c.patches.keys.Nodup) : (pipeline angle c).2.patches.keys.Nodup :=
  applyAll_nodup _ _ (reflect_nodup _ _ (rotate_nodup _ _ _ (curve_nodup _ (modifier_nodup _ h))))

theorem generatePatches_nodup (h : Heap) (id : ℕ) (hid : id ∉ (h id).children) (hn : (h id).patches.keys.Nodup) :
    ((generatePatches h id).2 id).patches.keys.Nodup := by
  have z : (Dict.keys ([] : Dict String Surf)).Nodup := by simp [Dict.keys]
  unfold generatePatches
  unfold Comp.children at hid
  rcases hg : (h id).gen with out | out | ch
  · unfold Composite.genLeaf
    simp only [hg, upd_self, Comp.genInto]
    exact Dict.nodup_setAll _ _ hn
  · unfold Composite.genLeaf
    simp only [hg, upd_self, Comp.genReplace]
    split
    · exact hn
    · exact Dict.nodup_setAll _ _ z
  · rw [hg] at hid
    simp only at hid ⊢
    unfold Composite.generatePatches
    have := genChildren_other h ch id hid
    rcases hk : Composite.genChildren h ch with ⟨_ | _, h'⟩
    · rw [hk] at this
      simp only at this ⊢
      rw [this]; exact hn
    · simp only [upd_self]
      exact Dict.nodup_setAll _ _ z

/-- A generated component has not been meshed. -/
theorem generated_unmeshed {n : ℕ} {angle : ℝ} {h g : Heap} {id : ℕ} {c : Comp} (hu : Unmeshed n (h id)) (hid : id ∉ (h id).children)
    (h1 : generatePatches h id = (.ok (), g)) (h2 : pipeline angle (g id) = (.ok (), c)) : Unmeshed n c := by
  obtain ⟨P, R, S, e⟩ := generatePatches_opts h id hid
  have hn := generatePatches_nodup h id hid hu.names
  rw [h1] at e hn
  obtain ⟨P', e'⟩ := pipeline_frame angle (g id)
  have hn' := pipeline_nodup angle (g id) hn
  rw [h2] at e' hn'
  simp only at e e' hn'
  rw [e] at e'
  exact ⟨by rw [e']; exact hu.res, by rw [e']; exact hu.mesh, by rw [e']; exact hu.surf, hn', by rw [e']; exact hu.mirror⟩

/-- Generating a vehicle with rigid transformations: the meshes its components would have without them, all moved by the same motion. -/
theorem generate_moved (lib : Lib) (depth : ℕ) (st : VState) (hang : st.veh.angleOffset = 0) (hr : RigidList st.veh.transformations)
    (han : st.veh.analyseOn = none) (hu : Unshared st.heap st.veh.components) (res : ℕ → ℕ) (Q : ℕ → TriMesh ℝ → Prop)
    (hg : ∀ k ∈ st.veh.components, 1 ≤ res k ∧ Unmeshed (res k) (st.heap k) ∧ ∃ g c, generatePatches st.heap k = (.ok (), g) ∧
      pipeline 0 (g k) = (.ok (), c) ∧ ∃ M c', c.mesh = (.ok M, c') ∧ Q k M.tris) :
    ∃ A, InTurn st.veh.transformations A ∧ IsMotion A ∧ ∃ st', generate lib depth st = (.ok (), st') ∧ st'.veh = { st.veh with generated := true } ∧
      ∀ k ∈ st.veh.components, ∃ m, Q k m ∧ MeshIs (st'.heap k) (mapVerts A m) := by
  obtain ⟨st0, e0, -, h0⟩ := generate_parts lib depth ⟨st.heap, { st.veh with transformations := [] }⟩ hang rfl han hu
    (fun k c => Unmeshed (res k) c ∧ ∃ M c', c.mesh = (.ok M, c') ∧ Q k M.tris) (by
      intro k hk
      obtain ⟨-, g1, g, c, g2, g3, g4⟩ := hg k hk
      exact ⟨g, c, g2, g3, generated_unmeshed g1 (hu.notChild k hk k hk) g2 g3, g4⟩)
  obtain ⟨A, hI, hA, st', e1, e2, h1⟩ := C117_generate_partial lib depth st st0 hr han hu.nodup e0
  refine ⟨A, hI, hA, st', e1, e2, fun k hk => ?_⟩
  obtain ⟨u1, M, c', u2, u3⟩ := h0 k hk
  obtain ⟨-, v⟩ := h1 k hk (res k) (hg k hk).1 u1
  exact ⟨_, u3, v _ ⟨M, c', u2, rfl⟩⟩

/-- A body of revolution with its ends on the axis stays closed under every combination of clustering, modifier and curvatures. -/
theorem worked_revolved (line : PathObj) (f : ℝ → V) (hl : ∀ t, 0 ≤ t → t ≤ 1 → line.call t = .ok (f t))
    (h0 : (f 0).y = 0 ∧ (f 0).z = 0) (h1 : (f 1).y = 0 ∧ (f 1).z = 0) (u v : Option (ℝ → Res ℝ)) (hu : ∀ w, u = some w → Clusters w)
    (hv : ∀ w, v = some w → Clusters w) (mod : Option OffFn) (hm : ∀ φ, mod = some φ → ∀ x y z, ∃ q, φ x y z = .ok q) (l : List Curvature)
    (hk : ∀ k ∈ l, (k.direction = "x" ∨ k.direction = "y") ∧ ∀ x y, ∃ f m, k.fn x y = .ok f ∧ k.fn_dash x y = .ok m)
    (n : ℕ) (hn : 1 ≤ n) (name : Option String) (H : Heap) (id : ℕ)
    (hid : H id = { (RevolvedComponent line n name).addClusteringOptions u v with modifier := mod, curvatures := some l }) :
    ∃ g c, generatePatches H id = (.ok (), g) ∧ pipeline 0 (g id) = (.ok (), c) ∧ ∃ M c', c.mesh = (.ok M, c') ∧ Closed M.tris := by
  set b0 := (RevolvedComponent line n name).addClusteringOptions u v with hb0
  have eb : b0 = { RevolvedComponent line n name with clustering := b0.clustering } := by rw [hb0]; rfl
  obtain ⟨h', M, c', g1, g2, g3⟩ := C100_revolved_partial line f hl h0 h1 n hn name u v hu hv (fun _ => b0) 0 rfl
  have hsteps : (runSteps ((List.range 4).map fun (i : ℕ) => GenStep.patch ("revolved_fuse_" ++ toString i)
      (.ok (RevolvedPatch line (i * Real.pi / 2) (((i : ℝ) + 1) * Real.pi / 2))))).err = none := rfl
  set out := runSteps ((List.range 4).map fun (i : ℕ) => GenStep.patch ("revolved_fuse_" ++ toString i)
      (.ok (RevolvedPatch line (i * Real.pi / 2) (((i : ℝ) + 1) * Real.pi / 2)))) with hout
  have e0 : generatePatches (fun _ => b0) 0 = (.ok (), Heap.upd (fun _ => b0) 0 (b0.genInto out).2) := by
    have hg : b0.gen = .into fun _ => out := by rw [eb]; rfl
    simp only [generatePatches, Composite.genLeaf, hg, Comp.genInto, hsteps]
  have e1 : generatePatches H id = (.ok (), H.upd id ((H id).genInto out).2) := by
    have hg : (H id).gen = .into fun _ => out := by rw [hid, eb]; rfl
    simp only [generatePatches, Composite.genLeaf, hg, Comp.genInto, hsteps]
  rw [e0] at g1
  obtain rfl := (Prod.mk.inj g1).2
  rw [upd_self] at g2
  set b := ((H id).genInto out).2 with hb
  have hw : WatertightAt n (b0.genInto out).2 :=
    ⟨by rw [eb]; rfl, by rw [eb]; rfl, by rw [eb]; rfl, by
      rw [eb]
      show ((Dict.setAll [] out.items).map Prod.fst).Nodup
      rw [Dict.setAll_nil_nodup _ (by rw [hout, runSteps_patches, List.map_map]; exact prefix_ix_nodup _ 4), hout, runSteps_patches, List.map_map]
      exact prefix_ix_nodup _ 4, M, c', g2, g3⟩
  have hwb : WatertightAt n b := watertight_congr hn hw (by rw [hb, hid]; rfl) (by rw [hb, hid]; rfl) (by rw [hb, hid]; rfl) (by rw [hb, hid]; rfl)
    (by rw [hb, hid]; rfl)
  have hmo : b.modifier = mod := by rw [hb, hid]; rfl
  obtain ⟨ψ, ha0⟩ := modifierFn_acts b (by rw [hmo]; exact hm)
  have hw1 := watertight_acts hn ha0 hwb
  have hcu : b.applyModifier.curvatures = some l := (congrArg Comp.curvatures ha0.1 :).trans (by rw [hb, hid]; rfl)
  obtain ⟨φ, ha⟩ := curveFn_acts b.applyModifier (by rw [hcu]; rintro _ ⟨⟩; exact hk)
  obtain ⟨-, -, -, -, M', c'', m1, m2⟩ := watertight_acts hn ha hw1
  have ha2 := acts_trans ha0 ha
  refine ⟨_, b.applyModifier.curve, e1, ?_, M', c'', m1, m2⟩
  rw [upd_self]
  have r1 : b.applyModifier.curve.reflection_axis = none := (congrArg Comp.reflection_axis ha2.1 :).trans (by rw [hb, hid, eb]; rfl)
  have r2 : b.applyModifier.curve.transformations = [] := (congrArg Comp.transformations ha2.1 :).trans (by rw [hb, hid, eb]; rfl)
  unfold pipeline
  rw [rotate_zero]
  have hr : b.applyModifier.curve.reflect none = b.applyModifier.curve := by
    unfold Comp.reflect
    rw [r1]
    rfl
  rw [hr]
  unfold Comp.transform
  rw [r2]; rfl

end HV
