import Verif.Props.Recorded
import Verif.Props.Verbosity

/-!
# C131: work on a vehicle keeps the definitions of its components
-/

namespace HV
namespace Spec

/-- What was chosen for a component, as opposed to what was computed from it: everything but its patches, their resolutions, its
surfaces and its mesh. -/
def design (c : Comp) : Comp := { c with patches := [], patch_res_r := [], patch_res_s := [], surfaces := none, mesh_ := none }

/-- Calls that generate, move, analyse or write. -/
def Computes : Veh.Call → Prop
  | .generate | .transform _ | .analyse _ | .toStl _ _ => True
  | _ => False

end Spec

open Spec

/-- The two heaps hold components of the same designs. -/
def SameDesigns (h h' : Heap) : Prop := ∀ k, design (h' k) = design (h k)

theorem SameDesigns.refl (h : Heap) : SameDesigns h h := fun _ => rfl

theorem SameDesigns.trans {a b c : Heap} (h1 : SameDesigns a b) (h2 : SameDesigns b c) : SameDesigns a c :=
  fun k => (h2 k).trans (h1 k)

theorem sameDesigns_upd (h : Heap) (id : ℕ) (c : Comp) (hc : design c = design (h id)) : SameDesigns h (h.upd id c) := by
  intro k
  by_cases hk : k = id
  · subst hk; rw [upd_self]; exact hc
  · rw [upd_ne _ _ _ _ hk]

/-! ## Components -/

theorem design_curve (c : Comp) : design c.curve = design c := by
  rcases hc : c.curvatures with _ | l <;> simp only [Comp.curve, design, hc]

theorem design_modifier (c : Comp) : design c.applyModifier = design c := by
  rcases hc : c.modifier with _ | l <;> simp only [Comp.applyModifier, design, hc]

theorem design_reflect (c : Comp) (axis : Option String) : design (c.reflect axis) = design c := by
  unfold Comp.reflect
  rcases c.reflection_axis.or axis with _ | a
  · rfl
  · dsimp only
    split <;> rfl

theorem design_transf (c c' : Comp) (t : Transf) (h : c.applyTransf t = .ok c') : design c' = design c := by
  cases t <;> simp only [Comp.applyTransf, Except.ok.injEq, reduceCtorEq] at h <;> subst h
  · rfl
  · rfl
  · exact design_reflect _ _
  · exact design_curve _
  · exact design_modifier _

theorem design_applyAll (ts : List Transf) : ∀ c : Comp, design (c.applyAll ts).2 = design c := by
  induction ts with
  | nil => intro c; rfl
  | cons t ts ih =>
    intro c
    unfold Comp.applyAll
    rcases h : c.applyTransf t with e | c'
    · rfl
    · exact (ih c').trans (design_transf c c' t h)

theorem design_surface (c : Comp) (r : Option Reso) : design (c.surface r).2 = design c := by
  unfold Comp.surface
  split
  · rfl
  · rcases c.patches.mapM (c.caseOf (r.getD c.stl_resolution)) with e | l
    · rfl
    · show design (c.surfaceCases l).2 = design c
      unfold Comp.surfaceCases
      split
      · rcases l.mapM (Comp.wrapper c.clustering) with e | r <;> rfl
      · rfl

theorem design_combine (c : Comp) : design c.combine.2 = design c := by
  unfold Comp.combine
  rcases c.surfaces with _ | _ | ⟨x, l⟩ <;> rfl

theorem design_buildMesh (c : Comp) : design c.buildMesh.2 = design c := by
  unfold Comp.buildMesh
  rcases c.surfaces with _ | l
  · have h := design_surface c none
    rcases hx : c.surface with ⟨e | _, c'⟩ <;> rw [hx] at h
    · exact h
    · exact (design_combine c').trans h
  · exact design_combine c

theorem design_mesh (c : Comp) : design c.mesh.2 = design c := by
  unfold Comp.mesh
  rcases c.mesh_ with _ | m
  · exact design_buildMesh c
  · dsimp only
    split
    · rfl
    · exact design_buildMesh c

theorem design_toStl (c : Comp) (f : Option String) : design (c.toStl f).2 = design c := by
  unfold Comp.toStl
  split
  · rfl
  · have h := design_mesh c
    rcases hx : c.mesh with ⟨e | m, c'⟩ <;> rw [hx] at h <;> exact h

theorem designs_genLeaf (h : Heap) (id : ℕ) : SameDesigns h (Composite.genLeaf h id).2 := by
  unfold Composite.genLeaf
  rcases (h id).gen with out | out | l
  · exact sameDesigns_upd _ _ _ rfl
  · refine sameDesigns_upd _ _ _ ?_
    unfold Comp.genReplace
    rcases (out (h id).stl_resolution).err with _ | e <;> rfl
  · exact SameDesigns.refl h

theorem designs_genChildren (l : List ℕ) : ∀ h : Heap, SameDesigns h (Composite.genChildren h l).2 := by
  induction l with
  | nil => intro h; exact SameDesigns.refl h
  | cons k ks ih =>
    intro h
    unfold Composite.genChildren
    have h1 := designs_genLeaf h k
    rcases hx : Composite.genLeaf h k with ⟨e | _, h'⟩ <;> rw [hx] at h1
    · exact h1
    · exact h1.trans (ih h')

theorem designs_generatePatches (h : Heap) (id : ℕ) : SameDesigns h (generatePatches h id).2 := by
  unfold generatePatches
  rcases (h id).gen with out | out | l
  · exact designs_genLeaf h id
  · exact designs_genLeaf h id
  · show SameDesigns h (Composite.generatePatches h id l).2
    unfold Composite.generatePatches
    have h1 := designs_genChildren l h
    rcases hx : Composite.genChildren h l with ⟨e | _, h'⟩ <;> rw [hx] at h1
    · exact h1
    · exact h1.trans (sameDesigns_upd _ _ _ rfl)

/-! ## The vehicle -/

namespace Veh

theorem designs_genOne (angle : ℝ) (h : Heap) (id : ℕ) : SameDesigns h (genOne angle h id).2 := by
  unfold genOne
  have h1 := designs_generatePatches h id
  rcases hx : generatePatches h id with ⟨e | _, h'⟩ <;> rw [hx] at h1
  · exact h1
  · refine h1.trans (sameDesigns_upd _ _ _ ?_)
    refine (design_applyAll _ _).trans ((design_reflect _ _).trans ?_)
    exact (design_curve (h' id).applyModifier).trans (design_modifier _)

theorem designs_genAll (angle : ℝ) (l : List ℕ) : ∀ h : Heap, SameDesigns h (genAll angle h l).2 := by
  induction l with
  | nil => intro h; exact SameDesigns.refl h
  | cons k ks ih =>
    intro h
    unfold genAll
    have h1 := designs_genOne angle h k
    rcases hx : genOne angle h k with ⟨e | _, h'⟩ <;> rw [hx] at h1
    · exact h1
    · exact h1.trans (ih h')

theorem designs_transformOne (ts : List Transf) (h : Heap) (id : ℕ) : SameDesigns h (transformOne h ts id).2 := by
  unfold transformOne
  have h1 := design_applyAll ts (h id)
  rcases hx : (h id).applyAll ts with ⟨e | _, c⟩ <;> rw [hx] at h1
  · exact sameDesigns_upd _ _ _ h1
  · exact sameDesigns_upd _ _ _ h1

theorem designs_transformAll (ts : List Transf) (l : List ℕ) : ∀ h : Heap, SameDesigns h (transformAll h ts l).2 := by
  induction l with
  | nil => intro h; exact SameDesigns.refl h
  | cons k ks ih =>
    intro h
    unfold transformAll
    have h1 := designs_transformOne ts h k
    rcases hx : transformOne h ts k with ⟨e | _, h'⟩ <;> rw [hx] at h1
    · exact h1
    · exact h1.trans (ih h')

theorem designs_transform (st : VState) (t : TransfArg) : SameDesigns st.heap (transform st t).2.heap := by
  unfold transform
  split
  · exact designs_transformAll _ _ _
  · exact SameDesigns.refl _

theorem designs_genTransform (st : VState) : SameDesigns st.heap (genTransform st).2.heap := by
  unfold genTransform
  split
  · exact SameDesigns.refl _
  · exact designs_transform _ _

/-- The analysis method keeps the designs of the components. -/
def Faithful (an : Analyser) : Prop := ∀ st d, SameDesigns st.heap (an st d).2.heap

theorem designs_generateWith {an : Analyser} (han : Faithful an) (st : VState) : SameDesigns st.heap (generateWith an st).2.heap := by
  unfold generateWith
  have h1 := designs_genAll st.veh.angleOffset st.veh.components st.heap
  rcases hx : genAll st.veh.angleOffset st.heap st.veh.components with ⟨e | _, h⟩ <;> rw [hx] at h1
  · exact h1
  · have h2 := designs_genTransform ⟨h, { st.veh with generated := true }⟩
    dsimp only
    rcases hx : genTransform ⟨h, { st.veh with generated := true }⟩ with ⟨e | _, st'⟩ <;> rw [hx] at h2
    · exact h1.trans h2
    · refine (h1.trans h2).trans ?_
      show SameDesigns st'.heap (genAnalyse an st').2.heap
      unfold genAnalyse
      rcases st'.veh.analyseOn with _ | _ | ⟨d, ds⟩
      · exact SameDesigns.refl _
      · exact SameDesigns.refl _
      · have h3 := han st' (d :: ds)
        dsimp only
        rcases hx : an st' (d :: ds) with ⟨e | a, st''⟩ <;> rw [hx] at h3 <;> exact h3

theorem designs_assessOne (lib : Lib) (dens : Dict String ℝ) (h : Heap) (e : String × ℕ) : SameDesigns h (assessOne lib dens h e).2 := by
  unfold assessOne
  have h1 := design_mesh (h e.2)
  rcases hx : (h e.2).mesh with ⟨x | m, c⟩ <;> rw [hx] at h1
  · exact sameDesigns_upd _ _ _ h1
  · dsimp only
    rcases dens.get e.1 with x | ρ
    · exact sameDesigns_upd _ _ _ h1
    · dsimp only
      rcases lib.massProps m ρ with x | p
      · exact sameDesigns_upd _ _ _ h1
      · have h2 := design_mesh c
        dsimp only
        rcases hm : c.mesh with ⟨x | m', c'⟩ <;> rw [hm] at h2 <;> exact sameDesigns_upd _ _ _ (h2.trans h1)

theorem designs_assessAll (lib : Lib) (dens : Dict String ℝ) (l : List (String × ℕ)) : ∀ h : Heap,
    SameDesigns h (assessAll lib dens h l).2 := by
  induction l with
  | nil => intro h; exact SameDesigns.refl h
  | cons e es ih =>
    intro h
    unfold assessAll
    have h1 := designs_assessOne lib dens h e
    rcases hx : assessOne lib dens h e with ⟨x | p, h'⟩ <;> rw [hx] at h1
    · exact h1
    · have h2 := ih h'
      dsimp only
      rcases hm : assessAll lib dens h' es with ⟨x | ps, h''⟩ <;> rw [hm] at h2 <;> exact h1.trans h2

theorem designs_analyseGenerated (lib : Lib) : Faithful (analyseGenerated lib) := by
  intro st d
  unfold analyseGenerated
  have h1 := designs_assessAll lib d st.veh.named st.heap
  rcases hx : assessAll lib d st.heap st.veh.named with ⟨x | l, h⟩ <;> rw [hx] at h1
  · exact h1
  · dsimp only
    rcases summarise l with x | a <;> exact h1

theorem designs_analyse (lib : Lib) (depth : ℕ) : Faithful (analyse lib depth) := by
  induction depth with
  | zero => intro st d; exact SameDesigns.refl _
  | succ n ih =>
    intro st d
    unfold analyse analyseWith
    split
    · exact designs_analyseGenerated lib st d
    · have h1 := designs_generateWith ih st
      rcases hx : generateWith (analyse lib n) st with ⟨x | _, st'⟩ <;> rw [hx] at h1
      · exact h1
      · exact h1.trans (designs_analyseGenerated lib st' d)

theorem designs_writeAll (pre : Option String) (vname : String) (l : List ℕ) : ∀ (no : Dict String ℕ) (h : Heap),
    SameDesigns h (writeAll pre vname no h l).2.2 := by
  induction l with
  | nil => intro no h; exact SameDesigns.refl h
  | cons k ks ih =>
    intro no h
    unfold writeAll
    have h1 := design_toStl (h k) (some (stlName pre vname (h k) ((no.get? (h k).componenttype).getD 0)))
    dsimp only
    rcases hx : (h k).toStl (some (stlName pre vname (h k) ((no.get? (h k).componenttype).getD 0))) with ⟨x | ev, c'⟩ <;> rw [hx] at h1
    · exact sameDesigns_upd _ _ _ h1
    · exact (sameDesigns_upd h k c' h1).trans (ih _ _)

theorem designs_toStl (st : VState) (pre : Option String) (m : MergeArg) : SameDesigns st.heap (toStl st pre m).2.2.heap := by
  unfold toStl
  have h1 := designs_writeAll pre st.veh.name st.veh.components [] st.heap
  rcases hx : writeAll pre st.veh.name [] st.heap st.veh.components with ⟨x | _, ev, h⟩ <;> rw [hx] at h1 <;> exact h1

/-- C131: generating, moving, analysing and writing a vehicle, successfully or not, change nothing of what was chosen for any component:
its type, its geometry, its options, its name, its resolution; only patches, surfaces and meshes are computed. -/
theorem C131_components (lib : Lib) (depth : ℕ) (st : VState) (c : Call) (hc : Computes c) (k : ℕ) :
    design ((exec lib depth st c).2.heap k) = design (st.heap k) := by
  cases c with
  | generate => exact designs_generateWith (designs_analyse lib depth) st k
  | transform t => exact designs_transform st t k
  | analyse d => exact designs_analyse lib depth st d k
  | toStl p m => exact designs_toStl st p m k
  | _ => cases hc

theorem appendChild_other (h : Heap) (self child k : ℕ) (hk : k ≠ self) : Composite.appendChild h self child k = h k := by
  unfold Composite.appendChild
  rcases (h self).gen with o | o | l
  · rfl
  · rfl
  · exact upd_ne _ _ _ _ hk

theorem appendChild_type (h : Heap) (self child k : ℕ) : (Composite.appendChild h self child k).componenttype = (h k).componenttype := by
  by_cases hk : k = self
  · subst hk
    unfold Composite.appendChild
    rcases (h k).gen with o | o | l
    · rfl
    · rfl
    · dsimp only
      rw [upd_self]
  · rw [appendChild_other h self child k hk]

/-- C131: a call on the vehicle other than these touches no component but the one it adds. -/
theorem C131_other_components (lib : Lib) (depth : ℕ) (st : VState) (c : Call) (k : ℕ) :
    (∀ n v, c = .configure n v → (exec lib depth st c).2.heap k = st.heap k) ∧
    (∀ t, c = .later t → (exec lib depth st c).2.heap k = st.heap k) ∧
    (∀ d, c = .analyseLater d → (exec lib depth st c).2.heap k = st.heap k) ∧
    (∀ n x, c = .property n x → (exec lib depth st c).2.heap k = st.heap k) ∧
    (∀ id o, c = .add id o → k ≠ id → (exec lib depth st c).2.heap k = st.heap k) ∧
    (∀ self child o, c = .addChild self child o → k ≠ self → k ≠ child → (exec lib depth st c).2.heap k = st.heap k) := by
  refine ⟨?_, ?_, ?_, ?_, ?_, ?_⟩
  · rintro n v rfl; rfl
  · rintro t rfl; rfl
  · rintro d rfl; rfl
  · rintro n x rfl; rfl
  · rintro id o rfl hk
    show ((addComponent st id o).2).heap k = _
    unfold addComponent
    split
    · exact upd_ne _ _ _ _ hk
    · rfl
  · rintro self child o rfl hs hc
    show (Composite.addComponent st.heap self child o).2 k = _
    unfold Composite.addComponent
    split
    · exact (appendChild_other _ self child k hs).trans (upd_ne _ _ _ _ hc)
    · rfl

theorem childWith_type (c : Comp) (v : ℤ) (o : AddOpts) : (Composite.childWith c v o).componenttype = c.componenttype := by
  have := (setCommon_rest c v o).1
  unfold Composite.childWith
  split <;> exact this

/-- No call changes the type of a component. -/
theorem exec_type (lib : Lib) (depth : ℕ) (st : VState) (c : Call) (k : ℕ) :
    ((exec lib depth st c).2.heap k).componenttype = (st.heap k).componenttype := by
  have key : Computes c → ((exec lib depth st c).2.heap k).componenttype = (st.heap k).componenttype := by
    intro hc
    have h := congrArg (fun d : Comp => d.componenttype) (show design _ = design _ from C131_components lib depth st c hc k)
    exact h
  cases c with
  | configure n v => rfl
  | add id o => exact addComponent_type st id o k
  | addChild self child o =>
    show ((Composite.addComponent st.heap self child o).2 k).componenttype = _
    have up : ∀ j, ((st.heap.upd child (Composite.childWith (st.heap child) (st.heap self).verbosity o)) j).componenttype =
        (st.heap j).componenttype := by
      intro j
      by_cases hj : j = child
      · subst hj; rw [upd_self]; exact childWith_type _ _ _
      · rw [upd_ne _ _ _ _ hj]
    unfold Composite.addComponent
    split
    · exact (appendChild_type _ self child k).trans (up k)
    · rfl
  | later t => rfl
  | analyseLater d => rfl
  | property n x => rfl
  | generate => exact key trivial
  | transform t => exact key trivial
  | analyse d => exact key trivial
  | toStl p m => exact key trivial

end Veh
end HV
