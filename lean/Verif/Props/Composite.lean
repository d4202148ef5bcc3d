import Verif.Spec.Component
import Verif.Lemmas.Dict
import Verif.Lemmas.Name
import Verif.Props.Component

/-!
# C56, C57: composite components
-/

namespace HV
open Spec

theorem upd_self (h : Heap) (id : ℕ) (c : Comp) : h.upd id c id = c := by simp [Heap.upd]
theorem upd_ne (h : Heap) (id k : ℕ) (c : Comp) (hk : k ≠ id) : h.upd id c k = h k := by simp [Heap.upd, hk]

/-- Generating a leaf touches only that leaf. -/
theorem genLeaf_other (h : Heap) (id k : ℕ) (hk : k ≠ id) : (Composite.genLeaf h id).2 k = h k := by
  unfold Composite.genLeaf
  split
  · exact upd_ne _ _ _ _ hk
  · exact upd_ne _ _ _ _ hk
  · rfl

theorem genLeaf_nodup (h : Heap) (id : ℕ) (hn : (h id).patches.keys.Nodup) :
    ((Composite.genLeaf h id).2 id).patches.keys.Nodup := by
  unfold Composite.genLeaf
  split
  · simp only [upd_self]; exact Dict.nodup_setAll _ _ hn
  · simp only [upd_self]
    unfold Comp.genReplace
    split
    · exact hn
    · exact Dict.nodup_setAll _ _ (by simp [Dict.keys])
  · exact hn

theorem genChildren_other (h : Heap) (l : List ℕ) (k : ℕ) (hk : k ∉ l) : (Composite.genChildren h l).2 k = h k := by
  induction l generalizing h with
  | nil => rfl
  | cons a l ih =>
    simp only [List.mem_cons, not_or] at hk
    unfold Composite.genChildren
    have := genLeaf_other h a k hk.1
    rcases hg : Composite.genLeaf h a with ⟨_ | _, h'⟩
    · rw [hg] at this; exact this
    · rw [hg] at this; simp only; rw [ih h' hk.2]; exact this

theorem genChildren_nodup (h : Heap) (l : List ℕ) (hn : ∀ k, (h k).patches.keys.Nodup) :
    ∀ k, ((Composite.genChildren h l).2 k).patches.keys.Nodup := by
  induction l generalizing h with
  | nil => exact hn
  | cons a l ih =>
    have h1 : ∀ k, ((Composite.genLeaf h a).2 k).patches.keys.Nodup := by
      intro k
      by_cases hk : k = a
      · subst hk; exact genLeaf_nodup h k (hn k)
      · rw [genLeaf_other h a k hk]; exact hn k
    unfold Composite.genChildren
    rcases hg : Composite.genLeaf h a with ⟨_ | _, h'⟩
    · rw [hg] at h1; exact h1
    · rw [hg] at h1; exact ih h' h1

/-- The items of a composite: for child number `ix` and patch `key`, the patch named `<key>_<ix>`. -/
def Spec.compositeItems (h : Heap) (children : List ℕ) : List (String × Surf) :=
  children.zipIdx.flatMap fun x => (h x.1).patches.map fun e => (e.1 ++ "_" ++ toString x.2, e.2)

theorem mergedItems_eq (h : Heap) (l : List ℕ) (ix : ℕ) :
    Composite.mergedItems h ix l =
      (l.zipIdx ix).flatMap fun x => (h x.1).patches.map fun e => (e.1 ++ "_" ++ toString x.2, e.2) := by
  induction l generalizing ix with
  | nil => rfl
  | cons a l ih => simp [Composite.mergedItems, List.zipIdx_cons, ih]

theorem zipIdx_names_nodup (h : Heap) (l : List ℕ) (hn : ∀ k, (h k).patches.keys.Nodup) (ix : ℕ) :
    ((Composite.mergedItems h ix l).map Prod.fst).Nodup ∧
    ∀ s ∈ (Composite.mergedItems h ix l).map Prod.fst, ∃ key j, ix ≤ j ∧ s = key ++ "_" ++ toString j := by
  induction l generalizing ix with
  | nil => simp [Composite.mergedItems]
  | cons a l ih =>
    obtain ⟨ih1, ih2⟩ := ih (ix + 1)
    have e : (Composite.mergedItems h ix (a :: l)).map Prod.fst =
        (h a).patches.keys.map (fun k => k ++ "_" ++ toString ix) ++ (Composite.mergedItems h (ix + 1) l).map Prod.fst := by
      simp [Composite.mergedItems, Dict.keys]
    rw [e]
    constructor
    · rw [List.nodup_append]
      refine ⟨(hn a).map fun x y hxy => (name_ix_inj hxy).1, ih1, ?_⟩
      rintro x hx y hy rfl
      obtain ⟨k, _, rfl⟩ := List.mem_map.1 hx
      obtain ⟨k', j, hj, h'⟩ := ih2 _ hy
      have := (name_ix_inj h').2
      omega
    · intro s hs
      rcases List.mem_append.1 hs with hs | hs
      · obtain ⟨k, _, rfl⟩ := List.mem_map.1 hs
        exact ⟨k, ix, le_refl _, rfl⟩
      · obtain ⟨k, j, hj, h'⟩ := ih2 s hs
        exact ⟨k, j, by omega, h'⟩

/-- C56: after `generate_patches` a composite has exactly the patches of its children, in order, patch `key` of child
number `ix` being called `<key>_<ix>`; the names are distinct; the children are generated as they would be on their own.
(`id` not being its own child is guaranteed by `C56_rejects`.) -/
theorem C56_all_patches (h h' : Heap) (id : ℕ) (children : List ℕ) (hid : id ∉ children)
    (hn : ∀ k, ((h k).patches.map Prod.fst).Nodup) (hg : Composite.generatePatches h id children = (.ok (), h')) :
    (h' id).patches = compositeItems h' children ∧ ((h' id).patches.map Prod.fst).Nodup ∧
    (children.Nodup → ∀ k ∈ children, h' k = (Composite.genLeaf h k).2 k) ∧
    (∀ k, k ∉ children → k ≠ id → h' k = h k) := by
  unfold Composite.generatePatches at hg
  have hN := genChildren_nodup h children hn
  rcases hc : Composite.genChildren h children with ⟨_ | u, h1⟩
  · rw [hc] at hg; simp at hg
  · rw [hc] at hg hN
    simp only [Prod.mk.injEq, true_and] at hg
    subst hg
    have hz := (zipIdx_names_nodup h1 children hN 0).1
    have hne : ∀ k ∈ children, k ≠ id := fun k hk hki => hid (hki ▸ hk)
    have hpatch : Dict.setAll [] (Composite.mergedItems h1 0 children) = Composite.mergedItems h1 0 children :=
      Dict.setAll_nil_nodup _ hz
    refine ⟨?_, ?_, ?_, ?_⟩
    · rw [upd_self]
      show Dict.setAll [] (Composite.mergedItems h1 0 children) = _
      rw [hpatch, mergedItems_eq]
      unfold Spec.compositeItems
      apply List.flatMap_congr
      intro x hx
      have hx1 : x.1 ∈ children := by
        have := List.mem_zipIdx hx
        simp only [this.2.2]
        exact List.getElem_mem _
      rw [upd_ne _ _ _ _ (hne _ hx1)]
    · rw [upd_self]
      show (List.map Prod.fst (Dict.setAll [] (Composite.mergedItems h1 0 children))).Nodup
      rw [hpatch]; exact hz
    · intro hnd k hk
      rw [upd_ne _ _ _ _ (hne k hk)]
      have key : ∀ (l : List ℕ) (h h1 : Heap), l.Nodup → Composite.genChildren h l = (.ok u, h1) → ∀ k ∈ l,
          h1 k = (Composite.genLeaf h k).2 k := by
        intro l
        induction l with
        | nil => simp
        | cons a l ih =>
          intro h h1 hnd hc k hk
          rw [List.nodup_cons] at hnd
          unfold Composite.genChildren at hc
          rcases hga : Composite.genLeaf h a with ⟨_ | _, h2⟩
          · rw [hga] at hc; simp at hc
          · rw [hga] at hc
            simp only at hc
            rcases List.mem_cons.1 hk with rfl | hk
            · have := genChildren_other h2 l k hnd.1
              rw [hc] at this
              rw [hga]; exact this
            · have hka : k ≠ a := fun hka => hnd.1 (hka ▸ hk)
              rw [ih h2 h1 hnd.2 hc k hk]
              have e : h2 k = h k := by have := genLeaf_other h a k hka; rwa [hga] at this
              unfold Composite.genLeaf
              rw [e]
              split <;> simp [upd_self, e]
      exact key children h h1 hnd hc k hk
    · intro k hk hki
      rw [upd_ne _ _ _ _ hki]
      have := genChildren_other h children k hk
      rwa [hc] at this

/-- C56: only fins, wings, swept and revolved components, cubes and spheres can be added; anything else raises and
changes nothing. -/
theorem C56_rejects (h : Heap) (self child : ℕ) (o : AddOpts) :
    ((h child).componenttype ∉ (["fin", "wing", "swept", "revolved", "sphere", "cube"] : List String) →
      Composite.addComponent h self child o = (.error .exc, h)) ∧
    ((h child).componenttype ∈ (["fin", "wing", "swept", "revolved", "sphere", "cube"] : List String) →
      ∀ l, self ≠ child → (h self).gen = .composite l →
        (Composite.addComponent h self child o).1 = .ok () ∧
        ((Composite.addComponent h self child o).2 self).gen = .composite (l ++ [child])) := by
  constructor
  · intro hc
    exact if_neg hc
  · intro hc l hsc hl
    have e : Composite.addComponent h self child o = _ := if_pos hc
    rw [e]
    refine ⟨rfl, ?_⟩
    simp only [Composite.appendChild, upd_ne _ _ _ _ hsc, hl, upd_self]

theorem appendChild_child (h : Heap) (self child : ℕ) (hsc : self ≠ child) :
    Composite.appendChild h self child child = h child := by
  unfold Composite.appendChild
  rcases (h self).gen with _ | _ | l
  · rfl
  · rfl
  · exact upd_ne _ _ _ _ (Ne.symm hsc)

/-- C57, what holds: the options are recorded on the child.  Missing: that they have an effect, see `C57_ignored`. -/
theorem C57_partial (h : Heap) (self child : ℕ) (o : AddOpts) (hsc : self ≠ child)
    (hc : (h child).componenttype ∈ Composite.allowable) :
    ∃ h', Composite.addComponent h self child o = (.ok (), h') ∧
      (∀ a, o.reflection_axis = some a → (h' child).reflection_axis = some a ∧
        (h' child).append_reflection = o.append_reflection) ∧
      (∀ k, o.curvatures = some k → (h' child).curvatures = some k) ∧
      (∀ t, o.transformations = some t → (h' child).transformations = t) := by
  refine ⟨_, if_pos hc, ?_⟩
  rw [appendChild_child _ _ _ hsc, upd_self]
  rcases o with ⟨nm, ra, ap, cu, cl, tr, mo, gh⟩
  unfold Composite.childWith Comp.setCommon
  rcases ra with _ | a <;> rcases cu with _ | k <;> rcases tr with _ | t <;> rcases cl with _ | ⟨i, j⟩ <;>
    simp <;> split <;> simp

/-- Two heaps agree on what patch generation reads. -/
def Agree (h1 h2 : Heap) : Prop :=
  ∀ k, (h1 k).gen = (h2 k).gen ∧ (h1 k).stl_resolution = (h2 k).stl_resolution ∧ (h1 k).patches = (h2 k).patches

theorem agree_upd {h1 h2 : Heap} (h : Agree h1 h2) (id : ℕ) {c1 c2 : Comp} (hc : c1.gen = c2.gen ∧
    c1.stl_resolution = c2.stl_resolution ∧ c1.patches = c2.patches) : Agree (h1.upd id c1) (h2.upd id c2) := by
  intro k
  by_cases hk : k = id
  · subst hk; rw [upd_self, upd_self]; exact hc
  · rw [upd_ne _ _ _ _ hk, upd_ne _ _ _ _ hk]; exact h k

theorem agree_genLeaf {h1 h2 : Heap} (h : Agree h1 h2) (id : ℕ) :
    (Composite.genLeaf h1 id).1 = (Composite.genLeaf h2 id).1 ∧
    Agree (Composite.genLeaf h1 id).2 (Composite.genLeaf h2 id).2 := by
  obtain ⟨g, s, p⟩ := h id
  unfold Composite.genLeaf
  rw [g]
  split
  · refine ⟨by simp [Comp.genInto, s], agree_upd h id ⟨g, s, ?_⟩⟩
    simp [Comp.genInto, s, p]
  · rename_i out _
    rw [s]
    unfold Comp.genReplace
    cases (out (h2 id).stl_resolution).err with
    | some e => exact ⟨rfl, agree_upd h id (h id)⟩
    | none => exact ⟨rfl, agree_upd h id ⟨g, s, rfl⟩⟩
  · exact ⟨rfl, h⟩

theorem agree_genChildren {h1 h2 : Heap} (h : Agree h1 h2) (l : List ℕ) :
    (Composite.genChildren h1 l).1 = (Composite.genChildren h2 l).1 ∧
    Agree (Composite.genChildren h1 l).2 (Composite.genChildren h2 l).2 := by
  induction l generalizing h1 h2 with
  | nil => exact ⟨rfl, h⟩
  | cons a l ih =>
    obtain ⟨e, h'⟩ := agree_genLeaf h a
    unfold Composite.genChildren
    rcases g1 : Composite.genLeaf h1 a with ⟨_ | _, x1⟩ <;> rcases g2 : Composite.genLeaf h2 a with ⟨_ | _, x2⟩ <;>
      rw [g1, g2] at e h' <;> simp at e
    · subst e; exact ⟨rfl, h'⟩
    · exact ih h'

theorem agree_mergedItems {h1 h2 : Heap} (h : Agree h1 h2) (l : List ℕ) (ix : ℕ) :
    Composite.mergedItems h1 ix l = Composite.mergedItems h2 ix l := by
  induction l generalizing ix with
  | nil => rfl
  | cons a l ih => simp [Composite.mergedItems, (h a).2.2, ih]

theorem agree_generatePatches {h1 h2 : Heap} (h : Agree h1 h2) (id : ℕ) :
    (generatePatches h1 id).1 = (generatePatches h2 id).1 ∧
    Agree (generatePatches h1 id).2 (generatePatches h2 id).2 := by
  unfold generatePatches
  rw [(h id).1]
  split
  · rename_i children _
    obtain ⟨e, h'⟩ := agree_genChildren h children
    unfold Composite.generatePatches
    rcases g1 : Composite.genChildren h1 children with ⟨_ | _, x1⟩ <;>
      rcases g2 : Composite.genChildren h2 children with ⟨_ | _, x2⟩ <;>
      rw [g1, g2] at e h' <;> simp at e
    · subst e; exact ⟨rfl, h'⟩
    · exact ⟨rfl, agree_upd h' id ⟨(h' id).1, (h' id).2.1, by simp only [agree_mergedItems h']⟩⟩
  · exact agree_genLeaf h id

theorem setCommon_same (c : Comp) (v : ℤ) (o : AddOpts) : (c.setCommon v o).gen = c.gen ∧
    (c.setCommon v o).stl_resolution = c.stl_resolution ∧ (c.setCommon v o).patches = c.patches := by
  unfold Comp.setCommon
  rcases o with ⟨nm, ra, ap, cu, cl, tr, mo, gh⟩
  rcases ra with _ | a <;> rcases cu with _ | k <;> rcases tr with _ | t <;> split <;> exact ⟨rfl, rfl, rfl⟩

/-- C57 fails for all options: whatever reflection, curvatures, transformations or clustering are passed when adding a
child, the composite's patches are the same as with no options at all. -/
theorem C57_ignored (h : Heap) (self child : ℕ) (o : AddOpts) :
    (generatePatches (Composite.addComponent h self child o).2 self).1 =
      (generatePatches (Composite.addComponent h self child {}).2 self).1 ∧
    ((generatePatches (Composite.addComponent h self child o).2 self).2 self).patches =
      ((generatePatches (Composite.addComponent h self child {}).2 self).2 self).patches := by
  have hA : Agree (Composite.addComponent h self child o).2 (Composite.addComponent h self child {}).2 := by
    unfold Composite.addComponent
    split
    · have hc : Agree (h.upd child (Composite.childWith (h child) (h self).verbosity o))
          (h.upd child (Composite.childWith (h child) (h self).verbosity {})) := by
        apply agree_upd (fun _ => ⟨rfl, rfl, rfl⟩)
        obtain ⟨a1, a2, a3⟩ := setCommon_same (h child) (h self).verbosity o
        obtain ⟨b1, b2, b3⟩ := setCommon_same (h child) (h self).verbosity {}
        unfold Composite.childWith
        simp only [b1, b2, b3]
        split <;> exact ⟨a1, a2, a3⟩
      generalize h.upd child (Composite.childWith (h child) (h self).verbosity o) = h1 at hc
      generalize h.upd child (Composite.childWith (h child) (h self).verbosity {}) = h2 at hc
      show Agree (Composite.appendChild h1 self child) (Composite.appendChild h2 self child)
      unfold Composite.appendChild
      rw [(hc self).1]
      split
      · exact agree_upd hc self ⟨rfl, (hc self).2.1, (hc self).2.2⟩
      · exact hc
    · exact fun _ => ⟨rfl, rfl, rfl⟩
  obtain ⟨e, hB⟩ := agree_generatePatches hA self
  exact ⟨e, (hB self).2.2⟩

/-- A heap with an empty composite (0) and a one-patch wing (1). -/
noncomputable def demoHeap : Heap := fun k =>
  if k = 0 then { componenttype := "composite", gen := .composite [] } else { demoComp with patches := [] }

/-- C57 fails: a wing added with reflection in `y` to a composite is not reflected (one patch instead of two). -/
theorem C57_violated :
    ¬ ∀ (h : Heap) (self child : ℕ) (a : String) (h1 h2 : Heap) (key : String) (p : Surf),
      Composite.addComponent h self child { reflection_axis := some a } = (.ok (), h1) →
      generatePatches h1 self = (.ok (), h2) → (key, p) ∈ (h2 child).patches →
      ∃ key', (key', MirroredPatch p a) ∈ (h2 self).patches := by
  intro H
  have hc : (demoHeap 1).componenttype ∈ Composite.allowable := by simp [demoHeap, demoComp, Composite.allowable]
  obtain ⟨h1, hadd, _⟩ := C57_partial demoHeap 0 1 { reflection_axis := some "x" } (by norm_num) hc
  set surf : Surf := fun r s => .ok ⟨r, s, 0⟩ with hsurf
  have e0 : (h1 0).gen = .composite [1] := by
    have := ((C56_rejects demoHeap 0 1 { reflection_axis := some "x" }).2 hc [] (by norm_num) rfl).2
    rw [hadd] at this
    exact this
  have e1 : (h1 1).gen = .into (fun _ => ⟨[("a", surf)], [], [], none⟩) ∧ (h1 1).patches = [] := by
    have : h1 = (Composite.addComponent demoHeap 0 1 { reflection_axis := some "x" }).2 := by rw [hadd]
    rw [this]
    unfold Composite.addComponent
    rw [if_pos hc]
    exact ⟨rfl, rfl⟩
  have hgen : ∃ h2, generatePatches h1 0 = (.ok (), h2) ∧ (h2 1).patches = [("a", surf)] ∧
      (h2 0).patches = [("a_0", surf)] := by
    unfold generatePatches
    rw [e0]
    simp only [Composite.generatePatches, Composite.genChildren, Composite.genLeaf, e1.1, Comp.genInto]
    refine ⟨_, rfl, ?_, ?_⟩
    · rw [upd_ne _ _ _ _ (by norm_num), upd_self, e1.2]; rfl
    · rw [upd_self]
      simp only [Composite.mergedItems, upd_self, e1.2]
      rfl
  obtain ⟨h2, hg, p1, p0⟩ := hgen
  obtain ⟨key', hk⟩ := H demoHeap 0 1 "x" h1 h2 "a" surf hadd hg (by rw [p1]; simp)
  rw [p0, List.mem_singleton, Prod.mk.injEq] at hk
  have := congrFun (congrFun hk.2 1) 0
  simp [MirroredPatch, hsurf, bind, Except.bind, pure, Except.pure, mirrorAlong] at this
  norm_num at this

/-- The hypotheses of C56 are met: a composite (0) with two wings (1 and 2). -/
example : ∃ (h h' : Heap), (0 : ℕ) ∉ [1, 2] ∧ (∀ k, ((h k).patches.map Prod.fst).Nodup) ∧
    Composite.generatePatches h 0 [1, 2] = (.ok (), h') ∧ (h' 0).patches.map Prod.fst = ["a_0", "a_1"] := by
  refine ⟨demoHeap, _, by simp, ?_, rfl, rfl⟩
  intro k
  unfold demoHeap
  split <;> simp

end HV
