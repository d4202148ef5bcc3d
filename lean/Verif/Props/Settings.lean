import Verif.Props.Properties
import Verif.Props.VehicleFiles
import Verif.Lemmas.VehicleFrame

/-!
# C134: the options set on a component stay set, and objects that are not part of the vehicle are left alone
-/

namespace HV
namespace Spec

/-- What was set on a component, without the patches, resolutions of patches, surfaces and mesh made from it. -/
def settings (c : Comp) : Comp := { c with patches := [], patch_res_r := [], patch_res_s := [], surfaces := none, mesh_ := none }

/-- The call sets options on the object `k`: it adds `k` to the vehicle, to a composite, or adds something to the composite `k`. -/
def SetsOn (k : ℕ) : Veh.Call → Prop
  | .add j _ => j = k
  | .addChild self child _ => self = k ∨ child = k
  | _ => False

/-- The object is a component of the vehicle or a part of a composite component of it. -/
def PartOf (st : VState) (k : ℕ) : Prop :=
  k ∈ st.veh.components ∨ ∃ j ∈ st.veh.components, ∃ l, (st.heap j).gen = .composite l ∧ k ∈ l

end Spec

open Spec

namespace Veh

/-- Every object keeps its settings. -/
def Keeps (h g : Heap) : Prop := ∀ k, settings (g k) = settings (h k)

theorem Keeps.refl (h : Heap) : Keeps h h := fun _ => rfl

theorem Keeps.trans {a b c : Heap} (h : Keeps a b) (g : Keeps b c) : Keeps a c := fun k => (g k).trans (h k)

theorem keeps_upd (h : Heap) (k : ℕ) (c : Comp) (hc : settings c = settings (h k)) : Keeps h (h.upd k c) := by
  intro j
  by_cases hj : j = k
  · subst hj; rw [upd_self]; exact hc
  · rw [upd_ne _ _ _ _ hj]

theorem settings_patches (c : Comp) (P : Dict String Surf) : settings { c with patches := P } = settings c := rfl

theorem genLeaf_keeps (h : Heap) (id : ℕ) : Keeps h (Composite.genLeaf h id).2 := by
  unfold Composite.genLeaf
  rcases (h id).gen with out | out | l
  · exact keeps_upd _ _ _ rfl
  · refine keeps_upd _ _ _ ?_
    unfold Comp.genReplace
    split <;> rfl
  · exact Keeps.refl h

theorem genChildren_keeps (l : List ℕ) : ∀ h : Heap, Keeps h (Composite.genChildren h l).2 := by
  induction l with
  | nil => exact Keeps.refl
  | cons k ks ih =>
    intro h
    unfold Composite.genChildren
    have := genLeaf_keeps h k
    rcases hx : Composite.genLeaf h k with ⟨e | _, g⟩ <;> rw [hx] at this
    · exact this
    · exact this.trans (ih g)

theorem generatePatches_keeps (h : Heap) (id : ℕ) : Keeps h (generatePatches h id).2 := by
  unfold generatePatches
  split
  · rename_i ch _
    unfold Composite.generatePatches
    have := genChildren_keeps ch h
    rcases hx : Composite.genChildren h ch with ⟨e | _, g⟩ <;> rw [hx] at this
    · exact this
    · exact this.trans (keeps_upd _ _ _ rfl)
  · exact genLeaf_keeps h id

theorem genOne_keeps (angle : ℝ) (h : Heap) (id : ℕ) : Keeps h (genOne angle h id).2 := by
  rw [genOne_eq]
  have := generatePatches_keeps h id
  rcases hx : generatePatches h id with ⟨e | _, g⟩ <;> rw [hx] at this
  · exact this
  · refine this.trans (keeps_upd _ _ _ ?_)
    obtain ⟨P, e⟩ := pipeline_frame angle (g id)
    rw [e]; rfl

theorem genAll_keeps (angle : ℝ) (ks : List ℕ) : ∀ h : Heap, Keeps h (genAll angle h ks).2 := by
  induction ks with
  | nil => exact Keeps.refl
  | cons k ks ih =>
    intro h
    unfold genAll
    have := genOne_keeps angle h k
    rcases hx : genOne angle h k with ⟨e | _, g⟩ <;> rw [hx] at this
    · exact this
    · exact this.trans (ih g)

theorem transformOne_keeps (h : Heap) (ts : List Transf) (id : ℕ) : Keeps h (transformOne h ts id).2 := by
  unfold transformOne
  obtain ⟨P, e⟩ := applyAll_frame ts (h id)
  rcases hx : (h id).applyAll ts with ⟨x | _, c⟩ <;> rw [hx] at e <;> simp only at e <;> subst e
  · exact keeps_upd _ _ _ rfl
  · exact keeps_upd _ _ _ rfl

theorem transformAll_keeps (ts : List Transf) (ks : List ℕ) : ∀ h : Heap, Keeps h (transformAll h ts ks).2 := by
  induction ks with
  | nil => exact Keeps.refl
  | cons k ks ih =>
    intro h
    unfold transformAll
    have := transformOne_keeps h ts k
    rcases hx : transformOne h ts k with ⟨e | _, g⟩ <;> rw [hx] at this
    · exact this
    · exact this.trans (ih g)

theorem transform_keeps (st : VState) (t : TransfArg) : Keeps st.heap (transform st t).2.heap := by
  unfold transform
  split
  · exact transformAll_keeps _ _ _
  · exact Keeps.refl _

theorem settings_mesh (c : Comp) : settings c.mesh.2 = settings c := by
  obtain ⟨s, m, e⟩ := mesh_frame c
  rw [e]; rfl

theorem assessOne_keeps (lib : Lib) (d : Dict String ℝ) (h : Heap) (e : String × ℕ) : Keeps h (assessOne lib d h e).2 := by
  unfold assessOne
  have h1 := settings_mesh (h e.2)
  rcases hx : (h e.2).mesh with ⟨x | m, c⟩ <;> rw [hx] at h1
  · exact keeps_upd _ _ _ h1
  · simp only
    rcases d.get e.1 with x | ρ
    · exact keeps_upd _ _ _ h1
    · simp only
      rcases lib.massProps m ρ with x | p
      · exact keeps_upd _ _ _ h1
      · simp only
        have h2 := settings_mesh c
        rcases hy : c.mesh with ⟨x | m', c'⟩ <;> rw [hy] at h2
        · exact keeps_upd _ _ _ (h2.trans h1)
        · exact keeps_upd _ _ _ (h2.trans h1)

theorem assessAll_keeps (lib : Lib) (d : Dict String ℝ) (l : List (String × ℕ)) : ∀ h : Heap, Keeps h (assessAll lib d h l).2 := by
  induction l with
  | nil => exact Keeps.refl
  | cons e es ih =>
    intro h
    unfold assessAll
    have h1 := assessOne_keeps lib d h e
    rcases hx : assessOne lib d h e with ⟨x | p, g⟩ <;> rw [hx] at h1
    · exact h1
    · simp only
      have h2 := h1.trans (ih g)
      rcases hy : assessAll lib d g es with ⟨x | ps, g'⟩ <;> rw [hy] at h2 <;> exact h2

theorem analyseGenerated_keeps (lib : Lib) (st : VState) (d : Dict String ℝ) : Keeps st.heap (analyseGenerated lib st d).2.heap := by
  unfold analyseGenerated
  have h1 := assessAll_keeps lib d st.veh.named st.heap
  rcases hx : assessAll lib d st.heap st.veh.named with ⟨x | l, g⟩ <;> rw [hx] at h1
  · exact h1
  · simp only
    rcases summarise l with x | a <;> exact h1

theorem genTransform_keeps (st : VState) : Keeps st.heap (genTransform st).2.heap := by
  unfold genTransform
  split
  · exact Keeps.refl _
  · exact transform_keeps _ _

theorem generateWith_keeps {an : Analyser} (han : ∀ st d, Keeps st.heap (an st d).2.heap) (st : VState) :
    Keeps st.heap (generateWith an st).2.heap := by
  unfold generateWith
  have h1 := genAll_keeps st.veh.angleOffset st.veh.components st.heap
  rcases hx : genAll st.veh.angleOffset st.heap st.veh.components with ⟨e | _, g⟩ <;> rw [hx] at h1
  · exact h1
  · simp only
    have h2 := genTransform_keeps ⟨g, { st.veh with generated := true }⟩
    rcases hy : genTransform ⟨g, { st.veh with generated := true }⟩ with ⟨e | _, st'⟩ <;> rw [hy] at h2
    · exact h1.trans h2
    · simp only
      refine (h1.trans h2).trans ?_
      unfold genAnalyse
      rcases st'.veh.analyseOn with _ | _ | ⟨d, ds⟩
      · exact Keeps.refl _
      · exact Keeps.refl _
      · simp only
        have h3 := han st' (d :: ds)
        rcases hz : an st' (d :: ds) with ⟨e | a, st''⟩ <;> rw [hz] at h3 <;> exact h3

theorem analyse_keeps (lib : Lib) (depth : ℕ) : ∀ st d, Keeps st.heap (analyse lib depth st d).2.heap := by
  induction depth with
  | zero => intro st d; exact Keeps.refl _
  | succ n ih =>
    intro st d
    unfold analyse analyseWith
    split
    · exact analyseGenerated_keeps lib st d
    · have h1 := generateWith_keeps ih st
      rcases hx : generateWith (analyse lib n) st with ⟨e | _, st'⟩ <;> rw [hx] at h1
      · exact h1
      · exact h1.trans (analyseGenerated_keeps lib st' d)

theorem writeAll_keeps (pre : Option String) (vname : String) (l : List ℕ) : ∀ (no : Dict String ℕ) (h : Heap),
    Keeps h (writeAll pre vname no h l).2.2 := by
  induction l with
  | nil => intro no h; exact Keeps.refl h
  | cons k ks ih =>
    intro no h
    unfold writeAll
    simp only
    obtain ⟨s, m, e⟩ := toStl_frame (h k) (some (stlName pre vname (h k) ((no.get? (h k).componenttype).getD 0)))
    rcases hx : (h k).toStl (some (stlName pre vname (h k) ((no.get? (h k).componenttype).getD 0))) with ⟨x | ev, c⟩ <;>
      rw [hx] at e
    · exact keeps_upd _ _ _ (congrArg settings e :)
    · exact (keeps_upd h k c (congrArg settings e :)).trans (ih _ _)

theorem toStl_keeps (st : VState) (pre : Option String) (m : MergeArg) : Keeps st.heap (toStl st pre m).2.2.heap := by
  unfold toStl
  have h1 := writeAll_keeps pre st.veh.name st.veh.components [] st.heap
  rcases hx : writeAll pre st.veh.name [] st.heap st.veh.components with ⟨x | _, ev, g⟩ <;> rw [hx] at h1 <;> exact h1

theorem appendChild_other (h : Heap) (self child k : ℕ) (hk : k ≠ self) : Composite.appendChild h self child k = h k := by
  unfold Composite.appendChild
  rcases (h self).gen with out | out | l
  · rfl
  · rfl
  · exact upd_ne _ _ _ _ hk

/-- C134: a call leaves the settings of every object as they are, successful or not, unless it sets options on it: generating, moving,
analysing and writing change nothing but patches and meshes. -/
theorem C134_call (lib : Lib) (depth : ℕ) (st : VState) (c : Call) (k : ℕ) (hc : ¬ SetsOn k c) :
    settings ((exec lib depth st c).2.heap k) = settings (st.heap k) := by
  cases c with
  | configure n v => rfl
  | add id o =>
    show settings ((addComponent st id o).2.heap k) = _
    unfold addComponent
    split
    · simp only
      rw [upd_ne _ _ _ _ (fun h => hc h.symm)]
    · rfl
  | addChild self child o =>
    show settings ((Composite.addComponent st.heap self child o).2 k) = _
    have h1 : k ≠ self := fun h => hc (.inl h.symm)
    have h2 : k ≠ child := fun h => hc (.inr h.symm)
    unfold Composite.addComponent
    split
    · simp only
      rw [appendChild_other _ _ _ _ h1, upd_ne _ _ _ _ h2]
    · rfl
  | later t => rfl
  | analyseLater d => rfl
  | property n x => rfl
  | generate => exact generateWith_keeps (analyse_keeps lib depth) st k
  | transform t => exact transform_keeps st t k
  | analyse d => exact analyse_keeps lib depth st d k
  | toStl p m => exact toStl_keeps st p m k

/-- C134: after any script, an object on which no call of the script sets options has the settings it had before. -/
theorem C134_script (lib : Lib) (depth : ℕ) (cs : List Call) (k : ℕ) : ∀ st : VState, (∀ c ∈ cs, ¬ SetsOn k c) →
    settings ((execAll lib depth st cs).2.heap k) = settings (st.heap k) := by
  induction cs with
  | nil => intro st _; rfl
  | cons c cs ih =>
    intro st h
    exact (ih (exec lib depth st c).2 fun c hc => h c (by simp [hc])).trans (C134_call lib depth st c k (h c (by simp)))

/-- Objects outside a set are left alone. -/
def Alone (S : ℕ → Prop) (h g : Heap) : Prop := ∀ k, ¬ S k → g k = h k

theorem partOf_iff (st : VState) (k : ℕ) : PartOf st k ↔ k ∈ st.veh.components ∨ ∃ j ∈ st.veh.components, k ∈ (st.heap j).children := by
  unfold PartOf Comp.children
  constructor
  · rintro (h | ⟨j, hj, l, e, hl⟩)
    · exact .inl h
    · exact .inr ⟨j, hj, by rw [e]; exact hl⟩
  · rintro (h | ⟨j, hj, hl⟩)
    · exact .inl h
    · refine .inr ⟨j, hj, ?_⟩
      rcases hg : (st.heap j).gen with out | out | l <;> rw [hg] at hl
      · simp at hl
      · simp at hl
      · exact ⟨l, rfl, hl⟩

theorem transformAll_other (ts : List Transf) (ks : List ℕ) (k : ℕ) (hk : k ∉ ks) : ∀ h : Heap, (transformAll h ts ks).2 k = h k := by
  induction ks with
  | nil => intro h; rfl
  | cons j ks ih =>
    intro h
    have hj : k ≠ j := fun e => hk (by simp [e])
    have h1 : (transformOne h ts j).2 k = h k := by
      unfold transformOne
      rcases (h j).applyAll ts with ⟨x | _, c⟩ <;> exact upd_ne _ _ _ _ hj
    unfold transformAll
    rcases hx : transformOne h ts j with ⟨e | _, g⟩ <;> rw [hx] at h1
    · exact h1
    · exact (ih (fun e => hk (by simp [e])) g).trans h1

theorem assessAll_other (lib : Lib) (d : Dict String ℝ) (l : List (String × ℕ)) (k : ℕ) (hk : ∀ e ∈ l, k ≠ e.2) :
    ∀ h : Heap, (assessAll lib d h l).2 k = h k := by
  induction l with
  | nil => intro h; rfl
  | cons e es ih =>
    intro h
    have he : k ≠ e.2 := hk e (by simp)
    have h1 : (assessOne lib d h e).2 k = h k := by
      unfold assessOne
      rcases (h e.2).mesh with ⟨x | m, c⟩
      · exact upd_ne _ _ _ _ he
      · simp only
        rcases d.get e.1 with x | ρ
        · exact upd_ne _ _ _ _ he
        · simp only
          rcases lib.massProps m ρ with x | p
          · exact upd_ne _ _ _ _ he
          · simp only
            rcases c.mesh with ⟨x | m', c'⟩ <;> exact upd_ne _ _ _ _ he
    unfold assessAll
    rcases hx : assessOne lib d h e with ⟨x | p, g⟩ <;> rw [hx] at h1
    · exact h1
    · simp only
      have h2 := (ih (fun e he => hk e (by simp [he])) g).trans h1
      rcases hy : assessAll lib d g es with ⟨x | ps, g'⟩ <;> rw [hy] at h2 <;> exact h2

theorem writeAll_other (pre : Option String) (vname : String) (l : List ℕ) (k : ℕ) (hk : k ∉ l) : ∀ (no : Dict String ℕ) (h : Heap),
    (writeAll pre vname no h l).2.2 k = h k := by
  induction l with
  | nil => intro no h; rfl
  | cons j ks ih =>
    intro no h
    have hj : k ≠ j := fun e => hk (by simp [e])
    unfold writeAll
    simp only
    rcases (h j).toStl (some (stlName pre vname (h j) ((no.get? (h j).componenttype).getD 0))) with ⟨x | ev, c⟩
    · exact upd_ne _ _ _ _ hj
    · exact (ih (fun e => hk (by simp [e])) _ _).trans (upd_ne _ _ _ _ hj)

/-- The names of the vehicle stand for components of it. -/
def NamesKnown (v : Veh) : Prop := ∀ e ∈ v.named, e.2 ∈ v.components

theorem generateWith_alone {an : Analyser}
    (han : ∀ st d, NamesKnown st.veh → Alone (PartOf st) st.heap (an st d).2.heap) (st : VState) (hn : NamesKnown st.veh) :
    Alone (PartOf st) st.heap (generateWith an st).2.heap := by
  intro k hk
  have hk' := fun h => hk ((partOf_iff st k).2 h)
  have ho : k ∉ st.veh.components := fun h => hk' (.inl h)
  unfold generateWith
  have h1 := genAll_other st.veh.angleOffset st.heap st.veh.components k ho (fun j hj hc => hk' (.inr ⟨j, hj, hc⟩))
  have g1 := genAll_keeps st.veh.angleOffset st.veh.components st.heap
  rcases hx : genAll st.veh.angleOffset st.heap st.veh.components with ⟨e | _, g⟩ <;> rw [hx] at h1 g1
  · exact h1
  · simp only at h1 g1 ⊢
    have h2 : (genTransform ⟨g, { st.veh with generated := true }⟩).2.heap k = g k := by
      unfold genTransform transform
      split
      · rfl
      · split
        · exact transformAll_other _ _ k ho _
        · rfl
    have g2 := g1.trans (genTransform_keeps ⟨g, { st.veh with generated := true }⟩)
    have b2 := genTransform_blueprint ⟨g, { st.veh with generated := true }⟩
    rcases hy : genTransform ⟨g, { st.veh with generated := true }⟩ with ⟨e | _, st'⟩ <;> rw [hy] at h2 g2 b2
    · exact h2.trans h1
    · simp only at h2 g2 b2 ⊢
      refine Eq.trans ?_ (h2.trans h1)
      have c1 : st'.veh.components = st.veh.components := (congrArg (fun v : Veh => v.components) b2 :)
      have c2 : st'.veh.named = st.veh.named := (congrArg (fun v : Veh => v.named) b2 :)
      have hp : ¬ PartOf st' k := by
        rintro (h | ⟨j, hj, l, e, hl⟩)
        · exact ho (c1 ▸ h)
        · refine hk (.inr ⟨j, c1 ▸ hj, l, ?_, hl⟩)
          have := congrArg (fun c : Comp => c.gen) (g2 j)
          exact this.symm.trans e
      unfold genAnalyse
      rcases st'.veh.analyseOn with _ | _ | ⟨d, ds⟩
      · rfl
      · rfl
      · simp only
        have h3 := han st' (d :: ds) (by intro e he; rw [c1]; exact hn e (c2 ▸ he)) k hp
        rcases hz : an st' (d :: ds) with ⟨e | a, st''⟩ <;> rw [hz] at h3 <;> exact h3

theorem analyseGenerated_alone (lib : Lib) (st : VState) (d : Dict String ℝ) (hn : NamesKnown st.veh) (k : ℕ) (hk : k ∉ st.veh.components) :
    (analyseGenerated lib st d).2.heap k = st.heap k := by
  unfold analyseGenerated
  have h1 := assessAll_other lib d st.veh.named k (fun e he h => hk (h ▸ hn e he)) st.heap
  rcases hx : assessAll lib d st.heap st.veh.named with ⟨x | l, g⟩ <;> rw [hx] at h1
  · exact h1
  · simp only
    rcases summarise l with x | a <;> exact h1

theorem analyse_alone (lib : Lib) (depth : ℕ) : ∀ st d, NamesKnown st.veh → Alone (PartOf st) st.heap (analyse lib depth st d).2.heap := by
  induction depth with
  | zero => intro st d _ k _; rfl
  | succ n ih =>
    intro st d hn k hk
    have ho : k ∉ st.veh.components := fun h => hk (.inl h)
    unfold analyse analyseWith
    split
    · exact analyseGenerated_alone lib st d hn k ho
    · have h1 := generateWith_alone ih st hn k hk
      have b1 := generateWith_blueprint (analyse_blueprint lib n) st
      rcases hx : generateWith (analyse lib n) st with ⟨e | _, st'⟩ <;> rw [hx] at h1 b1
      · exact h1
      · have c1 : st'.veh.components = st.veh.components := (congrArg (fun v : Veh => v.components) b1 :)
        have c2 : st'.veh.named = st.veh.named := (congrArg (fun v : Veh => v.named) b1 :)
        exact (analyseGenerated_alone lib st' d (by intro e he; rw [c1]; exact hn e (c2 ▸ he)) k (by rw [c1]; exact ho)).trans h1

/-- C134: generating, moving, analysing and writing a vehicle leave every object alone that is neither a component of it nor part of one,
such as the components of another vehicle; not even its patches and mesh change. -/
theorem C134_others (lib : Lib) (depth : ℕ) (st : VState) (c : Call) (hn : ∀ e ∈ st.veh.named, e.2 ∈ st.veh.components) (k : ℕ)
    (hk : ¬ PartOf st k) (hc : ¬ SetsOn k c) : (exec lib depth st c).2.heap k = st.heap k := by
  have ho : k ∉ st.veh.components := fun h => hk (.inl h)
  cases c with
  | configure n v => rfl
  | add id o =>
    show (addComponent st id o).2.heap k = _
    unfold addComponent
    split
    · exact upd_ne _ _ _ _ fun h => hc h.symm
    · rfl
  | addChild self child o =>
    show (Composite.addComponent st.heap self child o).2 k = _
    have h1 : k ≠ self := fun h => hc (.inl h.symm)
    have h2 : k ≠ child := fun h => hc (.inr h.symm)
    unfold Composite.addComponent
    split
    · simp only
      rw [appendChild_other _ _ _ _ h1, upd_ne _ _ _ _ h2]
    · rfl
  | later t => rfl
  | analyseLater d => rfl
  | property n x => rfl
  | generate => exact generateWith_alone (analyse_alone lib depth) st hn k hk
  | transform t =>
    show (transform st t).2.heap k = _
    unfold transform
    split
    · exact transformAll_other _ _ k ho _
    · rfl
  | analyse d => exact analyse_alone lib depth st d hn k hk
  | toStl p m =>
    show (toStl st p m).2.2.heap k = _
    unfold toStl
    have h1 := writeAll_other p st.veh.name st.veh.components k ho [] st.heap
    rcases hx : writeAll p st.veh.name [] st.heap st.veh.components with ⟨x | _, ev, g⟩ <;> rw [hx] at h1 <;> exact h1

/-- The demonstration vehicle has two components, one of them a ghost, and its files can be written; the object 7 is no part of it. -/
example (lib : Lib) (depth : ℕ) : ∃ ev st', toStl (demoVehicle (some "a") (some "b") true) none (.bool false) = (.ok (), ev, st') ∧
    settings (st'.heap 1) = settings ((demoVehicle (some "a") (some "b") true).heap 1) ∧ (st'.heap 1).ghost = true ∧
    (∀ e ∈ (demoVehicle (some "a") (some "b") true).veh.named, e.2 ∈ (demoVehicle (some "a") (some "b") true).veh.components) ∧
    ¬ PartOf (demoVehicle (some "a") (some "b") true) 7 ∧ st'.heap 7 = (demoVehicle (some "a") (some "b") true).heap 7 := by
  obtain ⟨ev, st', h⟩ := demoVehicle_files (some "a") (some "b") true none false
  have hn : ∀ e ∈ (demoVehicle (some "a") (some "b") true).veh.named, e.2 ∈ (demoVehicle (some "a") (some "b") true).veh.components := by
    simp [demoVehicle]
  have hp : ¬ PartOf (demoVehicle (some "a") (some "b") true) 7 := by
    rw [partOf_iff]
    simp [demoVehicle, demoComp, Comp.children]
  have h1 := C134_call lib depth (demoVehicle (some "a") (some "b") true) (.toStl none (.bool false)) 1 (fun h => h)
  have h2 := C134_others lib depth (demoVehicle (some "a") (some "b") true) (.toStl none (.bool false)) hn 7 hp (fun h => h)
  have e : (exec lib depth (demoVehicle (some "a") (some "b") true) (.toStl none (.bool false))).2 = st' := by
    show (toStl _ _ _).2.2 = _
    rw [h]
  rw [e] at h1 h2
  exact ⟨ev, st', h, h1, by have := congrArg (fun c : Comp => c.ghost) h1; exact this, hn, hp, h2⟩

end Veh
end HV
