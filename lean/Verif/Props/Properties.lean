import Verif.Model.Calls
import Verif.Lemmas.Dict

/-!
# C131: what a script records on a vehicle stays recorded, and its properties are written
-/

namespace HV
namespace Spec

/-- The value given by the last `add_property` call for this name. -/
def lastSet (n : String) : List Veh.Call → Option ℝ
  | [] => none
  | .property m x :: cs => (lastSet n cs).or (if m = n then some x else none)
  | _ :: cs => lastSet n cs

/-- The vehicle without the results of generating and analysing. -/
def blueprint (v : Veh) : Veh := { v with generated := false, analysis := none, analysisResults := none }

/-- Calls that generate, move, analyse or write, or change a component only. -/
def Works : Veh.Call → Prop
  | .generate | .transform _ | .analyse _ | .toStl _ _ | .addChild _ _ _ => True
  | _ => False

/-- Directories and files other than STL files, in the order written. -/
def sideEffects (ev : List Veh.FsEv) : List Veh.FsEv :=
  ev.filter fun e => match e with
    | .dir _ => true
    | .file _ => true
    | _ => false

end Spec

open Spec

namespace Veh

/-- The rows of `pd.Series(self.properties).to_csv(...)`, `vehicle.py:391-393`: name and value. -/
def propertyRows (v : Veh) : List (String × ℝ) := v.properties

theorem transform_blueprint (st : VState) (t : TransfArg) : blueprint (transform st t).2.veh = blueprint st.veh := by
  unfold transform; split <;> rfl

/-- The analysis method leaves the blueprint alone. -/
def Modest (an : Analyser) : Prop := ∀ st d, blueprint (an st d).2.veh = blueprint st.veh

theorem genAnalyse_blueprint {an : Analyser} (han : Modest an) (st : VState) : blueprint (genAnalyse an st).2.veh = blueprint st.veh := by
  unfold genAnalyse
  rcases st.veh.analyseOn with _ | _ | ⟨d, ds⟩
  · rfl
  · rfl
  · simp only
    have h2 := han st (d :: ds)
    rcases hx : an st (d :: ds) with ⟨e | a, st'⟩ <;> rw [hx] at h2 <;> exact h2

theorem genTransform_blueprint (st : VState) : blueprint (genTransform st).2.veh = blueprint st.veh := by
  unfold genTransform
  split
  · rfl
  · exact transform_blueprint _ _

theorem generateWith_blueprint {an : Analyser} (han : Modest an) (st : VState) : blueprint (generateWith an st).2.veh = blueprint st.veh := by
  unfold generateWith
  rcases genAll st.veh.angleOffset st.heap st.veh.components with ⟨e | _, h⟩
  · rfl
  · simp only
    have h1 := genTransform_blueprint ⟨h, { st.veh with generated := true }⟩
    rcases hx : genTransform ⟨h, { st.veh with generated := true }⟩ with ⟨e | _, st'⟩ <;> rw [hx] at h1
    · exact h1
    · exact (genAnalyse_blueprint han st').trans h1

theorem analyseGenerated_blueprint (lib : Lib) : Modest (analyseGenerated lib) := by
  intro st d
  unfold analyseGenerated
  rcases assessAll lib d st.heap st.veh.named with ⟨x | l, h⟩
  · rfl
  · simp only
    rcases summarise l with x | a <;> rfl

theorem analyse_blueprint (lib : Lib) (depth : ℕ) : Modest (analyse lib depth) := by
  induction depth with
  | zero => intro st d; rfl
  | succ n ih =>
    intro st d
    unfold analyse analyseWith
    split
    · exact analyseGenerated_blueprint lib st d
    · have h1 := generateWith_blueprint ih st
      rcases hx : generateWith (analyse lib n) st with ⟨x | _, st'⟩ <;> rw [hx] at h1
      · exact h1
      · exact (analyseGenerated_blueprint lib st' d).trans h1

theorem toStl_veh (st : VState) (pre : Option String) (m : MergeArg) : (toStl st pre m).2.2.veh = st.veh := by
  unfold toStl
  rcases writeAll pre st.veh.name [] st.heap st.veh.components with ⟨x | _, ev, h⟩ <;> rfl

/-- C131: generating, moving, analysing and writing a vehicle, successfully or not, change nothing of what was recorded about
it: components, names, numbering, properties, transformations, analysis request, name and verbosity. -/
theorem C131_work (lib : Lib) (depth : ℕ) (st : VState) (c : Call) (hc : Works c) :
    blueprint (exec lib depth st c).2.veh = blueprint st.veh := by
  cases c with
  | configure n v => cases hc
  | add id o => cases hc
  | addChild self child o => rfl
  | later t => cases hc
  | analyseLater d => cases hc
  | property n x => cases hc
  | generate => exact generateWith_blueprint (analyse_blueprint lib depth) st
  | transform t => exact transform_blueprint st t
  | analyse d => exact analyse_blueprint lib depth st d
  | toStl p m => exact congrArg blueprint (toStl_veh st p m)

theorem addComponent_properties (st : VState) (id : ℕ) (o : AddOpts) : (addComponent st id o).2.veh.properties = st.veh.properties := by
  unfold addComponent; split <;> rfl

theorem exec_properties (lib : Lib) (depth : ℕ) (st : VState) (c : Call) :
    (exec lib depth st c).2.veh.properties = match c with | .property n x => st.veh.properties.set n x | _ => st.veh.properties := by
  have key : Works c → (exec lib depth st c).2.veh.properties = st.veh.properties := by
    intro hc
    have h := congrArg (fun v : Veh => v.properties) (C131_work lib depth st c hc)
    exact h
  cases c with
  | configure n v => cases n <;> rfl
  | add id o => exact addComponent_properties st id o
  | addChild self child o => rfl
  | later t => rfl
  | analyseLater d => rfl
  | property n x => rfl
  | generate => exact key trivial
  | transform t => exact key trivial
  | analyse d => exact key trivial
  | toStl p m => exact key trivial

/-- C131: after any script a property has the value last given, or the one it had before the script. -/
theorem C131_kept (lib : Lib) (depth : ℕ) (n : String) (cs : List Call) : ∀ st : VState,
    (execAll lib depth st cs).2.veh.properties.get? n = (lastSet n cs).or (st.veh.properties.get? n) := by
  induction cs with
  | nil => intro st; rfl
  | cons c cs ih =>
    intro st
    show (execAll lib depth (exec lib depth st c).2 cs).2.veh.properties.get? n = _
    rw [ih, exec_properties]
    cases c with
    | property m x =>
      simp only [lastSet, Dict.get?_set]
      by_cases h : m = n
      · subst h
        rcases lastSet m cs with _ | y <;> simp
      · rw [if_neg h, if_neg h, Option.or_none]
    | _ => rfl

/-- C131: the table of properties has one row per name. -/
theorem C131_rows (lib : Lib) (depth : ℕ) (cs : List Call) : ∀ st : VState, st.veh.properties.keys.Nodup →
    ((propertyRows (execAll lib depth st cs).2.veh).map Prod.fst).Nodup := by
  induction cs with
  | nil => intro st h; exact h
  | cons c cs ih =>
    intro st h
    refine ih _ ?_
    rw [exec_properties]
    cases c with
    | property m x => exact Dict.nodup_set _ _ _ h
    | _ => exact h

theorem sideEffects_append (a b : List FsEv) : sideEffects (a ++ b) = sideEffects a ++ sideEffects b := List.filter_append ..

theorem sideEffects_writeAll (pre : Option String) (vname : String) (l : List ℕ) : ∀ (no : Dict String ℕ) (h : Heap),
    sideEffects (writeAll pre vname no h l).2.1 = [] := by
  induction l with
  | nil => intro no h; rfl
  | cons k ks ih =>
    intro no h
    unfold writeAll
    simp only
    rcases (h k).toStl (some (stlName pre vname (h k) ((no.get? (h k).componenttype).getD 0))) with ⟨x | ev, c'⟩
    · rfl
    · simp only
      rw [sideEffects_append, ih]
      rcases ev with _ | ⟨f, m⟩ <;> rfl

/-- C131: besides STL files `to_stl` writes the three analysis files if `generate` analysed, and the table of properties if
there are properties, in a directory named like them; the prefix is the one given, unless it is empty, or else the name of the vehicle. -/
theorem C131_written (st st' : VState) (pre : Option String) (m : MergeArg) (ev : List FsEv) (h : toStl st pre m = (.ok (), ev, st')) :
    ∃ p, (∀ q, pre = some q → q ≠ "" → p = q) ∧ (pre = none ∨ pre = some "" → p = st.veh.name) ∧
      sideEffects ev =
        (if st.veh.analysisResults = none then [] else [FsEv.dir (p ++ "_properties"), .file (p ++ "_properties/" ++ p ++ "_volmass.csv"),
          .file (p ++ "_properties/" ++ p ++ "_cog.txt"), .file (p ++ "_properties/" ++ p ++ "_moi.txt")]) ++
        (if propertyRows st.veh = [] then [] else [FsEv.dir (p ++ "_properties"), .file (p ++ "_properties/" ++ p ++ "_properties.csv")]) := by
  refine ⟨prefixOr pre st.veh.name, ?_, ?_, ?_⟩
  · rintro q rfl hq
    simp [prefixOr, truthy, hq]
  · rintro (rfl | rfl) <;> simp [prefixOr, truthy]
  · unfold toStl at h
    have hw := sideEffects_writeAll pre st.veh.name st.veh.components [] st.heap
    rcases hx : writeAll pre st.veh.name [] st.heap st.veh.components with ⟨x | _, ev0, g⟩ <;> rw [hx] at h hw
    · simp at h
    · simp only [Prod.mk.injEq] at h hw
      rw [← h.2.1, sideEffects_append, sideEffects_append, sideEffects_append, hw]
      have z3 : ∀ p, sideEffects (mergeStep ⟨g, st.veh⟩ p m).2 = [] := by
        intro p
        rcases m with (_ | _) | (_ | ⟨_, _⟩) <;> rfl
      rw [z3, List.append_nil, List.nil_append]
      congr 1
      · unfold resultEvents
        rcases st.veh.analysisResults with _ | a
        · rfl
        · rfl
      · unfold propertyEvents propertyRows
        split <;> rfl

/-- C131: nothing but STL files is written when writing them fails. -/
theorem C131_failed (st st' : VState) (pre : Option String) (m : Bool) (ev : List FsEv) (x : PyErr)
    (h : toStl st pre (.bool m) = (.error x, ev, st')) : sideEffects ev = [] := by
  unfold toStl at h
  have hw := sideEffects_writeAll pre st.veh.name st.veh.components [] st.heap
  rcases hx : writeAll pre st.veh.name [] st.heap st.veh.components with ⟨y | _, ev0, g⟩ <;> rw [hx] at h hw
  · simp only [Prod.mk.injEq] at h hw
    rw [← h.2.1, hw]
  · cases m <;> simp [mergeStep] at h

/-- A property set twice, with other calls in between. -/
example (lib : Lib) (d : Dict String ℝ) (h : Heap) : (execAll lib 5 ⟨h, {}⟩ [.property "span" 1, .generate, .property "area" 7,
    .property "span" 2, .analyse d]).2.veh.properties.get? "span" = some 2 := by
  rw [C131_kept]; simp [lastSet]

/-- A vehicle without components that has a property: its table is written. -/
example (h : Heap) : (toStl ⟨h, ({} : Veh).addProperty "span" 2⟩ none (.bool false)).1 = .ok () ∧
    propertyRows (({} : Veh).addProperty "span" 2) = [("span", 2)] := ⟨rfl, rfl⟩

end Veh
end HV
