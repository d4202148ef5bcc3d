import Verif.Model.Calls

/-!
# C130: verbosity changes only what is printed

Statements printing messages are not modelled; what is proved is that the numbers kept in the `verbosity` attributes, which
`configure` and `add_component` pass around, reach nothing else: no patch, mesh, file, analysis, name or error.
-/

namespace HV
namespace Spec

/-- The two states hold the same data, except for the `verbosity` attributes of the vehicle and of its components. -/
def SameButVerbosity (st st' : VState) : Prop :=
  (∀ id, { st'.heap id with verbosity := 0 } = { st.heap id with verbosity := 0 }) ∧
  ({ st'.veh with verbosity := 0 } : Veh) = { st.veh with verbosity := 0 }

/-- The same call, except that `configure` may ask for another verbosity. -/
def SameCall : Veh.Call → Veh.Call → Prop
  | .configure n _, c => ∃ w, c = .configure n w
  | c, c' => c' = c

end Spec

open Spec

/-- The component with verbosity 0. -/
def mute (c : Comp) : Comp := { c with verbosity := 0 }

/-- The heap with all verbosities 0. -/
def muteH (h : Heap) : Heap := fun id => mute (h id)

/-- The vehicle and its components with all verbosities 0. -/
def muteS (st : VState) : VState := ⟨muteH st.heap, { st.veh with verbosity := 0 }⟩

theorem mute_idem (c : Comp) : mute (mute c) = mute c := rfl

theorem muteH_upd (h : Heap) (id : ℕ) (c : Comp) : muteH (h.upd id c) = (muteH h).upd id (mute c) := by
  funext k; unfold muteH Heap.upd; split <;> rfl

theorem sameButVerbosity_iff (st st' : VState) : SameButVerbosity st st' ↔ muteS st' = muteS st := by
  constructor
  · rintro ⟨a, b⟩
    unfold muteS
    rw [b]
    congr 1
    funext id
    exact a id
  · intro h
    have h1 : muteH st'.heap = muteH st.heap := congrArg VState.heap h
    exact ⟨fun id => congrFun h1 id, congrArg VState.veh h⟩

/-! ## Components -/

theorem mute_curve (c : Comp) : (mute c).curve = mute c.curve := by
  rcases hc : c.curvatures with _ | l <;> simp only [Comp.curve, mute, hc]

theorem mute_modifier (c : Comp) : (mute c).applyModifier = mute c.applyModifier := by
  rcases hc : c.modifier with _ | l <;> simp only [Comp.applyModifier, mute, hc]

theorem mute_rotate (c : Comp) (a : ℝ) (axis : String) : (mute c).rotate a axis = mute (c.rotate a axis) := rfl

theorem mute_translate (c : Comp) (o : Offset) : (mute c).translate o = mute (c.translate o) := rfl

theorem mute_reflect (c : Comp) (axis : Option String) : (mute c).reflect axis = mute (c.reflect axis) := by
  rcases hc : c.reflection_axis.or axis with _ | a
  · simp only [Comp.reflect, mute, hc]
  · by_cases ha : c.append_reflection = true <;> simp only [Comp.reflect, mute, hc, ha] <;> rfl

theorem mute_transf (c : Comp) (t : Transf) : (mute c).applyTransf t = (c.applyTransf t).map mute := by
  cases t <;> simp only [Comp.applyTransf, Except.map, mute_curve, mute_modifier, mute_rotate, mute_translate, mute_reflect]

theorem mute_applyAll (ts : List Transf) : ∀ c : Comp, (mute c).applyAll ts = ((c.applyAll ts).1, mute (c.applyAll ts).2) := by
  induction ts with
  | nil => intro c; rfl
  | cons t ts ih =>
    intro c
    unfold Comp.applyAll
    rw [mute_transf]
    rcases c.applyTransf t with e | c'
    · rfl
    · exact ih c'

theorem mute_surfaceCases (c : Comp) (l : List (String × Surf × ℕ × ℕ)) :
    (mute c).surfaceCases l = ((c.surfaceCases l).1, mute (c.surfaceCases l).2) := by
  unfold Comp.surfaceCases
  by_cases hm : c.multiprocess = true
  · rw [if_pos (show (mute c).multiprocess = true from hm), if_pos hm]
    show (match l.mapM (Comp.wrapper c.clustering) with | .error e => _ | .ok l => _) = _
    rcases l.mapM (Comp.wrapper c.clustering) with e | r <;> rfl
  · rw [if_neg (show ¬ (mute c).multiprocess = true from hm), if_neg hm]
    rfl

theorem mute_surface (c : Comp) (r : Option Reso) : (mute c).surface r = ((c.surface r).1, mute (c.surface r).2) := by
  unfold Comp.surface
  by_cases hm : c.patches.length = 0
  · rw [if_pos (show (mute c).patches.length = 0 from hm), if_pos hm]
  · rw [if_neg (show ¬ (mute c).patches.length = 0 from hm), if_neg hm]
    show (match c.patches.mapM (c.caseOf (r.getD c.stl_resolution)) with | .error e => _ | .ok l => _) = _
    rcases c.patches.mapM (c.caseOf (r.getD c.stl_resolution)) with e | l
    · rfl
    · exact mute_surfaceCases c l

theorem mute_combine (c : Comp) : (mute c).combine = (c.combine.1, mute c.combine.2) := by
  rcases hc : c.surfaces with _ | _ | ⟨x, l⟩ <;> simp only [Comp.combine, mute, hc]

theorem mute_buildMesh (c : Comp) : (mute c).buildMesh = (c.buildMesh.1, mute c.buildMesh.2) := by
  unfold Comp.buildMesh
  show (match c.surfaces with | some _ => _ | none => _) = _
  rcases hc : c.surfaces with _ | l
  · simp only
    rw [mute_surface]
    rcases c.surface with ⟨e | _, c'⟩
    · rfl
    · exact mute_combine c'
  · exact mute_combine c

theorem mute_mesh (c : Comp) : (mute c).mesh = (c.mesh.1, mute c.mesh.2) := by
  unfold Comp.mesh
  show (match c.mesh_ with | some m => _ | none => _) = _
  rcases hc : c.mesh_ with _ | m
  · exact mute_buildMesh c
  · simp only
    split
    · rfl
    · exact mute_buildMesh c

theorem mute_toStl (c : Comp) (f : Option String) : (mute c).toStl f = ((c.toStl f).1, mute (c.toStl f).2) := by
  unfold Comp.toStl
  by_cases hm : c.ghost = true
  · rw [if_pos (show (mute c).ghost = true from hm), if_pos hm]
  · rw [if_neg (show ¬ (mute c).ghost = true from hm), if_neg hm, mute_mesh]
    rcases c.mesh with ⟨e | m, c'⟩ <;> rfl

theorem mute_genInto (c : Comp) (o : GenOut) : (mute c).genInto o = ((c.genInto o).1, mute (c.genInto o).2) := rfl

theorem mute_genReplace (c : Comp) (o : GenOut) : (mute c).genReplace o = ((c.genReplace o).1, mute (c.genReplace o).2) := by
  unfold Comp.genReplace
  rcases o.err with _ | e <;> rfl

theorem muteH_genLeaf (h : Heap) (id : ℕ) :
    Composite.genLeaf (muteH h) id = ((Composite.genLeaf h id).1, muteH (Composite.genLeaf h id).2) := by
  unfold Composite.genLeaf
  show (match (h id).gen with | .into out => _ | .replace out => _ | .composite _ => _) = _
  rcases (h id).gen with out | out | l
  · simp only [muteH_upd]; rfl
  · simp only [muteH_upd]
    show (((mute (h id)).genReplace (out (h id).stl_resolution)).1, (muteH h).upd id ((mute (h id)).genReplace (out (h id).stl_resolution)).2) = _
    rw [mute_genReplace]
  · rfl

theorem muteH_genChildren (l : List ℕ) : ∀ h : Heap,
    Composite.genChildren (muteH h) l = ((Composite.genChildren h l).1, muteH (Composite.genChildren h l).2) := by
  induction l with
  | nil => intro h; rfl
  | cons k ks ih =>
    intro h
    unfold Composite.genChildren
    rw [muteH_genLeaf]
    rcases Composite.genLeaf h k with ⟨e | _, h'⟩
    · rfl
    · exact ih h'

theorem muteH_mergedItems (h : Heap) (l : List ℕ) : ∀ ix, Composite.mergedItems (muteH h) ix l = Composite.mergedItems h ix l := by
  induction l with
  | nil => intro ix; rfl
  | cons k ks ih => intro ix; unfold Composite.mergedItems; rw [ih]; rfl

theorem muteH_generatePatches (h : Heap) (id : ℕ) :
    generatePatches (muteH h) id = ((generatePatches h id).1, muteH (generatePatches h id).2) := by
  unfold generatePatches
  show (match (h id).gen with | .composite children => _ | _ => _) = _
  rcases (h id).gen with out | out | l
  · exact muteH_genLeaf h id
  · exact muteH_genLeaf h id
  · simp only [Composite.generatePatches]
    rw [muteH_genChildren]
    rcases Composite.genChildren h l with ⟨e | _, h'⟩
    · rfl
    · simp only [muteH_upd, muteH_mergedItems]
      rfl

/-! ## The vehicle -/

theorem mute_transform (c : Comp) : (mute c).transform = (c.transform.1, mute c.transform.2) := mute_applyAll c.transformations c

namespace Veh

theorem muteH_genOne (angle : ℝ) (h : Heap) (id : ℕ) : genOne angle (muteH h) id = ((genOne angle h id).1, muteH (genOne angle h id).2) := by
  unfold genOne
  rw [muteH_generatePatches]
  rcases generatePatches h id with ⟨e | _, h'⟩
  · rfl
  · simp only [muteH_upd]
    rw [show muteH h' id = mute (h' id) from rfl, mute_modifier, mute_curve, mute_rotate, mute_reflect, mute_transform]

theorem muteH_genAll (angle : ℝ) (l : List ℕ) : ∀ h : Heap,
    genAll angle (muteH h) l = ((genAll angle h l).1, muteH (genAll angle h l).2) := by
  induction l with
  | nil => intro h; rfl
  | cons k ks ih =>
    intro h
    unfold genAll
    rw [muteH_genOne]
    rcases genOne angle h k with ⟨e | _, h'⟩
    · rfl
    · exact ih h'

theorem muteH_transformOne (ts : List Transf) (h : Heap) (id : ℕ) :
    transformOne (muteH h) ts id = ((transformOne h ts id).1, muteH (transformOne h ts id).2) := by
  unfold transformOne
  rw [show muteH h id = mute (h id) from rfl, mute_applyAll]
  rcases (h id).applyAll ts with ⟨e | _, c⟩ <;> simp only [muteH_upd] <;> rfl

theorem muteH_transformAll (ts : List Transf) (l : List ℕ) : ∀ h : Heap,
    transformAll (muteH h) ts l = ((transformAll h ts l).1, muteH (transformAll h ts l).2) := by
  induction l with
  | nil => intro h; rfl
  | cons k ks ih =>
    intro h
    unfold transformAll
    rw [muteH_transformOne]
    rcases transformOne h ts k with ⟨e | _, h'⟩
    · rfl
    · exact ih h'

theorem muteS_transform (st : VState) (t : TransfArg) : transform (muteS st) t = ((transform st t).1, muteS (transform st t).2) := by
  unfold transform
  by_cases hg : st.veh.generated = true
  · rw [if_pos (show (muteS st).veh.generated = true from hg), if_pos hg]
    show ((transformAll (muteH st.heap) t.toList st.veh.components).1, (⟨(transformAll (muteH st.heap) t.toList st.veh.components).2, _⟩ : VState)) = _
    rw [muteH_transformAll]
    rfl
  · rw [if_neg (show ¬ (muteS st).veh.generated = true from hg), if_neg hg]

theorem muteS_genTransform (st : VState) : genTransform (muteS st) = ((genTransform st).1, muteS (genTransform st).2) := by
  unfold genTransform
  by_cases hg : st.veh.transformations = []
  · rw [if_pos (show (muteS st).veh.transformations = [] from hg), if_pos hg]
  · rw [if_neg (show ¬ (muteS st).veh.transformations = [] from hg), if_neg hg]
    exact muteS_transform st _

/-- The analysis method does not depend on verbosity. -/
def Deaf (an : Analyser) : Prop := ∀ st d, an (muteS st) d = ((an st d).1, muteS (an st d).2)

theorem muteS_genAnalyse {an : Analyser} (han : Deaf an) (st : VState) :
    genAnalyse an (muteS st) = ((genAnalyse an st).1, muteS (genAnalyse an st).2) := by
  unfold genAnalyse
  show (match st.veh.analyseOn with | none => _ | some [] => _ | some d => _) = _
  rcases st.veh.analyseOn with _ | _ | ⟨d, ds⟩
  · rfl
  · rfl
  · simp only
    rw [han st (d :: ds)]
    rcases an st (d :: ds) with ⟨e | a, st'⟩ <;> rfl

theorem muteS_generateWith {an : Analyser} (han : Deaf an) (st : VState) :
    generateWith an (muteS st) = ((generateWith an st).1, muteS (generateWith an st).2) := by
  unfold generateWith
  show (match genAll st.veh.angleOffset (muteH st.heap) st.veh.components with | (.error e, h) => _ | (.ok _, h) => _) = _
  rw [muteH_genAll]
  rcases genAll st.veh.angleOffset st.heap st.veh.components with ⟨e | _, h⟩
  · rfl
  · simp only
    rw [show (⟨muteH h, { (muteS st).veh with generated := true }⟩ : VState) = muteS ⟨h, { st.veh with generated := true }⟩ from rfl,
      muteS_genTransform]
    rcases genTransform ⟨h, { st.veh with generated := true }⟩ with ⟨e | _, st'⟩
    · rfl
    · exact muteS_genAnalyse han st'

theorem muteH_assessOne (lib : Lib) (dens : Dict String ℝ) (h : Heap) (e : String × ℕ) :
    assessOne lib dens (muteH h) e = ((assessOne lib dens h e).1, muteH (assessOne lib dens h e).2) := by
  unfold assessOne
  rw [show muteH h e.2 = mute (h e.2) from rfl, mute_mesh]
  rcases (h e.2).mesh with ⟨x | m, c⟩
  · simp only [muteH_upd]
  · simp only
    rcases dens.get e.1 with x | ρ
    · simp only [muteH_upd]
    · simp only
      rcases lib.massProps m ρ with x | p
      · simp only [muteH_upd]
      · simp only
        rw [mute_mesh]
        rcases c.mesh with ⟨x | m', c'⟩ <;> simp only [muteH_upd]

theorem muteH_assessAll (lib : Lib) (dens : Dict String ℝ) (l : List (String × ℕ)) : ∀ h : Heap,
    assessAll lib dens (muteH h) l = ((assessAll lib dens h l).1, muteH (assessAll lib dens h l).2) := by
  induction l with
  | nil => intro h; rfl
  | cons e es ih =>
    intro h
    unfold assessAll
    rw [muteH_assessOne]
    rcases assessOne lib dens h e with ⟨x | p, h'⟩
    · rfl
    · simp only
      rw [ih h']
      rcases assessAll lib dens h' es with ⟨x | ps, h''⟩ <;> rfl

theorem deaf_analyseGenerated (lib : Lib) : Deaf (analyseGenerated lib) := by
  intro st d
  unfold analyseGenerated
  show (match assessAll lib d (muteH st.heap) st.veh.named with | (.error x, h) => _ | (.ok l, h) => _) = _
  rw [muteH_assessAll]
  rcases assessAll lib d st.heap st.veh.named with ⟨x | l, h⟩
  · rfl
  · simp only
    rcases summarise l with x | a <;> rfl

theorem deaf_analyse (lib : Lib) (depth : ℕ) : Deaf (analyse lib depth) := by
  induction depth with
  | zero => intro st d; rfl
  | succ n ih =>
    intro st d
    unfold analyse analyseWith
    by_cases hg : st.veh.generated = true
    · rw [if_pos (show (muteS st).veh.generated = true from hg), if_pos hg]
      exact deaf_analyseGenerated lib st d
    · rw [if_neg (show ¬ (muteS st).veh.generated = true from hg), if_neg hg, muteS_generateWith ih]
      rcases generateWith (analyse lib n) st with ⟨x | _, st'⟩
      · rfl
      · exact deaf_analyseGenerated lib st' d

theorem muteH_writeAll (pre : Option String) (vname : String) (l : List ℕ) : ∀ (no : Dict String ℕ) (h : Heap),
    writeAll pre vname no (muteH h) l = ((writeAll pre vname no h l).1, (writeAll pre vname no h l).2.1, muteH (writeAll pre vname no h l).2.2) := by
  induction l with
  | nil => intro no h; rfl
  | cons k ks ih =>
    intro no h
    unfold writeAll
    simp only
    rw [show muteH h k = mute (h k) from rfl, mute_toStl]
    rw [show stlName pre vname (mute (h k)) = stlName pre vname (h k) from rfl, show (mute (h k)).componenttype = (h k).componenttype from rfl]
    rcases (h k).toStl (some (stlName pre vname (h k) ((no.get? (h k).componenttype).getD 0))) with ⟨x | ev, c'⟩
    · simp only [muteH_upd]
    · simp only
      rw [← muteH_upd, ih]

theorem muteH_mergeFiles (st : VState) : mergeFiles (muteS st) = mergeFiles st := rfl

theorem muteS_toStl (st : VState) (pre : Option String) (m : MergeArg) :
    toStl (muteS st) pre m = ((toStl st pre m).1, (toStl st pre m).2.1, muteS (toStl st pre m).2.2) := by
  unfold toStl
  show (match writeAll pre st.veh.name [] (muteH st.heap) st.veh.components with
    | (.error x, ev, h) => _ | (.ok _, ev, h) => _) = _
  rw [muteH_writeAll]
  rcases writeAll pre st.veh.name [] st.heap st.veh.components with ⟨x | _, ev, h⟩
  · rfl
  · rcases m with (_ | _) | (_ | _) <;> rfl

theorem mute_setCommon (c : Comp) (v w : ℤ) (o : AddOpts) : mute ((mute c).setCommon w o) = mute (c.setCommon v o) := by
  obtain ⟨n, ra, ar, cu, cl, tr, mo, gh⟩ := o
  by_cases hv : v = 0 <;> by_cases hw : w = 0 <;> rcases ra with _ | ra <;> rcases cu with _ | cu <;> rcases tr with _ | tr <;>
    simp only [Comp.setCommon, hv, hw, if_true, if_false] <;> rfl

theorem mute_withOpts (c : Comp) (v w : ℤ) (o : AddOpts) :
    mute (withName (withOpts (mute c) w o) o) = mute (withName (withOpts c v o) o) := by
  have h := mute_setCommon c v w o
  unfold withOpts withName
  generalize (mute c).setCommon w o = a at h ⊢
  generalize c.setCommon v o = b at h ⊢
  obtain ⟨n, ra, ar, cu, cl, tr, mo, gh⟩ := o
  obtain ⟨a1, a2, a3, a4, a5, a6, a7, a8, a9, a10, a11, a12, a13, a14, a15, a16, a17⟩ := a
  obtain ⟨b1, b2, b3, b4, b5, b6, b7, b8, b9, b10, b11, b12, b13, b14, b15, b16, b17⟩ := b
  simp only [mute, Comp.mk.injEq] at h
  rcases n with _ | n <;> rcases cl with _ | ⟨_ | i, _ | j⟩ <;> rcases mo with _ | mo <;>
    simp only [Comp.addClusteringOptions, mute, Comp.mk.injEq] <;> grind

theorem mute_childWith (c : Comp) (v w : ℤ) (o : AddOpts) :
    mute (Composite.childWith (mute c) w o) = mute (Composite.childWith c v o) := by
  have h := mute_setCommon c v w o
  unfold Composite.childWith
  rcases o.clustering with _ | ⟨i, j⟩
  · exact h
  · simp only
    generalize (mute c).setCommon w o = a at h ⊢
    generalize c.setCommon v o = b at h ⊢
    simp only [mute, Comp.mk.injEq] at h ⊢
    grind

theorem muteS_addComponent (st : VState) (id : ℕ) (o : AddOpts) :
    ((addComponent (muteS st) id o).1, muteS (addComponent (muteS st) id o).2) = ((addComponent st id o).1, muteS (addComponent st id o).2) := by
  unfold addComponent
  by_cases hm : (st.heap id).componenttype ∈ allowable
  · rw [if_pos (show ((muteS st).heap id).componenttype ∈ allowable from hm), if_pos hm]
    simp only [muteS, muteH_upd]
    rw [show muteH st.heap id = mute (st.heap id) from rfl, mute_withOpts _ st.veh.verbosity]
    rfl
  · rw [if_neg (show ¬ ((muteS st).heap id).componenttype ∈ allowable from hm), if_neg hm]
    rfl

theorem muteH_appendChild (h : Heap) (self child : ℕ) :
    Composite.appendChild (muteH h) self child = muteH (Composite.appendChild h self child) := by
  unfold Composite.appendChild
  show (match (h self).gen with | .composite l => _ | _ => _) = _
  rcases (h self).gen with _ | _ | l
  · rfl
  · rfl
  · simp only [muteH_upd]; rfl

theorem muteH_addChild (h : Heap) (self child : ℕ) (o : AddOpts) :
    ((Composite.addComponent (muteH h) self child o).1, muteH (Composite.addComponent (muteH h) self child o).2) =
      ((Composite.addComponent h self child o).1, muteH (Composite.addComponent h self child o).2) := by
  unfold Composite.addComponent
  by_cases hm : (h child).componenttype ∈ Composite.allowable
  · rw [if_pos (show (muteH h child).componenttype ∈ Composite.allowable from hm), if_pos hm]
    simp only
    rw [← muteH_appendChild, ← muteH_appendChild, muteH_upd, muteH_upd, show muteH h child = mute (h child) from rfl,
      mute_childWith _ (h self).verbosity]
    rfl
  · rw [if_neg (show ¬ (muteH h child).componenttype ∈ Composite.allowable from hm), if_neg hm]
    rfl

theorem muteS_exec (lib : Lib) (depth : ℕ) (st : VState) (c c' : Call) (hc : SameCall c c') :
    (exec lib depth (muteS st) c').1 = (exec lib depth st c).1 ∧ muteS (exec lib depth (muteS st) c').2 = muteS (exec lib depth st c).2 := by
  cases c with
  | configure n v =>
    obtain ⟨w, rfl⟩ := hc
    cases n <;> exact ⟨rfl, rfl⟩
  | add id o =>
    cases hc
    have h := muteS_addComponent st id o
    simp only [Prod.mk.injEq] at h
    exact ⟨by simp only [exec, h.1], h.2⟩
  | addChild self child o =>
    cases hc
    have h := muteH_addChild st.heap self child o
    simp only [Prod.mk.injEq] at h
    refine ⟨by simp only [exec, muteS, h.1], ?_⟩
    simp only [exec, muteS, h.2]
  | later t => cases hc; exact ⟨rfl, rfl⟩
  | analyseLater d => cases hc; exact ⟨rfl, rfl⟩
  | property n x => cases hc; exact ⟨rfl, rfl⟩
  | generate =>
    cases hc
    have h := muteS_generateWith (deaf_analyse lib depth) st
    simp only [exec, Veh.generate]
    rw [h]
    exact ⟨rfl, rfl⟩
  | transform t => cases hc; simp only [exec]; rw [muteS_transform]; exact ⟨rfl, rfl⟩
  | analyse d => cases hc; simp only [exec]; rw [deaf_analyse lib depth st d]; exact ⟨rfl, rfl⟩
  | toStl p m => cases hc; simp only [exec]; rw [muteS_toStl]; exact ⟨rfl, rfl⟩

/-- C130: whatever the verbosity of the vehicle and of its components, each call returns or raises the same, with the same
files and analysis, and leaves the same vehicle, verbosity apart. -/
theorem C130_call (lib : Lib) (depth : ℕ) (st st' : VState) (h : SameButVerbosity st st') (c c' : Call) (hc : SameCall c c') :
    (exec lib depth st' c').1 = (exec lib depth st c).1 ∧ SameButVerbosity (exec lib depth st c).2 (exec lib depth st' c').2 := by
  rw [sameButVerbosity_iff] at h ⊢
  have hc' : SameCall c' c' := by cases c' <;> first | exact ⟨_, rfl⟩ | rfl
  obtain ⟨a, b⟩ := muteS_exec lib depth st c c' hc
  obtain ⟨a', b'⟩ := muteS_exec lib depth st' c' c' hc'
  rw [h] at a' b'
  exact ⟨a'.symm.trans a, b'.symm.trans b⟩

/-- C130: scripts that differ only in the verbosity they ask for see the same outcomes: every file, every analysis and every
exception is the same. -/
theorem C130_script (lib : Lib) (depth : ℕ) (cs cs' : List Call) (hcs : List.Forall₂ SameCall cs cs') : ∀ (st st' : VState),
    SameButVerbosity st st' → (execAll lib depth st' cs').1 = (execAll lib depth st cs).1 ∧
      SameButVerbosity (execAll lib depth st cs).2 (execAll lib depth st' cs').2 := by
  induction hcs with
  | nil => intro st st' h; exact ⟨rfl, h⟩
  | cons hc _ ih =>
    intro st st' h
    obtain ⟨a, b⟩ := C130_call lib depth st st' h _ _ hc
    obtain ⟨a', b'⟩ := ih _ _ b
    exact ⟨by simp only [execAll, a, a'], b'⟩

/-- C130: the outcomes compared above are not empty.  The outcome of `to_stl` holds every effect on the file system and its exception, that of `analyse` the
analysis or its exception. -/
theorem C130_outcomes (lib : Lib) (depth : ℕ) (st st' : VState) (p : Option String) (m : MergeArg) (d : Dict String ℝ) :
    (∀ r ev, toStl st p m = (r, ev, st') → (exec lib depth st (.toStl p m)).1.events = ev ∧
      ((exec lib depth st (.toStl p m)).1.result = .ok none ↔ r = .ok ()) ∧ (∀ e, (exec lib depth st (.toStl p m)).1.result = .error e ↔ r = .error e)) ∧
    (∀ r, analyse lib depth st d = (r, st') → ∀ a, ((exec lib depth st (.analyse d)).1.result = .ok (some a) ↔ r = .ok a)) := by
  refine ⟨fun r ev h => ?_, fun r h a => ?_⟩
  · simp only [exec, h, true_and]
    rcases r with e | u <;> simp
  · simp only [exec, h]
    rcases r with e | u <;> simp

/-- C130: `configure` sets the verbosity, 1 unless asked otherwise, and the name, kept unless one is given; it changes nothing
else. -/
theorem C130_configure (v : Veh) (n : Option String) (k : ℤ) :
    v.configure n = { v with name := n.getD v.name, verbosity := 1 } ∧ v.configure n k = { v with name := n.getD v.name, verbosity := k } := by
  cases n <;> exact ⟨rfl, rfl⟩

/-- A script that configures, adds, generates, analyses and writes, and the same script run silently. -/
example (id : ℕ) (d : Dict String ℝ) : List.Forall₂ SameCall
    [.configure (some "a") 2, .add id {}, .generate, .analyse d, .toStl none (.bool true)]
    [.configure (some "a") 0, .add id {}, .generate, .analyse d, .toStl none (.bool true)] :=
  .cons ⟨0, rfl⟩ (.cons rfl (.cons rfl (.cons rfl (.cons rfl .nil))))

/-- The two scripts may start from different verbosities. -/
example (h : Heap) : SameButVerbosity ⟨h, { verbosity := 2 }⟩ ⟨fun id => { h id with verbosity := 7 }, {}⟩ := ⟨fun _ => rfl, rfl⟩

end Veh
end HV
