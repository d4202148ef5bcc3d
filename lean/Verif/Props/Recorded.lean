import Verif.Props.Properties
import Verif.Props.Inertia
import Verif.Props.VehicleGen
import Verif.Props.Composite

/-!
# C131, C79: what a script asked for last is what the vehicle does
-/

namespace HV
namespace Spec

/-- The densities of the last call of `analyse_after_generating`. -/
def lastRequest : List Veh.Call → Option (Dict String ℝ)
  | [] => none
  | .analyseLater d :: cs => (lastRequest cs).or (some d)
  | _ :: cs => lastRequest cs

/-- The transformations given to all calls of `add_vehicle_transformations`, in order: a single one or a list at a time. -/
def asked : List Veh.Call → List Transf
  | [] => []
  | .later (.one t) :: cs => t :: asked cs
  | .later (.many l) :: cs => l ++ asked cs
  | _ :: cs => asked cs

/-- The name given in the last call of `configure` with a name. -/
def lastName : List Veh.Call → Option String
  | [] => none
  | .configure n _ :: cs => (lastName cs).or n
  | _ :: cs => lastName cs

/-- The verbosity given in the last call of `configure`. -/
def lastVerbosity : List Veh.Call → Option ℤ
  | [] => none
  | .configure _ v :: cs => (lastVerbosity cs).or (some v)
  | _ :: cs => lastVerbosity cs

end Spec

open Spec

namespace Veh

/-- The settings of a vehicle made by calls other than `add_component`. -/
def settings (v : Veh) : Option (Dict String ℝ) × List Transf × String × ℤ :=
  (v.analyseOn, v.transformations, v.name, v.verbosity)

theorem settings_blueprint {v w : Veh} (h : blueprint v = blueprint w) : settings v = settings w := by
  have := congrArg settings h
  exact this

theorem addComponent_settings (st : VState) (id : ℕ) (o : AddOpts) : settings (addComponent st id o).2.veh = settings st.veh := by
  unfold addComponent; split <;> rfl

theorem exec_settings (lib : Lib) (depth : ℕ) (st : VState) (c : Call) :
    settings (exec lib depth st c).2.veh = ((lastRequest [c]).or st.veh.analyseOn, st.veh.transformations ++ asked [c],
      (lastName [c]).getD st.veh.name, (lastVerbosity [c]).getD st.veh.verbosity) := by
  have key : Works c → settings (exec lib depth st c).2.veh = settings st.veh := fun hc =>
    settings_blueprint (C131_work lib depth st c hc)
  have plain : settings st.veh = (st.veh.analyseOn, st.veh.transformations ++ [], st.veh.name, st.veh.verbosity) := by
    simp [settings]
  cases c with
  | configure n v => cases n <;> simp [exec, settings, Veh.configure, lastRequest, asked, lastName, lastVerbosity]
  | add id o => exact (addComponent_settings st id o).trans plain
  | addChild self child o => exact plain
  | later t => cases t <;> simp [exec, settings, addVehicleTransformations, TransfArg.toList, lastRequest, asked, lastName, lastVerbosity]
  | analyseLater d => simp [exec, settings, analyseAfterGenerating, lastRequest, asked, lastName, lastVerbosity]
  | property n x => exact plain
  | generate => exact (key trivial).trans plain
  | transform t => exact (key trivial).trans plain
  | analyse d => exact (key trivial).trans plain
  | toStl p m => exact (key trivial).trans plain

theorem lastRequest_cons (c : Call) (cs : List Call) : lastRequest (c :: cs) = (lastRequest cs).or (lastRequest [c]) := by
  cases c <;> simp [lastRequest]

theorem asked_cons (c : Call) (cs : List Call) : asked (c :: cs) = asked [c] ++ asked cs := by
  cases c with
  | later t => cases t <;> simp [asked]
  | _ => simp [asked]

theorem lastName_cons (c : Call) (cs : List Call) : lastName (c :: cs) = (lastName cs).or (lastName [c]) := by
  cases c <;> simp [lastName]

theorem lastVerbosity_cons (c : Call) (cs : List Call) : lastVerbosity (c :: cs) = (lastVerbosity cs).or (lastVerbosity [c]) := by
  cases c <;> simp [lastVerbosity]

/-- C131: after any script the vehicle is to be analysed with the densities last asked for, to be moved by all transformations
asked for in the order of the calls, has the name last given, and the verbosity last given; where the script gave none, what
was recorded before. -/
theorem C131_asked (lib : Lib) (depth : ℕ) (cs : List Call) : ∀ st : VState,
    (execAll lib depth st cs).2.veh.analyseOn = (lastRequest cs).or st.veh.analyseOn ∧
    (execAll lib depth st cs).2.veh.transformations = st.veh.transformations ++ asked cs ∧
    (execAll lib depth st cs).2.veh.name = (lastName cs).getD st.veh.name ∧
    (execAll lib depth st cs).2.veh.verbosity = (lastVerbosity cs).getD st.veh.verbosity := by
  induction cs with
  | nil => intro st; exact ⟨rfl, (List.append_nil _).symm, rfl, rfl⟩
  | cons c cs ih =>
    intro st
    obtain ⟨a, b, n, v⟩ := ih (exec lib depth st c).2
    have e := exec_settings lib depth st c
    simp only [settings, Prod.mk.injEq] at e
    obtain ⟨e1, e2, e3, e4⟩ := e
    rw [e1] at a; rw [e2] at b; rw [e3] at n; rw [e4] at v
    refine ⟨?_, ?_, ?_, ?_⟩
    · show (execAll lib depth (exec lib depth st c).2 cs).2.veh.analyseOn = _
      rw [a, lastRequest_cons c cs, Option.or_assoc]
    · show (execAll lib depth (exec lib depth st c).2 cs).2.veh.transformations = _
      rw [b, asked_cons c cs, List.append_assoc]
    · show (execAll lib depth (exec lib depth st c).2 cs).2.veh.name = _
      rw [n, lastName_cons c cs]
      rcases lastName cs with _ | x <;> simp
    · show (execAll lib depth (exec lib depth st c).2 cs).2.veh.verbosity = _
      rw [v, lastVerbosity_cons c cs]
      rcases lastVerbosity cs with _ | x <;> simp

/-- C79: a successful `generate` at the end of a script stores the analysis with the densities the script asked for last, and
nothing else: analysing the generated vehicle with them gives the same. -/
theorem C79_last_request (lib : Lib) (depth n : ℕ) (st st' : VState) (cs : List Call) (dens : Dict String ℝ) (hne : dens ≠ [])
    (hd : lastRequest cs = some dens) (h : generate lib (depth + 1) (execAll lib (depth + 1) st cs).2 = (.ok (), st')) :
    ∃ a st'', st'.veh.analysisResults = some a ∧ analyse lib (n + 1) st' dens = (.ok a, st'') := by
  have ho := (C131_asked lib (depth + 1) cs st).1
  rw [hd] at ho
  obtain ⟨a, st'', h1, h2, -⟩ := C79_stored lib depth n _ st' dens hne ho h
  exact ⟨a, st'', h1, h2⟩

/-- C70: a successful `generate` at the end of a script moves each component, after its own steps, by all vehicle
transformations asked for in the script, in the order of the calls. -/
theorem C70_asked (lib : Lib) (depth : ℕ) (st st' : VState) (cs : List Call) (h0 : st.veh.transformations = [])
    (hu : Unshared (execAll lib depth st cs).2.heap (execAll lib depth st cs).2.veh.components)
    (h : generate lib depth (execAll lib depth st cs).2 = (.ok (), st')) (k : ℕ) (hk : k ∈ (execAll lib depth st cs).2.veh.components) :
    ∃ c5 c6 : Comp, c5.applyAll (asked cs) = (.ok (), c6) ∧ (st'.heap k).patches = c6.patches ∧
      ((((ownPatches (execAll lib depth st cs).2.heap k).applyModifier.curve.rotate (execAll lib depth st cs).2.veh.angleOffset "y").reflect
        none).applyAll ((execAll lib depth st cs).2.heap k).transformations = (.ok (), c5)) := by
  obtain ⟨c4, c5, c6, e4, e5, e6, e7, -⟩ := C70_steps lib depth _ st' hu h k hk
  rw [(C131_asked lib depth cs st).2.1, h0, List.nil_append] at e6
  exact ⟨c5, c6, e6, e7, by rw [e4]; exact e5⟩

/-- C75: whatever the prefix and the tags, a successful `to_stl` with `merge=True` calls the merge step once, after everything else
was written; the merged file is named after the prefix, or after the vehicle without one; the files to be merged are
`<name>.stl` for the names under which the components that are no ghosts are listed. -/
theorem C75_call (st st' : VState) (pre : Option String) (ev : List FsEv) (h : toStl st pre (.bool true) = (.ok (), ev, st')) :
    ∃ before p, ev = before ++ [.merge ((st.veh.named.filter fun e => !(st'.heap e.2).ghost).map fun e => e.1 ++ ".stl") p] ∧
      (∀ files q, FsEv.merge files q ∉ before) ∧ (∀ q, pre = some q → q ≠ "" → p = q) ∧ (pre = none ∨ pre = some "" → p = st.veh.name) := by
  have hev : ∀ (l : List ℕ) (no : Dict String ℕ) (g : Heap), ∀ files q, FsEv.merge files q ∉ (writeAll pre st.veh.name no g l).2.1 := by
    intro l
    induction l with
    | nil => intro no g files q; simp [writeAll]
    | cons k ks ih =>
      intro no g files q
      unfold writeAll
      simp only
      rcases (g k).toStl (some (stlName pre st.veh.name (g k) ((no.get? (g k).componenttype).getD 0))) with ⟨x | ev, c'⟩
      · simp
      · simp only [List.mem_append, not_or]
        refine ⟨?_, ih _ _ _ _⟩
        rcases ev with _ | ⟨f, m⟩ <;> simp [stlEvent]
  have hw := hev st.veh.components [] st.heap
  unfold toStl at h
  rcases hx : writeAll pre st.veh.name [] st.heap st.veh.components with ⟨x | _, ev0, g⟩ <;> rw [hx] at h hw
  · simp at h
  · simp only [Prod.mk.injEq, mergeStep, true_and] at h
    obtain ⟨h1, h2⟩ := h
    subst h2
    refine ⟨ev0 ++ resultEvents st.veh (prefixOr pre st.veh.name) ++ propertyEvents st.veh (prefixOr pre st.veh.name),
      prefixOr pre st.veh.name, h1.symm, ?_, ?_, ?_⟩
    · intro files q
      simp only [List.mem_append, not_or]
      refine ⟨⟨hw files q, ?_⟩, ?_⟩
      · unfold resultEvents; split <;> simp
      · unfold propertyEvents; split <;> simp
    · rintro q rfl hq
      simp [prefixOr, truthy, hq]
    · rintro (rfl | rfl) <;> simp [prefixOr, truthy]

/-- A script that asks twice. -/
example (lib : Lib) (h : Heap) : lastRequest [.analyseLater [("a", 1)], .generate, .analyseLater [("a", 2)], .configure (some "x") 0,
      .later (.one (.rotate 1 "x")), .generate, .later (.many [.reflect none])] = some [("a", 2)] ∧
    (execAll lib 3 ⟨h, {}⟩ [.analyseLater [("a", 1)], .generate, .analyseLater [("a", 2)], .configure (some "x") 0]).2.veh.name = "x" := by
  refine ⟨rfl, ?_⟩
  rw [(C131_asked lib 3 _ _).2.2.1]; rfl

end Veh
/-! ## C57: what a composite records -/

/-- C57, the record: an accepted `CompositeComponent.add_component` leaves on the child exactly the options given, each in
its own place, with the verbosity of the composite taken into account; it keeps everything else of the child, appends the
child to the composite, keeps the rest of the composite and every other component. -/
theorem C57_options (h : Heap) (self child : ℕ) (o : AddOpts) (l : List ℕ) (hsc : self ≠ child)
    (hl : (h self).gen = .composite l)
    (hc : (h child).componenttype ∈ (["fin", "wing", "swept", "revolved", "sphere", "cube"] : List String)) :
    let c := h child
    let h' := (Composite.addComponent h self child o).2
    let c' := h' child
    (∀ k, k ≠ self → k ≠ child → h' k = h k) ∧
    h' self = { h self with gen := .composite (l ++ [child]) } ∧
    c'.reflection_axis = (match o.reflection_axis with | some a => some a | none => c.reflection_axis) ∧
    c'.append_reflection = (match o.reflection_axis with | some _ => o.append_reflection | none => c.append_reflection) ∧
    c'.curvatures = (match o.curvatures with | some k => some k | none => c.curvatures) ∧
    c'.transformations = (match o.transformations with | some t => t | none => c.transformations) ∧
    c'.clustering.i_clustering = (match o.clustering with | some (i, _) => i | none => c.clustering.i_clustering) ∧
    c'.clustering.j_clustering = (match o.clustering with | some (_, j) => j | none => c.clustering.j_clustering) ∧
    c'.verbosity = (if (h self).verbosity = 0 then 0 else max c.verbosity (h self).verbosity) ∧
    (c'.componenttype, c'.gen, c'.patches, c'.patch_res_r, c'.patch_res_s, c'.surfaces, c'.stl_resolution, c'.mesh_,
      c'.multiprocess, c'.modifier, c'.ghost, c'.name) =
    (c.componenttype, c.gen, c.patches, c.patch_res_r, c.patch_res_s, c.surfaces, c.stl_resolution, c.mesh_,
      c.multiprocess, c.modifier, c.ghost, c.name) := by
  intro c h' c'
  have e : h' = Composite.appendChild (h.upd child (Composite.childWith (h child) (h self).verbosity o)) self child := by
    show (Composite.addComponent h self child o).2 = _
    unfold Composite.addComponent
    rw [if_pos (show (h child).componenttype ∈ Composite.allowable from hc)]
  have e1 : h' = (h.upd child (Composite.childWith (h child) (h self).verbosity o)).upd self
      { h self with gen := .composite (l ++ [child]) } := by
    rw [e]
    unfold Composite.appendChild
    rw [upd_ne _ _ _ _ hsc, hl]
  have e' : c' = Composite.childWith c (h self).verbosity o := by
    show h' child = _
    rw [e1, upd_ne _ _ _ _ (Ne.symm hsc), upd_self]
  refine ⟨fun k hk hk' => by rw [e1, upd_ne _ _ _ _ hk, upd_ne _ _ _ _ hk'], by rw [e1, upd_self], ?_⟩
  rw [e']
  clear_value c h' c'
  obtain ⟨on, oa, oap, oc, okl, ot, om, og⟩ := o
  unfold Composite.childWith Comp.setCommon
  rcases oa with _ | _ <;> rcases oc with _ | _ <;> rcases ot with _ | _ <;>
    rcases okl with _ | ⟨_, _⟩ <;> by_cases hz : (h self).verbosity = 0 <;> simp [hz]

/-- A composite and a wing that meet the hypotheses. -/
example : ∃ h : Heap, (h 0).gen = .composite [] ∧
    (h 1).componenttype ∈ (["fin", "wing", "swept", "revolved", "sphere", "cube"] : List String) := by
  refine ⟨fun k => if k = 0 then { demoComp with gen := .composite [] } else { demoComp with componenttype := "wing" }, ?_, ?_⟩
  · simp
  · simp

end HV
