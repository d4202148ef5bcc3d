import Verif.Model.Component

/-!
# `vehicle.py`, `utilities.py:150-242`, `transformations.py`

A vehicle refers to its components by object identity; its methods act on a heap of components and the vehicle record.
Methods that may raise part-way return the outcome together with the state that is left.  Printing is not modelled.
-/

namespace HV

/-- What `mesh.get_mass_properties_with_density` (numpy-stl, not part of the repository) returns. -/
structure MassProps where
  volume : ℝ
  mass : ℝ
  cog : V
  moi : Fin 3 → Fin 3 → ℝ

/-- The numpy-stl functions used in the analysis, arbitrary in the model: mass properties of a mesh for a density
(`utilities.py:192`) and its surface area (`utilities.py:197`). -/
structure Lib where
  massProps : StlMesh → ℝ → Res MassProps
  area : StlMesh → ℝ

/-- One component's entry of `component_properties` (`utilities.py:199-204`). -/
structure CompProps where
  props : MassProps
  area : ℝ

/-- The result of `assess_inertial_properties` (`utilities.py:227-240`).  `cog` and `moi` are `none` when their entries are
not finite. -/
structure Analysis where
  volume : ℝ
  mass : ℝ
  area : ℝ
  cog : Option V
  moi : Option (Fin 3 → Fin 3 → ℝ)
  components : List (String × CompProps)

/-- `vehicle.py:24-49`: instance attributes.  `analysis` stands for the attributes `volume`, `mass`, `area`, `cog`, `moi`
and `component_properties` (set together on lines 455-460); `_volmass` is derived from them and not modelled separately. -/
structure Veh where
  components : List ℕ := []
  name : String := "vehicle"
  angleOffset : ℝ := 0
  verbosity : ℤ := 1
  properties : Dict String ℝ := []
  analysisResults : Option Analysis := none
  analysis : Option Analysis := none
  generated : Bool := false
  counts : Dict String ℕ := []
  enumerated : Dict String ℕ := []
  named : Dict String ℕ := []
  transformations : List Transf := []
  analyseOn : Option (Dict String ℝ) := none

/-- The components and the vehicle. -/
structure VState where
  heap : Heap
  veh : Veh

namespace Veh

/-- `vehicle.py:16-22` with `constants.py`. -/
def allowable : List String := ["fin", "wing", "swept", "revolved", "composite"]

/-- `vehicle.py:67-71` `configure`. -/
def configure (v : Veh) (name : Option String) (verbosity : ℤ := 1) : Veh :=
  match name with
  | some n => { v with name := n, verbosity := verbosity }
  | none => { v with verbosity := verbosity }

/-- Truthiness of an optional string: `None` and `""` are false. -/
def truthy (s : Option String) : Bool :=
  match s with
  | some t => t ≠ ""
  | none => false

/-- `vehicle.py:136-165`: the options recorded on the component. -/
def withOpts (c : Comp) (verbosity : ℤ) (o : AddOpts) : Comp :=
  let c := c.setCommon verbosity o
  let c := match o.clustering with | some k => c.addClusteringOptions k.1 k.2 | none => c
  let c := match o.modifier with | some f => { c with modifier := some f } | none => c
  { c with ghost := o.ghost }

/-- `vehicle.py:179-190`: the name recorded on the component. -/
def withName (c : Comp) (o : AddOpts) : Comp :=
  match o.name with
  | some n => { c with name := some n }
  | none => c

/-- `vehicle.py:179-191`: the key of the component in `_named_components`. -/
def nameFor (c : Comp) (count : ℕ) (o : AddOpts) : String :=
  match o.name with
  | some n => n
  | none => if truthy c.name then c.name.getD "" else c.componenttype ++ "_" ++ toString count

/-- `vehicle.py:171`: the number of components of this type including the new one. -/
def nextCount (v : Veh) (ty : String) : ℕ := (v.counts.get? ty).getD 0 + 1

/-- `vehicle.py:168-191`: the vehicle's records after adding component `id`, whose state is `c`. -/
def record (v : Veh) (id : ℕ) (c : Comp) (o : AddOpts) : Veh :=
  let n := v.nextCount c.componenttype
  { v with components := v.components ++ [id], counts := v.counts.set c.componenttype n,
           enumerated := v.enumerated.set (c.componenttype ++ "_" ++ toString n) id,
           named := v.named.set (nameFor c n o) id }

/-- `vehicle.py:73-198` `add_component`. -/
def addComponent (st : VState) (id : ℕ) (o : AddOpts) : Res Unit × VState :=
  if (st.heap id).componenttype ∈ allowable then
    (.ok (), ⟨st.heap.upd id (withName (withOpts (st.heap id) st.veh.verbosity o) o), st.veh.record id (st.heap id) o⟩)
  else (.error .exc, st)

/-- `vehicle.py:210-226`: one component of `generate`. -/
noncomputable def genOne (angle : ℝ) (h : Heap) (id : ℕ) : Res Unit × Heap :=
  match generatePatches h id with
  | (.error e, h') => (.error e, h')
  | (.ok _, h') =>
    let r := ((((h' id).applyModifier.curve).rotate angle "y").reflect none).transform
    (r.1, h'.upd id r.2)

/-- `vehicle.py:206-226`: the loop over the components. -/
noncomputable def genAll (angle : ℝ) (h : Heap) : List ℕ → Res Unit × Heap
  | [] => (.ok (), h)
  | k :: ks => match genOne angle h k with
    | (.ok _, h') => genAll angle h' ks
    | (.error e, h') => (.error e, h')

/-- The argument of `transform` and `add_vehicle_transformations`: one tuple or a list of tuples. -/
inductive TransfArg
  | one (t : Transf)
  | many (l : List Transf)

/-- `vehicle.py:264-266` and `289-291`: a tuple is coerced into a list. -/
def TransfArg.toList : TransfArg → List Transf
  | one t => [t]
  | many l => l

/-- `vehicle.py:294-302`: one component of `transform`. -/
noncomputable def transformOne (h : Heap) (ts : List Transf) (id : ℕ) : Res Unit × Heap :=
  match (h id).applyAll ts with
  | (.error e, c) => (.error e, h.upd id c)
  | (.ok _, c) => (.ok (), h.upd id { c with surfaces := none, mesh_ := none })

/-- `vehicle.py:294-302`: the loop over the components. -/
noncomputable def transformAll (h : Heap) (ts : List Transf) : List ℕ → Res Unit × Heap
  | [] => (.ok (), h)
  | k :: ks => match transformOne h ts k with
    | (.ok _, h') => transformAll h' ts ks
    | (.error e, h') => (.error e, h')

/-- `vehicle.py:284-302` `transform`. -/
noncomputable def transform (st : VState) (a : TransfArg) : Res Unit × VState :=
  if st.veh.generated then
    ((transformAll st.heap a.toList st.veh.components).1,
      ⟨(transformAll st.heap a.toList st.veh.components).2, st.veh⟩)
  else (.error .exc, st)

/-- `vehicle.py:245-267` `add_vehicle_transformations`. -/
def addVehicleTransformations (v : Veh) (a : TransfArg) : Veh :=
  { v with transformations := v.transformations ++ a.toList }

/-- `vehicle.py:269-282` `analyse_after_generating`. -/
def analyseAfterGenerating (v : Veh) (densities : Dict String ℝ) : Veh := { v with analyseOn := some densities }

/-- `vehicle.py:231-233`: vehicle transformations of `generate`. -/
noncomputable def genTransform (st : VState) : Res Unit × VState :=
  if st.veh.transformations = [] then (.ok (), st) else transform st (.many st.veh.transformations)

/-- An analysis method: `self.analyse(densities)`. -/
abbrev Analyser := VState → Dict String ℝ → Res Analysis × VState

/-- `vehicle.py:236-240`: analysis at the end of `generate`; an empty dictionary of densities is false. -/
def genAnalyse (an : Analyser) (st : VState) : Res Unit × VState :=
  match st.veh.analyseOn with
  | none => (.ok (), st)
  | some [] => (.ok (), st)
  | some d => match an st d with
    | (.error e, st') => (.error e, st')
    | (.ok a, st') => (.ok (), ⟨st'.heap, { st'.veh with analysisResults := some a }⟩)

/-- `vehicle.py:200-243` `generate`, calling the analysis method `an`. -/
noncomputable def generateWith (an : Analyser) (st : VState) : Res Unit × VState :=
  match genAll st.veh.angleOffset st.heap st.veh.components with
  | (.error e, h) => (.error e, ⟨h, st.veh⟩)
  | (.ok _, h) => match genTransform ⟨h, { st.veh with generated := true }⟩ with
    | (.error e, st') => (.error e, st')
    | (.ok _, st') => genAnalyse an st'

/-- `utilities.py:190-197`: reading one component: mesh, mass properties, then the areas of the mesh. -/
noncomputable def assessOne (lib : Lib) (dens : Dict String ℝ) (h : Heap) (e : String × ℕ) : Res CompProps × Heap :=
  match (h e.2).mesh with
  | (.error x, c) => (.error x, h.upd e.2 c)
  | (.ok m, c) => match dens.get e.1 with
    | .error x => (.error x, h.upd e.2 c)
    | .ok ρ => match lib.massProps m ρ with
      | .error x => (.error x, h.upd e.2 c)
      | .ok p => match c.mesh with
        | (.error x, c') => (.error x, h.upd e.2 c')
        | (.ok m', c') => (.ok ⟨p, lib.area m'⟩, h.upd e.2 c')

/-- `utilities.py:188-207`: the loop over the named components. -/
noncomputable def assessAll (lib : Lib) (dens : Dict String ℝ) (h : Heap) :
    List (String × ℕ) → Res (List (String × CompProps)) × Heap
  | [] => (.ok [], h)
  | e :: es => match assessOne lib dens h e with
    | (.error x, h') => (.error x, h')
    | (.ok p, h') => match assessAll lib dens h' es with
      | (.error x, h'') => (.error x, h'')
      | (.ok ps, h'') => (.ok ((e.1, p) :: ps), h'')

/-- `utilities.py:209-215`: the composite centre of mass.  `total_mass` is the integer 0 when there is no component
(division raises) and a numpy float otherwise (division by zero gives non-finite entries). -/
noncomputable def compositeCog (l : List (String × CompProps)) (total : ℝ) : Res (Option V) :=
  match l with
  | [] => .error .zeroDiv
  | l => if total = 0 then .ok none
    else .ok (some ((l.foldl (fun a e => a + e.2.props.cog * e.2.props.mass) (⟨0, 0, 0⟩ : V)) * (1 / total)))

/-- `utilities.py:221-222`: `inertias[component] + m * r**2`, the second summand broadcast over the rows. -/
def adjusted (p : MassProps) (cog : V) : Fin 3 → Fin 3 → ℝ := fun i j =>
  p.moi i j + p.mass * (![p.cog.x - cog.x, p.cog.y - cog.y, p.cog.z - cog.z] j) ^ 2

/-- `utilities.py:217-225`: the composite inertia. -/
def compositeMoi (l : List (String × CompProps)) (cog : V) : Fin 3 → Fin 3 → ℝ :=
  l.foldl (fun a e => fun i j => a i j + adjusted e.2.props cog i j) fun _ _ => 0

/-- `utilities.py:209-240`: the vehicle's properties from those of the components.  The dictionaries `masses`, `cgs` and
`inertias` have the keys of `_named_components`, so they are read in the order of the loop. -/
noncomputable def summarise (l : List (String × CompProps)) : Res Analysis := do
  let mass := l.foldl (fun a e => a + e.2.props.mass) 0
  let cog ← compositeCog l mass
  return { volume := l.foldl (fun a e => a + e.2.props.volume) 0, mass := mass,
           area := l.foldl (fun a e => a + e.2.area) 0, cog := cog, moi := cog.map (compositeMoi l), components := l }

/-- `utilities.py:177-242` and `vehicle.py:450-480` for a generated vehicle: assessment and assignment of the results. -/
noncomputable def analyseGenerated (lib : Lib) (st : VState) (dens : Dict String ℝ) : Res Analysis × VState :=
  match assessAll lib dens st.heap st.veh.named with
  | (.error x, h) => (.error x, ⟨h, st.veh⟩)
  | (.ok l, h) => match summarise l with
    | .error x => (.error x, ⟨h, st.veh⟩)
    | .ok a => (.ok a, ⟨h, { st.veh with analysis := some a }⟩)

/-- `vehicle.py:424-480` `analyse` with `utilities.py:174-175`: an ungenerated vehicle is generated by `gen` first. -/
noncomputable def analyseWith (lib : Lib) (gen : VState → Res Unit × VState) (st : VState) (dens : Dict String ℝ) :
    Res Analysis × VState :=
  if st.veh.generated then analyseGenerated lib st dens
  else match gen st with
    | (.error x, st') => (.error x, st')
    | (.ok _, st') => analyseGenerated lib st' dens

/-- `analyse` when at most `depth` nested calls of `analyse` are possible (Python's recursion limit). -/
noncomputable def analyse (lib : Lib) : ℕ → Analyser
  | 0 => fun st _ => (.error .runtime, st)
  | depth + 1 => analyseWith lib (generateWith (analyse lib depth))

/-- `generate` when at most `depth` nested calls of `analyse` are possible. -/
noncomputable def generate (lib : Lib) (depth : ℕ) (st : VState) : Res Unit × VState := generateWith (analyse lib depth) st

/-- `vehicle.py:482-486` `add_property`. -/
def addProperty (v : Veh) (name : String) (value : ℝ) : Veh := { v with properties := v.properties.set name value }

/-- `vehicle.py:488-495` `get_non_ghost_components`. -/
def getNonGhostComponents (st : VState) : Dict String ℕ :=
  st.veh.named.foldl (fun d e => if (st.heap e.2).ghost then d else d.set e.1 e.2) []

/-- Effects of `to_stl` outside the vehicle. -/
inductive FsEv
  /-- an STL file written by `component.to_stl` -/
  | stl (file : String) (m : StlMesh)
  /-- a directory made unless it exists -/
  | dir (path : String)
  /-- another file written -/
  | file (path : String)
  /-- `utilities.merge_stls(stl_files, name)` -/
  | merge (files : List String) (name : String)

/-- `vehicle.py:336-347`: the STL file name of a component, `no` components of its type having been written before. -/
def stlName (pre : Option String) (vname : String) (c : Comp) (no : ℕ) : String :=
  if truthy pre then
    if truthy c.name then pre.getD "" ++ "-" ++ c.name.getD "" ++ ".stl"
    else pre.getD "" ++ "-" ++ c.componenttype ++ "-" ++ toString no ++ ".stl"
  else if truthy c.name then c.name.getD "" ++ ".stl"
  else vname ++ "-" ++ c.componenttype ++ "-" ++ toString no ++ ".stl"

/-- The event of one call of `component.to_stl`. -/
def stlEvent : Option (String × StlMesh) → List FsEv
  | some (f, m) => [.stl f m]
  | none => []

/-- `vehicle.py:330-355`: the loop of `to_stl`; `no` holds the numbers of components seen per type. -/
noncomputable def writeAll (pre : Option String) (vname : String) (no : Dict String ℕ) (h : Heap) :
    List ℕ → Res Unit × List FsEv × Heap
  | [] => (.ok (), [], h)
  | k :: ks =>
    let c := h k
    let n := (no.get? c.componenttype).getD 0
    match c.toStl (some (stlName pre vname c n)) with
    | (.error x, c') => (.error x, [], h.upd k c')
    | (.ok ev, c') =>
      let r := writeAll pre vname (no.set c.componenttype (n + 1)) (h.upd k c') ks
      (r.1, stlEvent ev ++ r.2.1, r.2.2)

/-- The `merge` argument of `to_stl`. -/
inductive MergeArg
  | bool (b : Bool)
  | list (l : List String)

/-- `vehicle.py:357-397`: the prefix used for the analysis results, properties and merged file. -/
def prefixOr (pre : Option String) (vname : String) : String := if truthy pre then pre.getD "" else vname

/-- `vehicle.py:358-378`: analysis results. -/
def resultEvents (v : Veh) (p : String) : List FsEv :=
  match v.analysisResults with
  | none => []
  | some _ => [.dir (p ++ "_properties"), .file (p ++ "_properties/" ++ p ++ "_volmass.csv"),
      .file (p ++ "_properties/" ++ p ++ "_cog.txt"), .file (p ++ "_properties/" ++ p ++ "_moi.txt")]

/-- `vehicle.py:380-393`: user-defined properties. -/
def propertyEvents (v : Veh) (p : String) : List FsEv :=
  if v.properties = [] then []
  else [.dir (p ++ "_properties"), .file (p ++ "_properties/" ++ p ++ "_properties.csv")]

/-- `vehicle.py:410-416`: the files passed to the merge step. -/
def mergeFiles (st : VState) : List String :=
  (st.veh.named.filter fun e => !(st.heap e.2).ghost).map fun e => e.1 ++ ".stl"

/-- `vehicle.py:395-417`: the merge step; an empty list and `False` are false. -/
def mergeStep (st : VState) (p : String) : MergeArg → Res Unit × List FsEv
  | .bool false => (.ok (), [])
  | .bool true => (.ok (), [.merge (mergeFiles st) p])
  | .list [] => (.ok (), [])
  | .list _ => (.error .notImpl, [])

/-- `vehicle.py:304-422` `to_stl`: outcome, effects and final state. -/
noncomputable def toStl (st : VState) (pre : Option String) (merge : MergeArg) : Res Unit × List FsEv × VState :=
  match writeAll pre st.veh.name [] st.heap st.veh.components with
  | (.error x, ev, h) => (.error x, ev, ⟨h, st.veh⟩)
  | (.ok _, ev, h) =>
    let p := prefixOr pre st.veh.name
    let st' : VState := ⟨h, st.veh⟩
    let m := mergeStep st' p merge
    (m.1, ev ++ resultEvents st.veh p ++ propertyEvents st.veh p ++ m.2, st')

end Veh

/-- `transformations.py:1`. -/
def CART3D : List Transf := [.rotate 180 "z", .rotate 90 "x"]

end HV
