import Verif.Model.Vehicle

/-!
# Sensitivity studies: `utilities.py:245-803` and `generator.py`

Parameter values are numbers or references to float arrays (mutable objects); `Store` holds the arrays.  Non-finite numbers
(`nan`, `inf`) are `none`.  Printing and progress bars are not modelled.
-/

namespace HV

/-- A parameter value: a number or a reference to a numpy float array. -/
inductive ParamVal
  | num (x : ℝ)
  | ref (k : ℕ)

/-- The contents of the arrays. -/
abbrev Store := ℕ → List ℝ

/-- A value as the vehicle constructor finds it. -/
inductive Val
  | num (x : ℝ)
  | arr (l : List ℝ)

/-- The value behind a reference. -/
def ParamVal.val (s : Store) : ParamVal → Val
  | num x => .num x
  | ref k => .arr (s k)

/-- `vehicle_constructor(**kwargs)` followed by `create_instance()`, arbitrary in the model: a function of the keyword
arguments.  Each call gives a new vehicle with components of its own; constructors keeping or changing the arrays passed are
not modelled. -/
abbrev Ctor := Dict String Val → Res VState

namespace Sens

/-- The difference of a parameter: `adjusted_parameters[parameter] - value`. -/
inductive Dp
  | num (d : ℝ)
  | arr (l : List ℝ)

/-- A number divided by a difference, numpy: not finite for a zero difference.  An array difference is the array subtracted
from itself (see `scale`), so that every entry of the quotient is not finite. -/
noncomputable def quot (x : ℝ) : Dp → Option ℝ
  | .num d => if d = 0 then none else some (x / d)
  | .arr _ => none

/-- The entries of a vector divided by a difference. -/
noncomputable def quotV (v : V) (dp : Dp) : Vec (Option ℝ) := ⟨quot v.x dp, quot v.y dp, quot v.z dp⟩

/-- A row of the table of `_compare_meshes`: row label, columns `x, y, z`, `dx, dy, dz`, `magnitude` and the three
sensitivities. -/
structure SRow where
  ix : ℕ
  pos : V
  delta : V
  magnitude : ℝ
  sens : Vec (Option ℝ)

/-- The columns of a row. -/
def SRow.cols (r : SRow) : V × V × ℝ × Vec (Option ℝ) := (r.pos, r.delta, r.magnitude, r.sens)

/-- The vertices of a mesh in the order of `vectors.reshape(-1, 3)`. -/
def vertices (m : TriMesh ℝ) : List V := m.flatMap fun t => [t.v0, t.v1, t.v2]

/-- `utilities.py:562-569`: the pairs of corresponding vertices.  numpy broadcasts a perturbed mesh of one triangle over the
reference mesh; other differences in size raise `ValueError` in the subtraction or in `reshape`. -/
def vertexPairs (m1 m2 : TriMesh ℝ) : Res (List (V × V)) :=
  if m1.length = m2.length then .ok ((vertices m1).zip (vertices m2))
  else match m2 with
    | [t] => .ok ((vertices m1).zip (vertices (m1.map fun _ => t)))
    | _ => .error .value

/-- `utilities.py:571-592`: one row. -/
noncomputable def mkRow (dp : Dp) (ix : ℕ) (p : V × V) : SRow :=
  let d := p.2 - p.1
  ⟨ix, p.1, d, Real.sqrt (d.x ^ 2 + d.y ^ 2 + d.z ^ 2), quotV d dp⟩

/-- Rows numbered from `ix`. -/
noncomputable def mkRows (dp : Dp) (ix : ℕ) : List (V × V) → List SRow
  | [] => []
  | p :: ps => mkRow dp ix p :: mkRows dp (ix + 1) ps

open Classical in
/-- `df[~df.duplicated()]` (`utilities.py:595`): rows whose columns were not `seen` before; labels are not compared. -/
noncomputable def dropDuplicates (seen : List (V × V × ℝ × Vec (Option ℝ))) : List SRow → List SRow
  | [] => []
  | r :: rs => if r.cols ∈ seen then dropDuplicates seen rs else r :: dropDuplicates (r.cols :: seen) rs

/-- `utilities.py:538-597` `_compare_meshes`.  An array difference of length other than three cannot be aligned with the
three columns (`ValueError`). -/
noncomputable def compareMeshes (m1 m2 : TriMesh ℝ) (dp : Dp) : Res (List SRow) := do
  let ps ← vertexPairs m1 m2
  match dp with
  | .arr l => if l.length ≠ 3 then throw PyErr.value else pure ()
  | .num _ => pure ()
  return dropDuplicates [] (mkRows dp 0 ps)

/-- Three missing values. -/
def nan3 : Vec (Option ℝ) := ⟨none, none, none⟩

/-- A row of the combined table of a component: label, reference location and the sensitivities to the parameters. -/
structure CRow where
  ix : ℕ
  pos : Option V
  sens : List (Vec (Option ℝ))

/-- The sensitivities in the row with label `ix`, missing values if there is no such row. -/
def sensAt (p : List SRow) (ix : ℕ) : Vec (Option ℝ) :=
  match p.find? fun q => q.ix = ix with
  | some q => q.sens
  | none => nan3

/-- `pd.concat([df, p_s], axis=1)` (`utilities.py:612`): outer join on the row labels; `k` is the number of parameters
already in `df`. -/
def concatCols (k : ℕ) (df : List CRow) (p : List SRow) : List CRow :=
  df.map (fun r => { r with sens := r.sens ++ [sensAt p r.ix] }) ++
    (p.filter fun q => !(df.map CRow.ix).contains q.ix).map fun q => ⟨q.ix, none, List.replicate k nan3 ++ [q.sens]⟩

/-- The tables of all components for all parameters. -/
abbrev Tables := Dict String (Dict String (List SRow))

/-- `utilities.py:608-612`: the loop over the parameters. -/
def concatAll (sens : Tables) (component : String) : ℕ → List CRow → List String → Res (List CRow)
  | _, df, [] => .ok df
  | k, df, p :: ps => do
    let t ← sens.get p
    let rows ← t.get component
    concatAll sens component (k + 1) (concatCols k df rows) ps

/-- `utilities.py:606-614`: one component of `_combine`; `params[0]` raises `IndexError` when there are no parameters. -/
def combineOne (sens : Tables) (component : String) : Res (List CRow) :=
  match sens.keys with
  | [] => .error .index
  | p0 :: ps => do
    let t ← sens.get p0
    let rows ← t.get component
    concatAll sens component 0 (rows.map fun r => ⟨r.ix, some r.pos, []⟩) (p0 :: ps)

/-- A combined table: its parameters and rows. -/
structure CTable where
  params : List String
  rows : List CRow

/-- `utilities.py:599-616` `_combine`. -/
def combine (names : List String) (sens : Tables) : Res (Dict String CTable) :=
  names.mapM fun c => do
    let rows ← combineOne sens c
    return (c, ⟨sens.keys, rows⟩)

/-- What a study changes outside itself: the arrays, the constructor calls made so far and the files written. -/
structure Run where
  store : Store
  calls : List (Dict String Val) := []
  events : List Veh.FsEv := []

/-- `utilities.py:340-342` and `379-381`: the keyword arguments; a name given twice raises `TypeError`. -/
def kwargs (s : Store) (params overrides : Dict String ParamVal) : Res (Dict String Val) :=
  if ∃ k ∈ params.keys, k ∈ overrides.keys then .error .type
  else .ok ((params ++ overrides).map fun e => (e.1, e.2.val s))

/-- `{name: component.mesh for ...}` (`utilities.py:348-351`, `387-390`). -/
noncomputable def readMeshes (h : Heap) : List (String × ℕ) → Res (Dict String StlMesh) × Heap
  | [] => (.ok [], h)
  | e :: es => match (h e.2).mesh with
    | (.error x, c) => (.error x, h.upd e.2 c)
    | (.ok m, c) => match readMeshes (h.upd e.2 c) es with
      | (.error x, h') => (.error x, h')
      | (.ok ms, h') => (.ok ((e.1, m) :: ms), h')

/-- A generated vehicle with its meshes. -/
structure Inst where
  st : VState
  meshes : Dict String StlMesh

/-- `utilities.py:344-351` and `382-390`: silencing and generating the vehicle and reading its meshes. -/
noncomputable def prepare (lib : Lib) (depth : ℕ) (st : VState) : Res Inst :=
  match Veh.generate lib depth ⟨st.heap, { st.veh with verbosity := 0 }⟩ with
  | (.error x, _) => .error x
  | (.ok _, st') => match readMeshes st'.heap st'.veh.named with
    | (.error x, _) => .error x
    | (.ok ms, h) => .ok ⟨⟨h, st'.veh⟩, ms⟩

/-- `utilities.py:340-351` and `379-390`: constructing and generating a vehicle; the call is recorded. -/
noncomputable def construct (ctor : Ctor) (lib : Lib) (depth : ℕ) (run : Run) (params overrides : Dict String ParamVal) :
    Res Inst × Run :=
  match kwargs run.store params overrides with
  | .error x => (.error x, run)
  | .ok kw => ((ctor kw).bind (prepare lib depth), { run with calls := run.calls ++ [kw] })

/-- `utilities.py:372-376`: the copy of the parameters with one of them scaled in place, and the difference.  The copy is
shallow: scaling an array changes the caller's array, and the difference is that of the array with itself. -/
noncomputable def scale (s : Store) (params : Dict String ParamVal) (name : String) (v : ParamVal) (f : ℝ) :
    Store × Dict String ParamVal × Dp :=
  match v with
  | .num x => (s, params.set name (.num (x * f)), .num (x * f - x))
  | .ref k =>
    let l := (s k).map (· * f)
    (Function.update s k l, params, .arr (l.zipWith (· - ·) l))

/-- Sensitivities of the analysis results (`utilities.py:392-399`). -/
structure AnalysisSens where
  volume : Option ℝ
  mass : Option ℝ
  cog : Vec (Option ℝ)
  moi : Fin 3 → Fin 3 → Option ℝ

/-- The difference of possibly non-finite values divided by a difference. -/
noncomputable def quotO (a b : Option ℝ) (dp : Dp) : Option ℝ :=
  match a, b with
  | some x, some y => quot (x - y) dp
  | _, _ => none

/-- `utilities.py:395-399`. -/
noncomputable def analysisDiff (b a : Analysis) (dp : Dp) : AnalysisSens :=
  { volume := quot (b.volume - a.volume) dp, mass := quot (b.mass - a.mass) dp,
    cog := ⟨quotO (b.cog.map Vec.x) (a.cog.map Vec.x) dp, quotO (b.cog.map Vec.y) (a.cog.map Vec.y) dp,
      quotO (b.cog.map Vec.z) (a.cog.map Vec.z) dp⟩,
    moi := fun i j => quotO (b.moi.map fun m => m i j) (a.moi.map fun m => m i j) dp }

/-- The rows `mass, volume, area` of `_volmass`: one per component and one for the vehicle. -/
def volmass (a : Analysis) : List (String × Vec ℝ) :=
  a.components.map (fun q => (q.1, ⟨q.2.props.mass, q.2.props.volume, q.2.area⟩)) ++ [("vehicle", ⟨a.mass, a.volume, a.area⟩)]

/-- `utilities.py:402-404`: the difference of the two tables, aligned on the labels.  Simplified: only the rows of the
nominal table are kept (labels only in the other table would give rows of missing values). -/
noncomputable def volmassDiff (b a : Analysis) (dp : Dp) : List (String × Vec (Option ℝ)) :=
  (volmass a).map fun e => (e.1, match Dict.get? (volmass b) e.1 with
    | some v => quotV (v - e.2) dp
    | none => nan3)

/-- `utilities.py:393-404`: nothing without nominal results; `TypeError` if the perturbed vehicle has none. -/
noncomputable def analysisStep (b a : Veh) (dp : Dp) : Res (Option (AnalysisSens × List (String × Vec (Option ℝ)))) :=
  match a.analysisResults, b.analysisResults with
  | none, _ => .ok none
  | some _, none => .error .type
  | some x, some y => .ok (some (analysisDiff y x dp, volmassDiff (b.analysis.getD y) (a.analysis.getD x) dp))

/-- A quotient of Python floats: division by zero raises. -/
noncomputable def quotPy (x : ℝ) : Dp → Res (Option ℝ)
  | .num d => if d = 0 then .error .zeroDiv else .ok (some (x / d))
  | .arr _ => .ok none

/-- `utilities.py:407-412`: the properties, values being Python floats. -/
noncomputable def propertyStep (b a : Veh) (dp : Dp) : Res (Option (Dict String (Option ℝ))) :=
  if a.properties = [] then .ok none
  else do
    let l ← a.properties.mapM fun e => do
      let w ← b.properties.get e.1
      let q ← quotPy (w - e.2) dp
      return (e.1, q)
    return some l

/-- `utilities.py:415-424`: comparing the meshes of all components. -/
noncomputable def compareAll (nominal perturbed : Dict String StlMesh) (dp : Dp) : Res (Dict String (List SRow)) :=
  nominal.mapM fun e => do
    let m ← perturbed.get e.1
    let rows ← compareMeshes e.2.tris m.tris dp
    return (e.1, rows)

/-- The results for one parameter. -/
structure PSens where
  tables : Dict String (List SRow)
  analysis : Option (AnalysisSens × List (String × Vec (Option ℝ)))
  properties : Option (Dict String (Option ℝ))

/-- `utilities.py:365-424`: the loop body, given the nominal instance and the perturbed one. -/
noncomputable def assess (nom par : Inst) (dp : Dp) : Res PSens := do
  let an ← analysisStep par.st.veh nom.st.veh dp
  let pr ← propertyStep par.st.veh nom.st.veh dp
  let ts ← compareAll nom.meshes par.meshes dp
  return ⟨ts, an, pr⟩

/-- `utilities.py:365-424`: the loop over the parameters. -/
noncomputable def study (ctor : Ctor) (lib : Lib) (depth : ℕ) (params overrides : Dict String ParamVal) (f : ℝ) (nom : Inst) :
    Run → List (String × ParamVal) → Res (Dict String PSens) × Run
  | run, [] => (.ok [], run)
  | run, (name, v) :: rest =>
    let a := scale run.store params name v f
    match construct ctor lib depth { run with store := a.1 } a.2.1 overrides with
    | (.error x, run') => (.error x, run')
    | (.ok par, run') => match assess nom par a.2.2 with
      | .error x => (.error x, run')
      | .ok r => match study ctor lib depth params overrides f nom run' rest with
        | (.error x, run'') => (.error x, run'')
        | (.ok rs, run'') => (.ok ((name, r) :: rs), run'')

/-- `utilities.py:250-279`: the attributes of a study. -/
structure Study where
  parameterSens : Option Tables := none
  componentSens : Option (Dict String CTable) := none
  scalarSens : Option (Dict String AnalysisSens) := none
  componentScalarSens : Option (Dict String (List (String × Vec (Option ℝ)))) := none
  propertySens : Option (Dict String (Dict String (Option ℝ))) := none
  nominal : Option VState := none
  combinedFn : String := "all_components_sensitivity.csv"

/-- The entries present, by parameter. -/
def present {α : Type} (l : Dict String PSens) (f : PSens → Option α) : Dict String α :=
  l.filterMap fun e => (f e.2).map fun a => (e.1, a)

/-- `utilities.py:430-433`: the attributes assigned before `_combine`. -/
def Study.withResults (self : Study) (l : Dict String PSens) : Study :=
  { self with parameterSens := some (l.map fun e => (e.1, e.2.tables)),
              scalarSens := some (present l fun p => p.analysis.map Prod.fst),
              componentScalarSens := some (present l fun p => p.analysis.map Prod.snd),
              propertySens := some (present l PSens.properties) }

/-- `utilities.py:429-440`: the end of `dvdp`. -/
def Study.finish (self : Study) (nom : VState) (l : Dict String PSens) : Res Tables × Study :=
  let s := self.withResults l
  match combine nom.veh.named.keys (l.map fun e => (e.1, e.2.tables)) with
  | .error x => (.error x, s)
  | .ok c => (.ok (l.map fun e => (e.1, e.2.tables)), { s with componentSens := some c, nominal := some nom })

/-- `utilities.py:356-358`: writing the nominal geometry. -/
noncomputable def writeNominal (write : Bool) (pre : Option String) (nom : Inst) (run : Run) : Res Inst × Run :=
  if write then
    match Veh.toStl nom.st pre (.bool false) with
    | (.error x, ev, _) => (.error x, { run with events := run.events ++ ev })
    | (.ok _, ev, st) => (.ok ⟨st, nom.meshes⟩, { run with events := run.events ++ ev })
  else (.ok nom, run)

/-- `utilities.py:284-446` `dvdp`: outcome, the study and the effects.  `overrides` stands for the dictionary given or the
empty one. -/
noncomputable def dvdp (self : Study) (ctor : Ctor) (lib : Lib) (depth : ℕ) (run : Run) (params overrides : Dict String ParamVal)
    (perturbation : ℝ := 5) (write : Bool := true) (pre : Option String := none) : Res Tables × Study × Run :=
  match construct ctor lib depth run params overrides with
  | (.error x, run) => (.error x, self, run)
  | (.ok nom, run) => match writeNominal write pre nom run with
    | (.error x, run) => (.error x, self, run)
    | (.ok nom, run) => match study ctor lib depth params overrides (1 + perturbation / 100) nom run params with
      | (.error x, run) => (.error x, self, run)
      | (.ok l, run) => ((self.finish nom.st l).1, (self.finish nom.st l).2, run)

/-! ## CSV files -/

/-- A table as written to or read from a CSV file: header and rows, missing or non-finite entries being `none`. -/
structure Csv where
  header : List String
  rows : List (List (Option ℝ))

/-- The columns of a parameter (`utilities.py:584-588`). -/
def paramCols (p : String) : List String := ["dxd" ++ p, "dyd" ++ p, "dzd" ++ p]

/-- The entries of a vector. -/
def entries {α : Type} (v : Vec α) : List α := [v.x, v.y, v.z]

/-- The entries of a row. -/
def CRow.entries (r : CRow) : List (Option ℝ) :=
  (match r.pos with | some v => [some v.x, some v.y, some v.z] | none => [none, none, none]) ++ r.sens.flatMap Sens.entries

/-- A combined table as a CSV table. -/
def CTable.csv (t : CTable) : Csv := ⟨["x", "y", "z"] ++ t.params.flatMap paramCols, t.rows.map CRow.entries⟩

/-- `pd.concat([a, b])`: the rows of both tables; columns are matched by name, those of `a` come first and missing entries are
`nan`. -/
def Csv.append (a b : Csv) : Csv :=
  let header := a.header ++ b.header.filter fun c => !a.header.contains c
  let fill := fun (h : List String) (r : List (Option ℝ)) => header.map fun c => (Dict.get? (h.zip r) c).getD none
  ⟨header, a.rows.map (fill a.header) ++ b.rows.map (fill b.header)⟩

/-- Writing to a file. -/
inductive CsvEv
  /-- a directory made unless it exists -/
  | dir (path : String)
  /-- a CSV file -/
  | csv (path : String) (t : Csv)
  /-- a CSV file with labelled rows -/
  | labelled (path : String) (header : List String) (rows : List (String × List (Option ℝ)))
  /-- numbers separated by commas -/
  | numbers (path : String) (l : List (Option ℝ))

/-- `os.path.join(dir, name)`. -/
def pathJoin (dir name : String) : String :=
  if name.toList.head? = some '/' then name
  else if dir = "" ∨ dir.toList.getLast? = some '/' then dir ++ name
  else dir ++ "/" ++ name

/-- `utilities.py:475-485`: the tables of the components and the combined one. -/
def componentEvents (outdir : String) (combinedFn : String) (d : Dict String CTable) : List CsvEv :=
  d.map (fun e => .csv (pathJoin outdir (e.1 ++ "_sensitivity.csv")) e.2.csv) ++
    [.csv (pathJoin outdir combinedFn) (d.foldl (fun a e => a.append e.2.csv) ⟨[], []⟩)]

/-- `utilities.py:488-523`: the sensitivities of the analysis results.  The labels are those of the last parameter. -/
def scalarEvents (outdir : String) (scalar : Dict String AnalysisSens)
    (comp : Dict String (List (String × Vec (Option ℝ)))) : List CsvEv :=
  let dir := pathJoin outdir "scalar_sensitivities"
  let values := comp.map fun e => e.2.flatMap fun r => entries r.2
  let labels := ((comp.getLast?.map fun e => e.2).getD []).flatMap fun r => ["mass", "volume", "area"].map fun i => r.1 ++ "_" ++ i
  if scalar = [] then [] else
    [.dir dir, .labelled (pathJoin dir "volmass_sensitivity.csv") comp.keys
      (labels.mapIdx fun i l => (l, values.map fun v => (v[i]?).getD none))] ++
    scalar.flatMap fun e =>
      [.numbers (pathJoin dir (e.1 ++ "_cog_sensitivity.txt")) (entries e.2.cog),
       .numbers (pathJoin dir (e.1 ++ "_moi_sensitivity.txt"))
        ((List.finRange 3).flatMap fun i => (List.finRange 3).map fun j => e.2.moi i j)]

/-- `utilities.py:526-533`: the sensitivities of the properties. -/
def propertySensEvents (outdir : String) (d : Dict String (Dict String (Option ℝ))) : List CsvEv :=
  let dir := pathJoin outdir "scalar_sensitivities"
  let labels := ((d.head?.map fun e => e.2).getD []).map Prod.fst
  if d = [] then [] else
    [.dir dir, .labelled (pathJoin dir "property_sensitivity.csv") d.keys
      (labels.map fun l => (l, d.map fun e => (e.2.get? l).getD none))]

/-- `utilities.py:448-536` `to_csv`, the working directory being `cwd`: the path returned and the effects. -/
def Study.toCsv (self : Study) (cwd : String) (outdir : Option String) : Res String × List CsvEv :=
  match self.componentSens with
  | none => (.error .exc, [])
  | some d =>
    let dir := outdir.getD cwd
    (.ok (pathJoin dir self.combinedFn), [.dir dir] ++ componentEvents dir self.combinedFn d ++
      scalarEvents dir (self.scalarSens.getD []) (self.componentScalarSens.getD []) ++
      propertySensEvents dir (self.propertySens.getD []))

/-! ## Appending to `.tri` files -/

/-- `del dp_filenames[dp_filenames.index(fn)]`, ignoring `ValueError` (`utilities.py:697-701`). -/
def delFirst (l : List String) (fn : String) : List String := l.erase fn

/-- `utilities.py:691-694`: the points; blank lines and short lines give missing values and are dropped.  `DataFrame` raises
when the longest line does not have three numbers. -/
def readPoints (lines : List (List ℝ)) : Res (List V) :=
  if lines.foldl (fun n l => max n l.length) 0 ≠ 3 then .error .value
  else .ok (lines.filterMap fun l => match l with | [x, y, z] => some ⟨x, y, z⟩ | _ => none)

/-- `utilities.py:704-707`: reading and concatenating the tables. -/
def readTables (fs : String → Res Csv) (files : List String) : Res Csv := do
  let l ← files.mapM fs
  return l.foldl Csv.append ⟨[], []⟩

/-- The last part of `s.split("dxd")` on characters: `acc` is the current part. -/
def splitLast (acc : List Char) : List Char → List Char
  | 'd' :: 'x' :: 'd' :: cs => splitLast [] cs
  | c :: cs => splitLast (acc ++ [c]) cs
  | [] => acc

/-- `param_cols[i].split("dxd")[-1]` (`utilities.py:713`). -/
def paramName (s : String) : String := String.ofList (splitLast [] s.toList)

/-- `utilities.py:710-713`: the parameter names, from every third column. -/
def paramNames (cols : List String) : List String :=
  (List.range (cols.length / 3)).map fun i => paramName ((cols[3 * i]?).getD "")

/-- A column of a table. -/
def Csv.column (t : Csv) (c : String) : Res (List (Option ℝ)) :=
  if c ∈ t.header then .ok (t.rows.map fun r => (Dict.get? (t.header.zip r) c).getD none) else .error .key

/-- `(a - b).abs() < tol`, false for missing values. -/
noncomputable def near (tol a : ℝ) : Option ℝ → Bool
  | some b => decide (|a - b| < tol)
  | none => false

/-- `utilities.py:724-731`: the index of the first row matching the point. -/
noncomputable def firstMatch (tol : ℝ) (xs ys zs : List (Option ℝ)) (p : V) : Option ℕ :=
  (xs.zip (ys.zip zs)).findIdx? fun e => near tol p.x e.1 && near tol p.y e.2.1 && near tol p.z e.2.2

/-- `utilities.py:734`: values below the tolerance become zero; missing values stay. -/
noncomputable def roundOff (tol : ℝ) (v : Option ℝ) : Option ℝ := v.map fun x => if |x| < tol then 0 else x

/-- One line of a data array (`utilities.py:740-743`, `754`), `fmt` being the number format `.14e`. -/
def dataLine (fmt : Option ℝ → String) (a b c : Option ℝ) : String :=
  "\t" ++ fmt a ++ "\t" ++ fmt b ++ "\t" ++ fmt c ++ "\n "

/-- `utilities.py:738-747`: the data of a matched point, appended to the array of each parameter. -/
def pushMatched (fmt : Option ℝ → String) (row : List (Option ℝ)) (d : Dict String String) : Dict String String :=
  d.mapIdx fun k e => (e.1, e.2 ++ dataLine fmt ((row[3 * k]?).getD none) ((row[1 + 3 * k]?).getD none) ((row[2 + 3 * k]?).getD none))

/-- `utilities.py:752-760`: zeros for a point without match. -/
def pushZeros (fmt : Option ℝ → String) (d : Dict String String) : Dict String String :=
  d.map fun e => (e.1, e.2 ++ dataLine fmt (some 0) (some 0) (some 0))

/-- The state of the loop over the points: rows of `all_data`, the data arrays and the number of matched points. -/
structure Acc where
  all : List (List (Option ℝ))
  data : Dict String String
  matched : ℕ

/-- The values of a row in the columns after the first three (`dp_df[...].iloc[0][param_cols].values`). -/
def paramValues (t : Csv) (cols : List String) (k : ℕ) : List (Option ℝ) :=
  cols.map fun c => (Dict.get? (t.header.zip ((t.rows[k]?).getD [])) c).getD none

/-- `utilities.py:724-764`: one point. -/
noncomputable def matchPoint (fmt : Option ℝ → String) (t : Csv) (cols : List String) (mtol rtol : ℝ) (a : Acc) (p : V) : Res Acc := do
  let xs ← t.column "x"
  let ys ← t.column "y"
  let zs ← t.column "z"
  match firstMatch mtol xs ys zs p with
  | some k =>
    let row := (paramValues t cols k).map (roundOff rtol)
    return ⟨a.all ++ [row], pushMatched fmt row a.data, a.matched + 1⟩
  | none => return ⟨a.all ++ [cols.map fun _ => some 0], pushZeros fmt a.data, a.matched⟩

/-- What `append_sensitivities_to_tri` leaves: the caller's list of files, and if it succeeds the fraction returned, the
combined table and the data arrays appended to the `.tri` file. -/
structure TriOut where
  files : List String
  result : Res (ℝ × Csv × List (String × String))

/-- `utilities.py:703-796` for parsed points and the remaining files. -/
noncomputable def appendPoints (fmt : Option ℝ → String) (fs : String → Res Csv) (files : List String) (points : List V)
    (mtol rtol : ℝ) : Res (ℝ × Csv × List (String × String)) := do
  let t ← readTables fs files
  let cols := t.header.drop 3
  let params := paramNames cols
  let a ← points.foldlM (matchPoint fmt t cols mtol rtol) ⟨[], Dict.setAll [] (params.map fun p => (p, "\n ")), 0⟩
  let fraction ← pdiv a.matched points.length
  let arrays ← params.mapM fun p => do
    let d ← a.data.get p
    return (p ++ "_sens", d)
  return (fraction, ⟨["x", "y", "z"] ++ cols, (points.zip a.all).map fun e => [some e.1.x, some e.1.y, some e.1.z] ++ e.2⟩, arrays)

/-- `utilities.py:620-803` `append_sensitivities_to_tri`: `lines` are the numbers on the lines of the points element, `fs` reads
a CSV file.  Parsing XML and writing the files is not modelled; the combined table is written to
`os.path.join(outdir, combined)`. -/
noncomputable def appendToTri (fmt : Option ℝ → String) (fs : String → Res Csv) (files : List String) (lines : List (List ℝ))
    (mtol : ℝ := 1e-5) (rtol : ℝ := 1e-8) (combined : String := "all_components_sensitivity.csv") : TriOut :=
  match readPoints lines with
  | .error x => ⟨files, .error x⟩
  | .ok points => ⟨delFirst files combined, appendPoints fmt fs (delFirst files combined) points mtol rtol⟩

end Sens

/-! ## Generators -/

/-- `generator.py:20-24`: the attributes of the instance after `Generator.__init__`, those set before by the subclass being
`attrs`.  Attributes that are properties of the class are not modelled. -/
def Generator.init {α : Type} (attrs : Dict String α) (kwargs : Dict String α) : Dict String α := attrs.setAll kwargs

end HV
