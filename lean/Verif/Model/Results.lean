import Verif.Model.Vehicle

/-!
# Contents of the analysis files: `vehicle.py:358-378`, `462-478`

`Veh.resultEvents` records which analysis files `to_stl` writes; here are their contents.  Number formatting is not
modelled: a table is the list of its rows, an array its entries.
-/

namespace HV
namespace Veh

/-- A row of the table `_volmass`. -/
structure VmRow where
  label : String
  mass : ℝ
  volume : ℝ
  area : ℝ

/-- `vehicle.py:462-478`: `_volmass`, the rows of the components followed by the row `vehicle`. -/
def volmass (a : Analysis) : List VmRow :=
  a.components.map (fun e => ⟨e.1, e.2.props.mass, e.2.props.volume, e.2.area⟩) ++ [⟨"vehicle", a.mass, a.volume, a.area⟩]

/-- The contents of an analysis file: a table, the centre of gravity or the inertia (`none`: entries which are not finite). -/
inductive Content
  | table (rows : List VmRow)
  | vec (v : Option V)
  | mat (m : Option (Fin 3 → Fin 3 → ℝ))

/-- `vehicle.py:358-378`: the analysis files with their contents.  `_volmass` is set by `analyse` (line 466), `analysis_results`
only by `generate` (line 238). -/
def resultFiles (v : Veh) (p : String) : Res (List (String × Content)) :=
  match v.analysisResults with
  | none => .ok []
  | some r => match v.analysis with
    | none => .error .attr
    | some a => .ok [(p ++ "_properties/" ++ p ++ "_volmass.csv", .table (volmass a)),
        (p ++ "_properties/" ++ p ++ "_cog.txt", .vec r.cog), (p ++ "_properties/" ++ p ++ "_moi.txt", .mat r.moi)]

end Veh
end HV
