import Verif.Model.PathText

/-!
# The texts of clustering functions and structured grids
-/

namespace HV

/-- The attributes of clustering functions that are printed (`path.py:470-472, 496-506`). -/
inductive PrintedCluster
  | linear
  | roberts (end0 end1 : Bool) (beta : ℝ)

/-- The text of a Python truth value. -/
def boolText (b : Bool) : String := if b then "True" else "False"

/-- `__repr__`: `path.py:474-475, 508-509`; `txt` is the text of a number. -/
def PrintedCluster.repr (txt : ℝ → String) : PrintedCluster → String
  | linear => "LinearFunction()"
  | roberts end0 end1 beta => "RobertsFunction(end0=" ++ boolText end0 ++ ", end1=" ++ boolText end1 ++ ", beta=" ++ txt beta ++ ")"

/-- The attributes of a structured grid (`surface.py:146`); the texts of `vertices` and `tags` are given. -/
structure PrintedGrid where
  dimensions : ℕ
  niv : ℕ
  njv : ℕ
  nkv : ℕ
  vertices : String
  label : String
  tags : String

/-- `surface.py:166-172` `__repr__`. -/
def PrintedGrid.repr (g : PrintedGrid) : String :=
  "StructuredGrid(" ++ ("dimensions=" ++ toString g.dimensions ++ ", niv=" ++ toString g.niv ++ ", njv=" ++ toString g.njv ++ ", nkv=" ++
    toString g.nkv) ++ (", vertices=" ++ g.vertices) ++ (", tags=" ++ g.tags) ++ ")"

end HV
