import Verif.Model.Hangar

/-!
# Hangar vehicles in sensitivity studies
-/

namespace HV

/-- `wedge.py:71-84`, `utilities.py:340-342`: `SensitivityStudy(ParametricWedge)` calls `ParametricWedge(**kwargs)` and
`create_instance()`.  Each call of the constructor starts from the heap `h` and the identity `id`: vehicles of different calls share
nothing.  Simplified: arrays are rejected. -/
noncomputable def Wedge.ctor (h : Heap) (id : ℕ) : Ctor := fun kw => do
  let attrs ← kw.mapM fun e => match e.2 with
    | .num x => (.ok (e.1, x) : Res (String × ℝ))
    | .arr _ => .error .type
  instanceOf h id attrs

/-- `finner.py:43-117`, `utilities.py:340-342`: the same for `SensitivityStudy(ParametricFinner)`. -/
noncomputable def Finner.ctor (h : Heap) (ids : ℕ → ℕ) : Ctor := fun kw => do
  let attrs ← kw.mapM fun e => match e.2 with
    | .num x => (.ok (e.1, x) : Res (String × ℝ))
    | .arr _ => .error .type
  instanceOf h ids attrs

end HV
