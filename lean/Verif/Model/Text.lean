import Verif.Model.Calls

/-!
# The texts of vehicles, components and patches

`str(x)` and `repr(x)` of the objects a user prints.
-/

namespace HV

/-- `component.py:147-152` `__repr__`. -/
def Comp.repr (c : Comp) : String :=
  c.componenttype ++ " component" ++ if Veh.truthy c.name then " (tagged '" ++ c.name.getD "" ++ "')" else ""

/-- `component.py:154-158` `__str__`. -/
def Comp.str (c : Comp) : String :=
  if Veh.truthy c.name then c.name.getD "" else c.componenttype ++ " component"

/-- `common.py:116-120` `OgiveNose.__repr__`. -/
def OgiveNose.repr (c : Comp) : String :=
  "Ogive nose component" ++ if Veh.truthy c.name then " (tagged '" ++ c.name.getD "" ++ "')" else ""

namespace Veh

/-- `vehicle.py:60-64` `__str__`. -/
def str (v : Veh) : String :=
  "Parameterised " ++ v.name ++ if v.components.length > 0 then " with " ++ toString v.components.length ++ " components" else ""

/-- `vehicle.py:50-58` `__repr__`. -/
def repr (v : Veh) : String :=
  let comps := if v.components.length > 0 then ", ".intercalate (v.counts.map fun e => toString e.2 ++ " " ++ e.1) else "no components"
  v.str ++ " (" ++ comps ++ ")"

end Veh

/-- `surface.py:90-97` `CoonsPatch.__repr__` of a patch given by its corners.  `vec` is the text of a vector (`vector.py:43-51`) and `offset` that of
the `offset` argument. -/
def CoonsPatch.reprCorners (vec : V → String) (p00 p10 _p11 _p01 : V) (offset : String) : String :=
  "CoonsPatch(" ++ ("p00=" ++ vec p00 ++ ", p10=" ++ vec p10 ++ ", p11=" ++ vec p10 ++ ", p01=" ++ vec p10) ++ ", offset=" ++ offset ++ ")"

/-- `geometry.py:790-800` `CubePatch.__repr__`: the attributes of the object are `a`, `centre` and `face`, here with their texts; `self.r` is read. -/
def CubePatch.repr (a centre face : String) : Res String := do
  let attrs : Dict String String := [("a", a), ("face", face), ("centre", centre)]
  match attrs.get? "r" with
  | none => .error .attr
  | some r => .ok ("Cube: a = " ++ r ++ ", centre = " ++ centre ++ "face = " ++ face)

end HV
