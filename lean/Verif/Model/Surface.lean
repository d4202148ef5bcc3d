import Verif.Model.Path

/-!
# `geometry/surface.py`
-/

namespace HV

/-- A parametric surface: its `__call__(r, s)`.  `surface.py:9-18`. -/
abbrev Surf := ℝ → ℝ → Res V

/-- `surface.py:24-35`: the state of a `CoonsPatch` object.  The edge objects are deep copies
(lines 51-54), i.e. values. -/
structure Coons where
  north : PathObj
  east : PathObj
  south : PathObj
  west : PathObj
  p00 : V
  p10 : V
  p11 : V
  p01 : V
  defined_by_corners : Bool
  offset : V

namespace Coons

open Classical in
/-- `surface.py:50-71`: construction from four edges, with the corner checks of lines 63-70. -/
noncomputable def ofEdges (north east south west : PathObj) (offset : V := ⟨0, 0, 0⟩) : Res Coons := do
  let p00 ← south.call 0
  let p10 ← south.call 1
  let p01 ← north.call 0
  let p11 ← north.call 1
  let p00_alt ← west.call 0
  let p10_alt ← east.call 0
  let p01_alt ← west.call 1
  let p11_alt ← east.call 1
  if ¬ p00.approxEq p00_alt then throw .exc
  if ¬ p10.approxEq p10_alt then throw .exc
  if ¬ p01.approxEq p01_alt then throw .exc
  if ¬ p11.approxEq p11_alt then throw .exc
  return ⟨north, east, south, west, p00, p10, p11, p01, false, offset⟩

/-- `surface.py:73-82`: construction from four corners. -/
noncomputable def ofCorners (p00 p10 p11 p01 : V) (offset : V := ⟨0, 0, 0⟩) : Coons :=
  ⟨Line p01 p11, Line p10 p11, Line p00 p10, Line p00 p01, p00, p10, p11, p01, true, offset⟩

/-- `surface.py:37-88` `CoonsPatch.__init__` with optional arguments; path and vector objects are
truthy. -/
noncomputable def init (north east south west : Option PathObj) (p00 p10 p11 p01 : Option V)
    (offset : V := ⟨0, 0, 0⟩) : Res Coons :=
  match north, east, south, west with
  | some n, some e, some s, some w => ofEdges n e s w offset
  | _, _, _, _ =>
    match p00, p10, p11, p01 with
    | some a, some b, some c, some d => .ok (ofCorners a b c d offset)
    | _, _, _, _ => .error .exc

/-- `surface.py:107-119`: the transfinite interpolation formula. -/
def blend (south_r north_r west_s east_s p00 p10 p11 p01 offset : V) (r s : ℝ) : V :=
  south_r * (1 - s) + north_r * s + west_s * (1 - r) + east_s * r
    - (p00 * (1 - r) * (1 - s) + p01 * (1 - r) * s + p10 * r * (1 - s) + p11 * r * s)
    + offset

/-- `surface.py:99-120` `CoonsPatch.__call__`. -/
def call (c : Coons) : Surf := fun r s => do
  let south_r ← c.south.call r
  let north_r ← c.north.call r
  let west_s ← c.west.call s
  let east_s ← c.east.call s
  return blend south_r north_r west_s east_s c.p00 c.p10 c.p11 c.p01 c.offset r s

/-- `surface.py:122-130` `__add__`: a deep copy with a changed offset. -/
def add (c : Coons) (offset : V) : Coons := { c with offset := c.offset + offset }

/-- `surface.py:132-140` `__sub__`. -/
def sub (c : Coons) (offset : V) : Coons := { c with offset := c.offset - offset }

end Coons

/-- `CoonsPatch(north=, east=, south=, west=)` used as a surface. -/
noncomputable def CoonsPatch (north east south west : PathObj) : Res Surf := do
  let c ← Coons.ofEdges north east south west
  return c.call

end HV
