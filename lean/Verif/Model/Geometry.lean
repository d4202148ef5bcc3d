import Verif.Model.Surface

/-!
# `geometry/geometry.py`
-/

namespace HV

/-- A user supplied offset or thickness function of a position.  Simplified: calls without `z`
(`geometry.py:113,197,343`) use the default `z = 0`, as all such functions in the package do. -/
abbrev OffFn := ℝ → ℝ → ℝ → Res V

/-! ## Paths -/

/-- `geometry.py:7-36` `SubRangedPath`; `length` is that of the whole underlying path (line 36). -/
def SubRangedPath (p : PathObj) (t0 t1 : ℝ) : PathObj where
  call t := p.call (t0 + t * (t1 - t0))
  length := p.length

/-- `geometry.py:39-43` `ReversedPath`. -/
def ReversedPath (p : PathObj) : PathObj := SubRangedPath p 1 0

/-- `geometry.py:68-91` `ElipsePath.__call__`.  `np.tan` is an arbitrary function `ptan` (the
floating point `tan(pi/2)` is a large number while Mathlib's is `0`). -/
noncomputable def elipseAt (ptan : ℝ → ℝ) (centre : V) (thickness LE_width : ℝ) (side : String)
    (r : ℝ) : Res V := do
  let a := LE_width
  let b := |thickness|
  let theta ←
    if side = "bot" then pure (0 + r * Real.pi / 2)
    else if side = "top" then pure (-Real.pi / 2 + r * Real.pi / 2)
    else throw .exc
  let x_elipse ← pdiv (a * b) (Real.sqrt (b * b + (a * ptan theta) ^ 2))
  let y_elipse := x_elipse * ptan theta
  let angle := Real.pi / 2
  let x := x_elipse * Real.cos angle
  let y := x_elipse * Real.sin angle
  let z := y_elipse
  return centre + (⟨x, y, z⟩ : V)

/-- `geometry.py:46-91` `ElipsePath`. -/
noncomputable def ElipsePath (ptan : ℝ → ℝ) (centre : V) (thickness LE_width : ℝ) (side : String) :
    PathObj where
  call := elipseAt ptan centre thickness LE_width side
  length := Path.length (elipseAt ptan centre thickness LE_width side)

/-- `geometry.py:108-115` `OffsetPathFunction.__call__`. -/
def offsetPathAt (p : PathObj) (f : OffFn) (t : ℝ) : Res V := do
  let pos ← p.call t
  let offset ← f pos.x pos.y 0
  return pos + offset

/-- `geometry.py:94-115` `OffsetPathFunction`. -/
noncomputable def OffsetPathFunction (p : PathObj) (f : OffFn) : PathObj where
  call := offsetPathAt p f
  length := Path.length (offsetPathAt p f)

/-- `geometry.py:132-140` `GeometricMeanPathFunction.__call__`. -/
noncomputable def meanPathAt (p q : PathObj) (t : ℝ) : Res V := do
  let pos_1 ← p.call t
  let pos_2 ← q.call t
  return (pos_1 + pos_2) * (0.5 : ℝ)

/-- `geometry.py:118-140` `GeometricMeanPathFunction`. -/
noncomputable def GeometricMeanPathFunction (p q : PathObj) : PathObj where
  call := meanPathAt p q
  length := Path.length (meanPathAt p q)

/-- `geometry.py:323-344` `TrailingEdgePath`. -/
noncomputable def TrailingEdgePath (A0 B0 : V) (f : OffFn) : PathObj where
  call := offsetPathAt (Line A0 B0) f
  length := Path.length (offsetPathAt (Line A0 B0) f)

/-- `geometry.py:917-939` `SurfacePerimeter.__call__`; `rnd` is Python's `round(_, 8)`,
`t % 0.25` is exact. -/
noncomputable def perimeterAt (rnd : ℝ → ℝ) (surf : Surf) (t : ℝ) : Res V :=
  let f : ℝ := 0.25
  let rem := f * Int.fract (t / f)
  if t < 0.25 then surf (rnd (rem / f)) 0
  else if t < 0.5 then surf 1 (rnd (rem / f))
  else if t < 0.75 then surf (rnd (1 - rem / f)) 1
  else if t < 1 then surf 0 (rnd (1 - rem / f))
  else surf 0 0

/-- `geometry.py:905-939` `SurfacePerimeter`. -/
noncomputable def SurfacePerimeter (rnd : ℝ → ℝ) (surf : Surf) : PathObj where
  call := perimeterAt rnd surf
  length := Path.length (perimeterAt rnd surf)

/-! ## Patches -/

/-- `geometry.py:143-162` `OffsetPatchFunction`; the underlying surface is evaluated twice. -/
def OffsetPatchFunction (surf : Surf) (f : OffFn) : Surf := fun r s => do
  let pos ← surf r s
  let offset ← f pos.x pos.y pos.z
  let pos' ← surf r s
  return pos' + offset

/-- `geometry.py:214-223` and `273-282`: the local angle of the leading edge ellipse. -/
noncomputable def leAngle (line : PathObj) (t : ℝ) : Res ℝ :=
  if t = 0 then .ok (Real.pi / 2)
  else if t = 1 then .ok 0
  else do
    let dt := min (min 0.001 |1 - t|) |t - 0|
    let plus ← line.call (t + dt)
    let minus ← line.call (t - dt)
    return Arc.arctan2 (plus.y - minus.y) (plus.x - minus.x) + Real.pi / 2

/-- `geometry.py:165-232` `LeadingEdgePatchFunction.__call__(t_raw, r)`. -/
noncomputable def LeadingEdgePatchFunction (ptan : ℝ → ℝ) (centralLine : PathObj)
    (thickness_function : OffFn) (LE_width_function : ℝ → Res ℝ) (t0 t1 : ℝ) (side : String) : Surf :=
  fun t_raw r => do
    let t := t1 - t_raw * (t1 - t0)
    let pos ← centralLine.call t
    let th ← thickness_function pos.x pos.y 0
    let LE_width ← LE_width_function t
    let elipse_norm ← ArcLengthParameterizedPath (ElipsePath ptan ⟨0, 0, 0⟩ th.z LE_width side)
    let pos_elipse ← elipse_norm.call r
    let x_elipse := pos_elipse.y
    let z_elipse := pos_elipse.z
    let angle ← leAngle centralLine t
    let elipse_base ← centralLine.call t
    return elipse_base + (⟨x_elipse * Real.cos angle, x_elipse * Real.sin angle, z_elipse⟩ : V)

/-- `geometry.py:235-289` `MeanLeadingEdgePatchFunction.__call__(t_raw, r)`. -/
noncomputable def MeanLeadingEdgePatchFunction (ptan : ℝ → ℝ) (mean_line guide_line : PathObj)
    (LE_width_function : ℝ → Res ℝ) (t0 t1 : ℝ) (side : String) : Surf :=
  fun t_raw r => do
    let t := t1 - t_raw * (t1 - t0)
    let mean_point ← mean_line.call t
    let guide_point ← guide_line.call t
    let thickness := mean_point.z - guide_point.z
    let LE_width ← LE_width_function t
    let elipse_norm ← ArcLengthParameterizedPath (ElipsePath ptan ⟨0, 0, 0⟩ thickness LE_width side)
    let pos_elipse ← elipse_norm.call r
    let x_elipse := pos_elipse.y
    let z_elipse := pos_elipse.z
    let angle ← leAngle mean_line t
    return mean_point + (⟨x_elipse * Real.cos angle, x_elipse * Real.sin angle, z_elipse⟩ : V)

/-- `geometry.py:292-320` `FlatLeadingEdgePatchFunction.__call__(t_raw, r)`. -/
def FlatLeadingEdgePatchFunction (path1 path2 : PathObj) (t0 t1 : ℝ) : Surf := fun t_raw r => do
  let t := t1 - t_raw * (t1 - t0)
  let point1 ← path1.call t
  let point2 ← path2.call t
  return ⟨point1.x, point1.y, (1 - r) * point1.z + r * point2.z⟩

/-- `geometry.py:371-406` `TrailingEdgePatch.preparation` (the constructor calls it). -/
noncomputable def TrailingEdgePatch (A0 B0 : V) (TE_path : PathObj) (flap_length flap_angle : ℝ)
    (side : String) : Res Surf := do
  let tip := Line ⟨A0.x - flap_length, A0.y, 0 + flap_length * Real.sin flap_angle⟩
    ⟨B0.x - flap_length, B0.y, 0 + flap_length * Real.sin flap_angle⟩
  let (south, north) ←
    if side = "top" then pure (tip, TE_path)
    else if side = "bot" then pure (TE_path, tip)
    else throw .exc
  let s0 ← south.call 0
  let n0 ← north.call 0
  let s1 ← south.call 1
  let n1 ← north.call 1
  CoonsPatch north (Line s1 n1) south (Line s0 n0)

/-- `geometry.py:431-470` `MeanTrailingEdgePatch.preparation`. -/
noncomputable def MeanTrailingEdgePatch (mean_line TE_path : PathObj) (flap_length flap_angle : ℝ)
    (side : String) : Res Surf := do
  let (south, north) ←
    if side = "top" ∨ side = "bot" then do
      let m0 ← mean_line.call 0
      let m1 ← mean_line.call 1
      let tip := Line
        ⟨m0.x - flap_length * Real.cos flap_angle, m0.y, m0.z + flap_length * Real.sin flap_angle⟩
        ⟨m1.x - flap_length * Real.cos flap_angle, m1.y, m1.z + flap_length * Real.sin flap_angle⟩
      if side = "top" then pure (tip, TE_path) else pure (TE_path, tip)
    else throw .exc
  let s0 ← south.call 0
  let n0 ← north.call 0
  let s1 ← south.call 1
  let n1 ← north.call 1
  CoonsPatch north (Line s1 n1) south (Line s0 n0)

/-- `geometry.py:473-507` `CurvedPatch`.  For a direction other than `"x"`/`"y"` the Python call
returns `None`, any use of which raises; modelled as an error. -/
noncomputable def CurvedPatch (surf : Surf) (direction : Option String)
    (fn fn_dash : Option (ℝ → ℝ → Res ℝ)) : Surf := fun r s =>
  match fn, fn_dash with
  | some fn, some fn_dash => do
    let pos ← surf r s
    let offset ← fn pos.x pos.y
    let slope ← fn_dash pos.x pos.y
    let angle := Arc.arctan2 slope 1
    if direction = some "x" then
      return ⟨pos.x - pos.z * Real.sin angle, pos.y, pos.z * Real.cos angle + offset⟩
    else if direction = some "y" then
      return ⟨pos.x, pos.y - pos.z * Real.sin angle, offset + pos.z * Real.cos angle⟩
    else throw .type
  | _, _ => .error .exc

/-- `geometry.py:510-540` `ConePatch`. -/
noncomputable def ConePatch (x0 x1 r0 r1 angle0 angle1 : ℝ) : Surf := fun r s =>
  let angle := angle0 * (1 - s) + angle1 * s
  let y0 := r0 * Real.cos angle
  let z0 := r0 * Real.sin angle
  let y1 := r1 * Real.cos angle
  let z1 := r1 * Real.sin angle
  .ok ⟨x0 * (1 - r) + x1 * r, y0 * (1 - r) + y1 * r, z0 * (1 - r) + z1 * r⟩

/-- `geometry.py:543-568` `RevolvedPatch`. -/
noncomputable def RevolvedPatch (line : PathObj) (angle0 angle1 : ℝ) : Surf := fun r s => do
  let angle := angle0 * (1 - s) + angle1 * s
  let point ← line.call r
  return ⟨point.x, point.y * Real.cos angle + point.z * Real.sin angle,
    point.z * Real.cos angle - point.y * Real.sin angle⟩

/-- The attributes of a `BluntConePatch` object, `geometry.py:588-595`. -/
structure BluntCone where
  L : ℝ
  x0 : ℝ
  y0 : ℝ
  rn : ℝ
  rb : ℝ
  angle0 : ℝ
  angle1 : ℝ

/-- Attribute access by name on a `BluntConePatch` object; other names raise `AttributeError`. -/
def BluntCone.getattr (b : BluntCone) (name : String) : Res ℝ :=
  if name = "L" then .ok b.L else if name = "x0" then .ok b.x0 else if name = "y0" then .ok b.y0
  else if name = "rn" then .ok b.rn else if name = "rb" then .ok b.rb
  else if name = "angle0" then .ok b.angle0 else if name = "angle1" then .ok b.angle1
  else .error .attr

/-- `geometry.py:601-612` `BluntConePatch.__call__`; it reads `self.r0`, `self.x1`, `self.r1`. -/
noncomputable def BluntConePatch (b : BluntCone) : Surf := fun r s => do
  let a0 ← b.getattr "angle0"
  let a1 ← b.getattr "angle1"
  let angle := a0 * (1 - s) + a1 * s
  let x0 ← b.getattr "x0"
  let r0 ← b.getattr "r0"
  let y0 := r0 * Real.cos angle
  let z0 := r0 * Real.sin angle
  let x1 ← b.getattr "x1"
  let r1 ← b.getattr "r1"
  let y1 := r1 * Real.cos angle
  let z1 := r1 * Real.sin angle
  return ⟨x0 * (1 - r) + x1 * r, y0 * (1 - r) + y1 * r, z0 * (1 - r) + z1 * r⟩

/-- A coordinate axis. -/
inductive Ax | x | y | z
  deriving DecidableEq, Repr

/-- `getattr(v, axis)`. -/
def Vec.coord (v : V) : Ax → ℝ
  | .x => v.x
  | .y => v.y
  | .z => v.z

/-- The state of a `SweptPatch` object, `geometry.py:632-644`. -/
structure SweptPatch where
  origins : List ℝ
  perimeters : List PathObj
  axis : Ax
  min_origin : ℝ
  origin_dist : ℝ

namespace SweptPatch

/-- Python `min(list)`. -/
noncomputable def listMin : List ℝ → Res ℝ
  | [] => .error .value
  | a :: l => .ok (l.foldl min a)

/-- Python `max(list)`. -/
noncomputable def listMax : List ℝ → Res ℝ
  | [] => .error .value
  | a :: l => .ok (l.foldl max a)

/-- `geometry.py:620-644` `SweptPatch.__init__`. Simplified: the sweep axis is a valid one. -/
noncomputable def init (rnd : ℝ → ℝ) (cross_sections : List Surf) (axis : Ax) : Res SweptPatch := do
  let pts ← cross_sections.mapM fun cs => cs 0 0
  let origins := pts.map fun p => p.coord axis
  let mn ← listMin origins
  let mx ← listMax origins
  if mn = mx then throw .exc
  return ⟨origins, cross_sections.map (SurfacePerimeter rnd), axis, mn, mx - mn⟩

/-- `geometry.py:654-659`: the search loop from index `i` on; returns the final value of `i`. -/
noncomputable def search (origins : List ℝ) (dist : ℝ) : ℕ → List ℝ → Res ℕ
  | i, [] => .ok (i - 1)
  | i, lv :: rest =>
    if dist = origins.getLastD 0 then .ok (origins.length - 2)
    else if lv ≤ dist then
      match origins[i + 1]? with
      | none => .error .index
      | some up => if dist < up then .ok i else search origins dist (i + 1) rest
    else search origins dist (i + 1) rest

/-- Python list indexing with a non-negative index. -/
def getIdx {α : Type} (l : List α) (i : ℕ) : Res α :=
  match l[i]? with
  | some a => .ok a
  | none => .error .index

/-- `geometry.py:649-677` `SweptPatch.__call__`. -/
noncomputable def call (p : SweptPatch) : Surf := fun r s => do
  let dist := p.min_origin + r * p.origin_dist
  let i ← search p.origins dist 0 p.origins
  let lp ← getIdx p.perimeters i
  let lps ← lp.call s
  let up ← getIdx p.perimeters (i + 1)
  let ups ← up.call s
  let ls ← getIdx p.origins i
  let us ← getIdx p.origins (i + 1)
  let f (a : Ax) : Res ℝ :=
    if a = p.axis then .ok dist
    else do
      let q ← pdiv ((dist - ls) * (ups.coord a - lps.coord a)) (us - ls)
      return lps.coord a + q
  let x ← f .x
  let y ← f .y
  let z ← f .z
  return ⟨x, y, z⟩

end SweptPatch

/-- `geometry.py:700-715` `SweptPatchfromEdges.__call__`.  `index_below = index_above - 1` is `-1`,
i.e. the last element, when `index_above = 0`. -/
noncomputable def SweptPatchfromEdges (edges : List PathObj) : Surf := fun r s =>
  let r_slices := linspace01 edges.length
  match r_slices.findIdx? (fun q => decide (q = r)) with
  | some i => do
    let e ← SweptPatch.getIdx edges i
    e.call s
  | none =>
    match r_slices.findIdx? (fun q => decide (q > r)) with
    | none => .error .index
    | some index_above => do
      let index_below := if index_above = 0 then edges.length - 1 else index_above - 1
      let ea ← SweptPatch.getIdx edges index_above
      let above ← ea.call s
      let eb ← SweptPatch.getIdx edges index_below
      let below ← eb.call s
      let ra ← SweptPatch.getIdx r_slices index_above
      let rb ← SweptPatch.getIdx r_slices index_below
      let alpha ← pdiv (r - rb) (ra - rb)
      return below * (1 - alpha) + above * alpha

/-- `geometry.py:738-750`: rotation of a position about a coordinate axis. -/
noncomputable def rotAbout (a : Ax) (angle : ℝ) (pos : V) : V :=
  match a with
  | .x => ⟨pos.x, pos.y * Real.cos angle - pos.z * Real.sin angle,
      pos.y * Real.sin angle + pos.z * Real.cos angle⟩
  | .y => ⟨pos.x * Real.cos angle + pos.z * Real.sin angle, pos.y,
      -pos.x * Real.sin angle + pos.z * Real.cos angle⟩
  | .z => ⟨pos.x * Real.cos angle - pos.y * Real.sin angle,
      pos.x * Real.sin angle + pos.y * Real.cos angle, pos.z⟩

/-- `axis.lower()` compared with `"x"`, `"y"`, `"z"` (`geometry.py:728,738-747,762,772-780`). -/
def axisOf (axis : String) : Option Ax :=
  if axis.toLower = "x" then some .x
  else if axis.toLower = "y" then some .y
  else if axis.toLower = "z" then some .z
  else none

/-- `geometry.py:718-752` `RotatedPatch`; an unknown axis leaves `x`, `y`, `z` unbound. -/
noncomputable def RotatedPatch (surf : Surf) (angle : ℝ) (axis : String := "x")
    (point : V := ⟨0, 0, 0⟩) : Surf := fun r s => do
  let p ← surf r s
  let pos := p - point
  match axisOf axis with
  | some a => return rotAbout a angle pos + point
  | none => throw .unbound

/-- `geometry.py:769-780`: negation of one coordinate, nothing for an unknown axis. -/
def mirrorAlong (a : Option Ax) (pos : V) : V :=
  match a with
  | some .x => ⟨pos.x * (-1), pos.y, pos.z⟩
  | some .y => ⟨pos.x, pos.y * (-1), pos.z⟩
  | some .z => ⟨pos.x, pos.y, pos.z * (-1)⟩
  | none => pos

/-- `geometry.py:755-782` `MirroredPatch`. -/
def MirroredPatch (surf : Surf) (axis : String := "x") : Surf := fun r s => do
  let pos ← surf r s
  return mirrorAlong (axisOf axis) pos

/-- `geometry.py:803-832` and `863-892`: the point of the named face of the cube `[-1,1]^3`. -/
def cubeFace (face : String) (r s : ℝ) : Res V :=
  if face = "east" then .ok ⟨1, -1 + 2 * r, -1 + 2 * s⟩
  else if face = "west" then .ok ⟨-1, -1 + 2 * r, -1 + 2 * s⟩
  else if face = "south" then .ok ⟨-1 + 2 * r, -1, -1 + 2 * s⟩
  else if face = "north" then .ok ⟨-1 + 2 * r, 1, -1 + 2 * s⟩
  else if face = "bottom" then .ok ⟨-1 + 2 * r, -1 + 2 * s, -1⟩
  else if face = "top" then .ok ⟨-1 + 2 * r, -1 + 2 * s, 1⟩
  else .error .value

/-- `geometry.py:785-838` `CubePatch`. -/
def CubePatch (a : ℝ) (centre : V) (face : String) : Surf := fun r s => do
  let p ← cubeFace face r s
  return ⟨p.x * a + centre.x, p.y * a + centre.y, p.z * a + centre.z⟩

/-- `geometry.py:841-902` `SpherePatch`. -/
noncomputable def SpherePatch (rad : ℝ) (centre : V) (face : String) : Surf := fun r s => do
  let p ← cubeFace face r s
  let x := p.x
  let y := p.y
  let z := p.z
  let sx ← psqrt (1 - 0.5 * z * z - 0.5 * y * y + y * y * z * z / 3)
  let sy ← psqrt (1 - 0.5 * z * z - 0.5 * x * x + x * x * z * z / 3)
  let sz ← psqrt (1 - 0.5 * y * y - 0.5 * x * x + x * x * y * y / 3)
  let x_dash := x * sx
  let y_dash := y * sy
  let z_dash := z * sz
  return ⟨x_dash * rad + centre.x, y_dash * rad + centre.y, z_dash * rad + centre.z⟩

end HV
