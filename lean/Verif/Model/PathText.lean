import Verif.Model.Vec

/-!
# The texts of vectors, paths and patches

`str(x)` and `repr(x)`.  Numbers are printed by functions that are parameters: `num` is the text of a coordinate of a vector
(`str(round(i, 3))`), `txt` the text of another number.  `"{}".format(x)` and `f"{x}"` use `str(x)`, the text of a list uses `repr` of its elements,
and `str(x)` is `repr(x)` for classes without `__str__`.
-/

namespace HV

/-- `vector.py:43-51` `__str__`; the coordinates of a vector are never `None` (`Vec.init`). -/
def Vec.str (num : ℝ → String) (v : V) : String :=
  let l := [num v.x, num v.y, num v.z]
  toString l.length ++ "-dimensional vector: (" ++ ", ".intercalate l ++ ")"

/-- `vector.py:53-59` `__repr__`. -/
def Vec.repr (num : ℝ → String) (v : V) : String := "Vector(" ++ ", ".intercalate [num v.x, num v.y, num v.z] ++ ")"

/-- The text of a list of vectors in Python. -/
def Vec.reprList (num : ℝ → String) (l : List V) : String := "[" ++ ", ".intercalate (l.map (Vec.repr num)) ++ "]"

/-- The attributes of path objects that are printed, by class (`path.py`, `geometry.py`). -/
inductive PrintedPath
  /-- `path.py:30-37`. -/
  | line (p0 p1 : V)
  /-- `path.py:57-68`. -/
  | bezier (B : List V)
  /-- `path.py:85-100`. -/
  | polyline (segments : List PrintedPath)
  /-- `path.py:145-176`. -/
  | spline (points : List V) (closed : Bool)
  /-- `path.py:210-218`. -/
  | arc (a b c : V)
  /-- `path.py:280-333`. -/
  | arcLength (path : PrintedPath) (n : ℕ)
  /-- `geometry.py:7-21`. -/
  | subRanged (path : PrintedPath) (t0 t1 : ℝ)
  /-- `geometry.py:39-43`. -/
  | reversed (path : PrintedPath)
  /-- `geometry.py:46-63`. -/
  | elipse
  /-- `geometry.py:94-103`. -/
  | offset
  /-- `geometry.py:118-127`. -/
  | mean
  /-- `geometry.py:323-334`. -/
  | trailingEdge
  /-- `geometry.py:905-912`. -/
  | perimeter

namespace PrintedPath

variable (num txt : ℝ → String)

mutual

/-- `__repr__`: `path.py:39-40, 70-71, 111-117, 206-207, 220-221, 335-338`, `geometry.py:23-26` (inherited by `ReversedPath`, where
`t0 = 1` and `t1 = 0`), `65-66, 105-106, 129-130, 336-337, 914-915`. -/
def repr : PrintedPath → String
  | line p0 p1 => "Line(p0=" ++ Vec.str num p0 ++ ", p1=" ++ Vec.str num p1 ++ ")"
  | bezier B => "Bezier(B=" ++ Vec.reprList num B ++ ")"
  | polyline segments => "Polyline(segments=[" ++ strs segments
  | spline points closed => "Spline(points=" ++ Vec.reprList num points ++ ", closed=" ++ (if closed then "True" else "False") ++ ")"
  | arc a b c => "Arc(a=" ++ Vec.str num a ++ ", b=" ++ Vec.str num b ++ ", c=" ++ Vec.str num c ++ ")"
  | arcLength path n => "ArcLengthParameterizedPath(underlying_path=" ++ str path ++ ", n=" ++ toString n ++ ")"
  | subRanged path t0 t1 => "ArcLengthParameterizedPath(underlying_path=" ++ str path ++ ", t0=" ++ txt t0 ++ ", t1=" ++ txt t1 ++ ")"
  | reversed path => "ArcLengthParameterizedPath(underlying_path=" ++ str path ++ ", t0=" ++ txt 1 ++ ", t1=" ++ txt 0 ++ ")"
  | elipse => "ElipsePath"
  | offset => "Offset path function"
  | mean => "Mean path function"
  | trailingEdge => "Trailing Egde Path"
  | perimeter => "Surface Perimeter Path"

/-- `str(path)`: `geometry.py:28-29` for `SubRangedPath` and `ReversedPath`, the text of `__repr__` for the others. -/
def str : PrintedPath → String
  | subRanged _ _ _ => "ArcLengthParameterizedPath"
  | reversed _ => "ArcLengthParameterizedPath"
  | line p0 p1 => repr (line p0 p1)
  | bezier B => repr (bezier B)
  | polyline segments => repr (polyline segments)
  | spline points closed => repr (spline points closed)
  | arc a b c => repr (arc a b c)
  | arcLength path n => repr (arcLength path n)
  | elipse => repr elipse
  | offset => repr offset
  | mean => repr mean
  | trailingEdge => repr trailingEdge
  | perimeter => repr perimeter

/-- `path.py:113-116`: the loop over the segments. -/
def strs : List PrintedPath → String
  | [] => ""
  | [p] => str p ++ "]"
  | p :: q :: l => str p ++ ", " ++ strs (q :: l)

end

end PrintedPath

/-- The attributes of surfaces that are printed, by class (`surface.py`, `geometry.py`).  `plain` stands for the classes with a fixed text. -/
inductive PrintedPatch
  /-- `surface.py:48-67`: given by edges. -/
  | coonsEdges (north east south west : PrintedPath) (offset : String)
  /-- `surface.py:69-79`: given by corners. -/
  | coonsCorners (p00 p10 p11 p01 : V) (offset : String)
  /-- `LeadingEdgePatchFunction`, `MeanLeadingEdgePatchFunction`, `FlatLeadingEdgePatchFunction`, `ConePatch`, `RevolvedPatch`, `BluntConePatch`,
  `SweptPatch`, `SweptPatchfromEdges` (`geometry.py:187-188, 248-249, 309-310, 525-527, 553-554, 597-599, 646-647, 697-698`). -/
  | plain (text : String)
  /-- `geometry.py:347-361, 409-423`. -/
  | trailing (side : String) (flapAngle : ℝ)
  /-- `geometry.py:841-851`. -/
  | sphere (r : ℝ) (centre : V) (face : String)
  /-- `geometry.py:143-152`. -/
  | offset (s : PrintedPatch)
  /-- `geometry.py:473-482`. -/
  | curved (s : PrintedPatch)
  /-- `geometry.py:718-729`. -/
  | rotated (s : PrintedPatch) (angle : ℝ) (axis : String) (point : V)
  /-- `geometry.py:755-762`. -/
  | mirrored (s : PrintedPatch) (axis : String)

namespace PrintedPatch

variable (num txt : ℝ → String)

/-- `__repr__`: `surface.py:90-97`, `geometry.py:154-157, 363-366, 425-426, 484-485, 731-733, 764-765, 853-856`; `deg` is the text of `np.rad2deg(angle)`. -/
def repr (deg : ℝ → String) : PrintedPatch → String
  | coonsEdges n e s w o => "CoonsPatch(" ++ ("north=" ++ n.str num txt ++ ", east=" ++ e.str num txt ++ ", south=" ++ s.str num txt ++
      ", west=" ++ w.str num txt) ++ ", offset=" ++ o ++ ")"
  | coonsCorners p00 p10 _ _ o => "CoonsPatch(" ++ ("p00=" ++ Vec.str num p00 ++ ", p10=" ++ Vec.str num p10 ++ ", p11=" ++ Vec.str num p10 ++
      ", p01=" ++ Vec.str num p10) ++ ", offset=" ++ o ++ ")"
  | plain text => text
  | trailing side angle => "Trailing Edge for '" ++ side ++ "' with flap_angle=" ++ deg angle ++ " deg"
  | sphere r centre face => "Sphere: r = " ++ txt r ++ ", centre = " ++ Vec.str num centre ++ "face = " ++ face
  | offset s => repr deg s ++ " + offset function"
  | curved s => repr deg s ++ " with added curvature"
  | rotated s angle _ _ => repr deg s ++ " (rotated by " ++ deg angle ++ " degrees)"
  | mirrored s axis => repr deg s ++ " mirrored along " ++ axis ++ "-axis"
termination_by s => sizeOf s

end PrintedPatch

end HV
