import Verif.Model.Surface

/-!
# Structured grids

Modelled: class `StructuredGrid` of `geometry/surface.py`, and what `CoonsPatch.__call__` does when, as there, it is called with
numpy arrays.
-/

namespace HV

/-- A numpy array of floats of shape `(n, m)`; only the entries at `i < n`, `j < m` are there. -/
structure Arr where
  n : ℕ
  m : ℕ
  at_ : ℕ → ℕ → ℝ

namespace Arr

/-- An elementwise operation on one array. -/
def map (f : ℝ → ℝ) (a : Arr) : Arr := ⟨a.n, a.m, fun i j => f (a.at_ i j)⟩

/-- An elementwise operation on two arrays of the same shape. -/
def zip (f : ℝ → ℝ → ℝ) (a b : Arr) : Arr := ⟨a.n, a.m, fun i j => f (a.at_ i j) (b.at_ i j)⟩

/-- The entries of an array. -/
def flat (a : Arr) : List ℝ := (List.range a.n).flatMap fun i => (List.range a.m).map fun j => a.at_ i j

end Arr

/-- `vector.py:11-41`: `Vector3(x=<array>, y=<array>, z=<array>)`; the check of `x` comes before the assignments. -/
def vec3OfArrays (x y z : Arr) : Res (Vec Arr) := do
  let _ ← Vec.init (.array x.flat) none none
  return ⟨x, y, z⟩

/-- `vector.py:103-115`: a vector times an array. -/
def mulArr (v : V) (a : Arr) : Res (Vec Arr) :=
  vec3OfArrays (a.map (v.x * ·)) (a.map (v.y * ·)) (a.map (v.z * ·))

/-- `vector.py:103-115`: a vector of arrays times an array. -/
def mulArrs (v : Vec Arr) (a : Arr) : Res (Vec Arr) :=
  vec3OfArrays (v.x.zip (· * ·) a) (v.y.zip (· * ·) a) (v.z.zip (· * ·) a)

/-- `vector.py:65-76`: the sum of vectors of arrays. -/
def addArrs (v w : Vec Arr) : Res (Vec Arr) :=
  vec3OfArrays (v.x.zip (· + ·) w.x) (v.y.zip (· + ·) w.y) (v.z.zip (· + ·) w.z)

/-- `vector.py:78-89`: the difference of vectors of arrays. -/
def subArrs (v w : Vec Arr) : Res (Vec Arr) :=
  vec3OfArrays (v.x.zip (· - ·) w.x) (v.y.zip (· - ·) w.y) (v.z.zip (· - ·) w.z)

/-- A path called with an array. -/
abbrev ArrPath := Arr → Res (Vec Arr)

/-- `path.py:42-43` `Line.__call__` with an array. -/
def lineArr (p0 p1 : V) : ArrPath := fun t => do
  let a ← mulArr p0 (t.map (1 - ·))
  let b ← mulArr p1 t
  addArrs a b

/-- A surface called with two arrays. -/
abbrev ArrSurf := Arr → Arr → Res (Vec Arr)

/-- `surface.py:99-120` `CoonsPatch.__call__` with arrays: the four edges, and the corners, which are vectors. -/
def coonsArr (south north west east : ArrPath) (p00 p10 p11 p01 offset : V) : ArrSurf := fun r s => do
  let south_r ← south r
  let north_r ← north r
  let west_s ← west s
  let east_s ← east s
  let a1 ← mulArrs south_r (s.map (1 - ·))
  let a2 ← mulArrs north_r s
  let a ← addArrs a1 a2
  let a3 ← mulArrs west_s (r.map (1 - ·))
  let a ← addArrs a a3
  let a4 ← mulArrs east_s r
  let a ← addArrs a a4
  let b0 ← mulArr p00 (r.map (1 - ·))
  let b1 ← mulArrs b0 (s.map (1 - ·))
  let c0 ← mulArr p01 (r.map (1 - ·))
  let c1 ← mulArrs c0 s
  let b ← addArrs b1 c1
  let d0 ← mulArr p10 r
  let d1 ← mulArrs d0 (s.map (1 - ·))
  let b ← addArrs b d1
  let e0 ← mulArr p11 r
  let e1 ← mulArrs e0 s
  let b ← addArrs b e1
  let p ← subArrs a b
  vec3OfArrays (p.x.map (· + offset.x)) (p.y.map (· + offset.y)) (p.z.map (· + offset.z))

/-- An entry of `cf_list`: an instance of a subclass of `ClusterFunction`, given by what it does with an array, or anything
else. -/
inductive CfArg
  | cluster (f : Arr → Res Arr)
  | other

/-- `path.py:477-481` `LinearFunction.__call__`. -/
def CfArg.linear : CfArg := .cluster fun x => .ok x

/-- An elementwise cluster function. -/
def CfArg.elementwise (f : ℝ → ℝ) : CfArg := .cluster fun x => .ok (x.map f)

/-- `surface.py:156-159`: anything but a cluster function is replaced by the linear one. -/
def CfArg.fn : CfArg → Arr → Res Arr
  | .cluster f => f
  | .other => fun x => .ok x

/-- The argument `surface`: an instance of a subclass of `ParametricSurface`, given by what it does with arrays, or anything
else. -/
inductive SurfArg
  | parametric (f : ArrSurf)
  | other

/-- A structured grid. -/
structure StructGrid where
  niv : ℤ
  njv : ℤ
  nkv : ℤ
  dimensions : ℤ
  vertices : Vec Arr
  /-- a tuple of lists, see `StructGrid.init` -/
  tags : List (List String)
  label : String

namespace StructGrid

/-- `surface.py:185-186`: the uniformly distributed sample points along the first and the second index. -/
noncomputable def uniform (n m : ℕ) : Arr × Arr :=
  (⟨n, m, fun i _ => (i : ℝ) / ((n : ℝ) - 1)⟩, ⟨n, m, fun _ j => (j : ℝ) / ((m : ℝ) - 1)⟩)

/-- `surface.py:174-202` `generate`: the vertices. -/
noncomputable def generate (surface : SurfArg) (niv njv : ℤ) (cfs : List CfArg) : Res (Vec Arr) :=
  match surface with
  | .other => .error .exc
  | .parametric f =>
    if niv < 2 then .error .exc
    else if njv < 2 then .error .exc
    else match cfs with
      | cN :: cE :: cS :: cW :: _ => do
        let r := (uniform niv.toNat njv.toNat).1
        let s := (uniform niv.toNat njv.toNat).2
        let rNorth ← cN.fn r
        let sEast ← cE.fn s
        let rSouth ← cS.fn r
        let sWest ← cW.fn s
        let sdash := ((r.map (1 - ·)).zip (· * ·) sWest).zip (· + ·) (r.zip (· * ·) sEast)
        let rdash := ((s.map (1 - ·)).zip (· * ·) rSouth).zip (· + ·) (s.zip (· * ·) rNorth)
        f rdash sdash
      | _ => .error .index

/-- `surface.py:146-164` `__init__`.  The tags are stored as a tuple whose only entry is the list given: the line ends with a
comma. -/
noncomputable def init (surface : SurfArg) (niv njv : ℤ := 1) (cf_list : Option (List CfArg) := none)
    (tags : Option (List String) := none) (label : String := "no label") : Res StructGrid := do
  let cfs := cf_list.getD [.other, .other, .other, .other]
  let v ← generate surface niv njv cfs
  return ⟨niv, njv, 1, 2, v, [tags.getD ["", "", "", ""]], label⟩

/-- `surface.py:204-236` `subgrid`: it begins with `StructuredGrid(empty=True)`, and the constructor has no such argument. -/
def subgrid (_ : StructGrid) (_i0 _j0 _k0 _niv _njv _nkv : ℤ) : Res StructGrid := .error .type

end StructGrid

end HV
