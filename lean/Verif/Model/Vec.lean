import Verif.Model.Py

/-!
# `geometry/vector.py`

Vectors over a scalar type; the model uses `V = Vec ℝ`.
-/

namespace HV

/-- `geometry/vector.py:6-41`: a vector object holds three numbers. -/
@[ext] structure Vec (α : Type) where
  x : α
  y : α
  z : α
  deriving DecidableEq, Repr

/-- Vectors with real coordinates. -/
abbrev V := Vec ℝ

namespace Vec

/-- The kinds of first argument that matter to `Vector3.__init__` (`vector.py:30-41`):
a `Vector3`, a Python/numpy real scalar, or anything else (`None`, arrays, strings, ...). -/
inductive Arg
  | vec (v : V)
  | num (x : ℝ)
  | none
  | array (xs : List ℝ)
  | other

/-- `vector.py:11-41` `Vector3.__init__`.  Simplified: `y` and `z` are numbers or `None`
(the code does not check them). -/
def init (x : Arg) (y z : Option ℝ) : Res V :=
  match x with
  | .vec v => .ok ⟨v.x, v.y, v.z⟩
  | .num a => .ok ⟨a, y.getD 0, z.getD 0⟩
  | _ => .error .value

/-- `vector.py:61-63` `__neg__`. -/
instance : Neg V := ⟨fun v => ⟨-1 * v.x, -1 * v.y, -1 * v.z⟩⟩

/-- `vector.py:65-76` `__add__`. -/
instance : Add V := ⟨fun u v => ⟨u.x + v.x, u.y + v.y, u.z + v.z⟩⟩

/-- `vector.py:78-89` `__sub__`. -/
instance : Sub V := ⟨fun u v => ⟨u.x - v.x, u.y - v.y, u.z - v.z⟩⟩

/-- `vector.py:103-115` `__mul__` and `__rmul__`. -/
def smul (v : V) (a : ℝ) : V := ⟨v.x * a, v.y * a, v.z * a⟩

/-- `v * a` as in Python. -/
instance : HMul V ℝ V := ⟨smul⟩

/-- `vector.py:91-101` `__truediv__`. -/
noncomputable def div (v : V) (a : ℝ) : Res V :=
  if a = 0 then .error .zeroDiv else .ok ⟨v.x / a, v.y / a, v.z / a⟩

/-- `vector.py:146-148` `__abs__`; also `norm` (`vector.py:174-177`, via numpy). -/
noncomputable def abs (v : V) : ℝ := Real.sqrt (v.x ^ 2 + v.y ^ 2 + v.z ^ 2)

/-- `vector.py:235-240` `dot`. -/
def dot (u v : V) : ℝ := u.x * v.x + u.y * v.y + u.z * v.z

/-- `vector.py:169-172` `unit`. -/
noncomputable def unit (v : V) : Res V := v.div v.abs

/-- `vector.py:179-181` `normalize`: the receiver after the call (`__itruediv__`, 136-144). -/
noncomputable def normalize (v : V) : Res V :=
  let mag := v.abs
  if mag = 0 then .error .nan else .ok ⟨v.x / mag, v.y / mag, v.z / mag⟩

/-- `vector.py:121-124` `__eq__`. -/
noncomputable def eq (u v : V) : Bool := decide (u.x = v.x) && decide (u.y = v.y) && decide (u.z = v.z)

/-- `vector.py:126-134` `__imul__` with a number: the receiver after the call. -/
def imul (v : V) (a : ℝ) : V := ⟨v.x * a, v.y * a, v.z * a⟩

/-- `vector.py:259-264` `cross_product`. -/
def cross (v1 v2 : V) : V :=
  ⟨v1.y * v2.z - v2.y * v1.z, v2.x * v1.z - v1.x * v2.z, v1.x * v2.y - v2.x * v1.y⟩

/-- `vector.py:203-217` `transform_to_global_frame`.  Returns (receiver after the call, result);
both are the same object.  Note the second summand of `new_y` (line 208): `self.y * t2.y`. -/
def toGlobal (self n t1 t2 : V) (c : Option V) : V × V :=
  let new_x := self.x * n.x + self.y * t1.x + self.z * t2.x
  let new_y := self.x * n.y + self.y * t1.y + self.y * t2.y
  let new_z := self.x * n.z + self.y * t1.z + self.z * t2.z
  let r : V := match c with
    | none => ⟨new_x, new_y, new_z⟩
    | some c => ⟨new_x + c.x, new_y + c.y, new_z + c.z⟩
  (r, r)

/-- `vector.py:219-233` `transform_to_local_frame`.  Returns (receiver after the call, result).
With an origin `c`, line 224 `self -= c` rebinds the local name to a new object (there is no
`__isub__`), so the caller's object is not modified. -/
def toLocal (self n t1 t2 : V) (c : Option V) : V × V :=
  match c with
  | none =>
    let r : V := ⟨self.dot n, self.dot t1, self.dot t2⟩
    (r, r)
  | some c =>
    let s := self - c
    (self, ⟨s.dot n, s.dot t1, s.dot t2⟩)

/-- `np.isclose(a, b, rtol, atol)` on finite numbers. -/
def isclose (a b rtol atol : ℝ) : Prop := |a - b| ≤ atol + rtol * |b|

/-- `vector.py:243-256` `approximately_equal_vectors`; the defaults are `rel_tol = 1e-2`,
`abs_tol = 1e-5`. -/
def approxEq (v1 v2 : V) (rel_tol : ℝ := 1 / 100) (abs_tol : ℝ := 1 / 100000) : Prop :=
  isclose v1.x v2.x rel_tol abs_tol ∧ isclose v1.y v2.y rel_tol abs_tol ∧
    isclose v1.z v2.z rel_tol abs_tol

/-- `vector.py:162-167` `vec` as a coordinate list. -/
def vec (v : V) : List ℝ := [v.x, v.y, v.z]

/-- `vector.py:183-201` `from_coordinates`: `cls(*coordinates)`.  Simplified to lists of numbers;
more than three coordinates is a `TypeError`, an empty list leaves `x = None`. -/
def fromCoordinates (l : List ℝ) : Res V :=
  match l with
  | [] => init .none none none
  | [x] => init (.num x) none none
  | [x, y] => init (.num x) (some y) none
  | [x, y, z] => init (.num x) (some y) (some z)
  | _ => .error .type

end Vec

end HV
