import Mathlib.Analysis.Real.Sqrt
import Mathlib.Data.List.Nodup

/-!
# Python runtime notions used by the model

Exceptions are values of `PyErr`; a computation that may raise is `Res α = Except PyErr α`.
`dict` is an insertion-ordered association list.
-/

namespace HV

/-- The kinds of exception raised by the modelled code.  `nan` stands for a numpy operation whose
IEEE result is not a finite number (the model never continues from such a value). -/
inductive PyErr
  | zeroDiv | nan | index | key | value | attr | unbound | type | notImpl | runtime | exc
  deriving DecidableEq, Repr

/-- A Python computation returning `α` or raising. -/
abbrev Res (α : Type) := Except PyErr α

/-- Floating point division `a / b`: raises (or yields a non-finite value) when `b = 0`. -/
noncomputable def pdiv (a b : ℝ) : Res ℝ :=
  if b = 0 then .error .zeroDiv else .ok (a / b)

/-- `np.sqrt`: a negative argument yields `nan`. -/
noncomputable def psqrt (a : ℝ) : Res ℝ :=
  if a < 0 then .error .nan else .ok (Real.sqrt a)

/-- Python `dict`: insertion-ordered, later assignment to an existing key keeps its position. -/
abbrev Dict (κ ν : Type) := List (κ × ν)

namespace Dict

variable {κ ν μ : Type} [DecidableEq κ]

/-- `d.get(k)` / `d[k]` with `none` for a missing key. -/
def get? (d : Dict κ ν) (k : κ) : Option ν :=
  match d with
  | [] => none
  | (k', v) :: d => if k' = k then some v else get? d k

/-- `d[k] = v`. -/
def set (d : Dict κ ν) (k : κ) (v : ν) : Dict κ ν :=
  match d with
  | [] => [(k, v)]
  | (k', v') :: d => if k' = k then (k', v) :: d else (k', v') :: set d k v

/-- `d[k]` raising `KeyError`. -/
def get (d : Dict κ ν) (k : κ) : Res ν :=
  match d.get? k with
  | some v => .ok v
  | none => .error .key

/-- `list(d.keys())`. -/
def keys (d : Dict κ ν) : List κ := d.map Prod.fst

/-- `for k, v in d.items(): d[k] = f(k, v)`: only existing keys are assigned, so order and key set
are kept. -/
def mapVals (f : κ → ν → μ) (d : Dict κ ν) : Dict κ μ := d.map fun e => (e.1, f e.1 e.2)

/-- `for k, v in l: d[k] = v`. -/
def setAll (d : Dict κ ν) (l : List (κ × ν)) : Dict κ ν := l.foldl (fun d e => d.set e.1 e.2) d

end Dict

end HV
