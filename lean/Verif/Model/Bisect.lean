import Verif.Model.Py
import Mathlib.Algebra.Order.Round

/-!
# `scipy.optimize.bisect` and the rounding around it

The library function is not part of `/repo`; this is the published algorithm of scipy (`scipy/optimize/Zeros/bisect.c`) with its
default tolerances, on exact reals (the sign of a negative zero is not distinguished).
-/

namespace HV

/-- The loop of `scipy.optimize.bisect`: `xtol = 2e-12`, `rtol = 4 * eps`; the sign of `f` is compared with its sign at the left end.
Running out of iterations raises `RuntimeError`. -/
noncomputable def bisectLoop (f : ℝ → Res ℝ) (fa : ℝ) : ℕ → ℝ → ℝ → Res ℝ
  | 0, _, _ => .error .runtime
  | k + 1, xa, d => do
    let dm := d * 0.5
    let xm := xa + dm
    let fm ← f xm
    if fm = 0 ∨ |dm| < 2e-12 + 4 * 2 ^ (-52 : ℤ) * |xm| then return xm
    else bisectLoop f fa k (if (fm < 0 ↔ fa < 0) then xm else xa) dm

/-- `scipy.optimize.bisect(f, a, b)`: an end that is a root is returned, ends of the same sign raise `ValueError`. -/
noncomputable def scipyBisect (f : ℝ → Res ℝ) (a b : ℝ) : Res ℝ := do
  let fa ← f a
  let fb ← f b
  if fa = 0 then return a
  if fb = 0 then return b
  if (fa < 0 ↔ fb < 0) then throw .value
  bisectLoop f fa 100 a (b - a)

/-- `round(x, 6)`.  Simplified: a tie is rounded up, Python rounds it to even. -/
noncomputable def round6 (x : ℝ) : ℝ := (round (x * 10 ^ 6) : ℝ) / 10 ^ 6

/-- `wing.py:159` and `fin.py:205`: `round(bisect(f, 0.0, 1.0), 6)`. -/
noncomputable def roundedBisect (f : ℝ → Res ℝ) : Res ℝ := do
  return round6 (← scipyBisect f 0 1)

end HV
