import Verif.Spec.Euclid
import Mathlib.Analysis.SpecialFunctions.Trigonometric.Basic

/-!
# Rigid motions, specified with Mathlib's cross product
-/

namespace HV.Spec

open Matrix

/-- The string is a (case-insensitive) name of coordinate axis `i`. -/
def NamesAxis (s : String) (i : Fin 3) : Prop := s = (!["x", "y", "z"] i) ∨ s = (!["X", "Y", "Z"] i)

/-- Rodrigues' formula: rotation of `v` by the angle `θ` about the unit vector `k` (right-hand rule). -/
noncomputable def rodrigues (k v : Fin 3 → ℝ) (θ : ℝ) : Fin 3 → ℝ :=
  Real.cos θ • v + Real.sin θ • (k ⨯₃ v) + ((1 - Real.cos θ) * (k ⬝ᵥ v)) • k

/-- Six times the signed volume of the tetrahedron `a b c d`. -/
def triple (a b c d : V) : ℝ := (toF b - toF a) ⬝ᵥ ((toF c - toF a) ⨯₃ (toF d - toF a))

/-- Negation of coordinate `i`. -/
def negCoord (i : Fin 3) (v : Fin 3 → ℝ) : Fin 3 → ℝ := Function.update v i (-v i)

end HV.Spec
