import Verif.Model.Vec
import Mathlib.Analysis.InnerProductSpace.PiL2
import Mathlib.LinearAlgebra.CrossProduct

/-!
# Reading of vectors as points of Euclidean 3-space

Specifications about vectors are stated through the embedding `toE` into Mathlib's
`EuclideanSpace ℝ (Fin 3)`, whose norm, inner product and cross product are Mathlib's.
-/

namespace HV.Spec

open HV

/-- Mathlib's Euclidean 3-space. -/
abbrev E3 := EuclideanSpace ℝ (Fin 3)

/-- The point of Euclidean space denoted by a vector object. -/
noncomputable def toE (v : V) : E3 := !₂[v.x, v.y, v.z]

/-- Coordinates as a function, for Mathlib's cross product. -/
def toF (v : V) : Fin 3 → ℝ := ![v.x, v.y, v.z]

/-- The distance of two points. -/
noncomputable def vdist (u v : V) : ℝ := dist (toE u) (toE v)

/-- An orthonormal frame. -/
def Orthonormal3 (n t1 t2 : V) : Prop := Orthonormal ℝ ![toE n, toE t1, toE t2]

end HV.Spec
