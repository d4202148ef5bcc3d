import Verif.Model.Component
import Verif.Spec.Mesh
import Verif.Spec.Rigid
import Verif.Spec.Euclid

/-!
# Specifications for components
-/

namespace HV.Spec

/-- `c'` differs from `c` in its patches only; it has the same patch names in the same order; every patch point `p`
becomes a point related to `p` by `R`; where a patch of `c` raises, so does the patch of `c'`. -/
def ActsOnPatches (R : V → V → Prop) (c c' : Comp) : Prop :=
  { c' with patches := c.patches } = c ∧
  List.Forall₂ (fun e e' => e'.1 = e.1 ∧ (∀ r s p, e.2 r s = .ok p → ∃ q, e'.2 r s = .ok q ∧ R p q) ∧
    (∀ r s x, e.2 r s = .error x → e'.2 r s = .error x)) c.patches c'.patches

/-- The documented effect of one curvature on a point: the point is moved to the curve with its height measured along the
unit normal of the curve. -/
def CurvedTo (k : Curvature) (p q : V) : Prop :=
  ∃ (f m : ℝ) (ν : V), k.fn p.x p.y = .ok f ∧ k.fn_dash p.x p.y = .ok m ∧
    toE q = toE ⟨p.x, p.y, f⟩ + p.z • toE ν ∧ ‖toE ν‖ = 1 ∧ 0 < ν.z ∧
    (k.direction = "x" → ν.y = 0 ∧ inner ℝ (toE ν) (toE ⟨1, 0, m⟩) = 0) ∧
    (k.direction = "y" → ν.x = 0 ∧ inner ℝ (toE ν) (toE ⟨0, 1, m⟩) = 0)

/-- The effect of a list of curvatures, first to last. -/
inductive CurvedAll : List Curvature → V → V → Prop
  | nil (p : V) : CurvedAll [] p p
  | cons {k ks p q r} : CurvedTo k p q → CurvedAll ks q r → CurvedAll (k :: ks) p r

/-- `m` consists of the meshes of the listed patches, one after the other, patch `k` with `n k` cells along the first and
`n' k` cells along the second parameter. -/
def MeshOf (o : MeshOpts) (n n' : String → ℕ) (patches : List (String × Surf)) (m : TriMesh ℝ) : Prop :=
  ∃ parts, List.Forall₂ (fun (e : String × Surf) part => surfceToStl e.2 (n e.1) (n' e.1) o = .ok part) patches parts ∧
    m = parts.flatten

end HV.Spec
