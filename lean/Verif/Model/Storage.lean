import Verif.Model.Component
import Mathlib.Data.Int.Log
import Mathlib.Algebra.Order.Round

/-!
# Storing a mesh in single precision

`utilities.py:97` allocates the mesh with the type `mesh.Mesh.dtype` of numpy-stl, whose vectors are 32 bit floats; the vertices
computed in double precision are rounded on assignment, `utilities.py:115-137`.  STL files have the same format.
-/

namespace HV

/-- Rounding to 24 significant binary digits, as on storing a number in a 32 bit float.  Simplified: numbers beyond the largest
and below the smallest normal float are rounded like all others, and ties are rounded up. -/
noncomputable def f32 (x : ℝ) : ℝ := if x = 0 then 0 else round (x / 2 ^ (Int.log 2 |x| - 23)) * 2 ^ (Int.log 2 |x| - 23)

/-- A vertex after storing. -/
def storeV (ρ : ℝ → ℝ) (v : V) : V := ⟨ρ v.x, ρ v.y, ρ v.z⟩

/-- The arithmetic of `utilities.py:97-137`: double precision taken as exact, storage with the rounding `ρ`. -/
noncomputable def MeshArith.stored (ρ : ℝ → ℝ) : MeshArith ℝ ℝ := { MeshArith.real with store := ρ }

/-- `utilities.py:16-141` `surfce_to_stl` with the rounding of the mesh array. -/
noncomputable def surfceToStlStored (ρ : ℝ → ℝ) (surf : Surf) (ni nj : ℕ) (o : MeshOpts := {}) : Res (TriMesh ℝ) := do
  let r_list ← rList o ni
  let s_list ← sList o ni nj
  meshFromLists (MeshArith.stored ρ) o.mirror_y surf ni nj r_list s_list

namespace Comp

/-- `component.py:281-288`: the worker. -/
noncomputable def wrapperStored (ρ : ℝ → ℝ) (o : MeshOpts) (case : String × Surf × ℕ × ℕ) : Res (String × TriMesh ℝ) := do
  let m ← surfceToStlStored ρ case.2.1 case.2.2.1 case.2.2.2 o
  return (case.1, m)

/-- `component.py:259-306` `surface` and `component.py:185-202` `mesh` of a component without surfaces and mesh: the triangles of
the mesh with the rounding of the mesh array. -/
noncomputable def meshStored (ρ : ℝ → ℝ) (c : Comp) : Res (TriMesh ℝ) :=
  if c.patches.length = 0 then .error .exc
  else do
    let cases ← c.patches.mapM (c.caseOf c.stl_resolution)
    let l ← cases.mapM (wrapperStored ρ c.clustering)
    return ((Dict.setAll [] l).map Prod.snd).flatten

end Comp

end HV
