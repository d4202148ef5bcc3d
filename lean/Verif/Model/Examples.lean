import Verif.Model.Leaf
import Verif.Model.Vehicle

/-!
# The example scripts for single components, and the analysis of a single component
-/

namespace HV

/-- `examples/components/*.py`, the last two lines of each script: `component.generate_patches()` and
`component.to_stl(outfile)`.  The outcome, the file written and the heap at the end. -/
noncomputable def Examples.finish (h : Heap) (id : ℕ) (outfile : String) : Res (Option (String × StlMesh)) × Heap :=
  match generatePatches h id with
  | (.error e, h') => (.error e, h')
  | (.ok _, h') => (((h' id).toStl (some outfile)).1, h'.upd id ((h' id).toStl (some outfile)).2)

/-- `examples/components/cube.py:4-6`, with the size and the resolution as parameters. -/
noncomputable def Examples.cube (h : Heap) (id : ℕ) (a : ℝ) (n : ℕ) : Res (Option (String × StlMesh)) × Heap :=
  finish (h.upd id (Cube a ⟨0, 0, 0⟩ n none)) id "cube.stl"

/-- `examples/components/sphere.py:4-6`, with the radius and the resolution as parameters. -/
noncomputable def Examples.sphere (h : Heap) (id : ℕ) (r : ℝ) (n : ℕ) : Res (Option (String × StlMesh)) × Heap :=
  finish (h.upd id (Sphere r ⟨0, 0, 0⟩ n none)) id "sphere.stl"

/-- `examples/components/revolved.py:5-22`, with the control points, the strength of the clustering and the resolution as
parameters. -/
noncomputable def Examples.revolved (h : Heap) (id : ℕ) (B : List V) (beta : ℝ) (n : ℕ) : Res (Option (String × StlMesh)) × Heap :=
  finish (h.upd id ((RevolvedComponent (Bezier B) n none).addClusteringOptions (some (RobertsFunction.call false true beta)) none)) id "revolve.stl"

/-- Python's check of the names of keyword arguments in a call: an unknown one raises `TypeError` before the body is
entered. -/
def bindKeywords (parameters given : List String) : Res Unit :=
  if ∀ g ∈ given, g ∈ parameters then .ok () else .error .type

/-- `swept.py:11-18`: the parameters of `SweptComponent.__init__`. -/
def Swept.parameters : List String := ["cross_sections", "close_ends", "stl_resolution", "verbosity", "name"]

/-- `examples/components/swept.py:41-47`: the component is made with `cross_sections`, `sweep_axis` and `stl_resolution`.
Simplified: the sections, Coons patches in the script, are given by their edges. -/
noncomputable def Examples.swept (h : Heap) (id : ℕ) (sections : List (List PathObj)) (n : ℕ) : Res (Option (String × StlMesh)) × Heap :=
  match bindKeywords Swept.parameters ["cross_sections", "sweep_axis", "stl_resolution"] with
  | .error e => (.error e, h)
  | .ok _ =>
    match Swept.init sections true (.int n) with
    | .error e => (.error e, h)
    | .ok c => finish (h.upd id c) id "swept.stl"

/-- `component.py:333-341` `analyse`: the mass properties of the mesh (for density one), which are printed, and the new
state. -/
noncomputable def Comp.analyse (lib : Lib) (c : Comp) : Res MassProps × Comp :=
  match c.mesh with
  | (.error e, c') => (.error e, c')
  | (.ok m, c') => (lib.massProps m 1, c')

end HV
