import Verif.Model.Vehicle

/-!
# Merging STL files on disk
-/

namespace HV
open Veh

/-- The functions of PyMesh used by `merge_stls`. -/
structure PyMesh where
  merge_meshes : List (TriMesh ℝ) → TriMesh ℝ
  resolve_self_intersection : TriMesh ℝ → TriMesh ℝ
  remove_degenerated_triangles : TriMesh ℝ → TriMesh ℝ
  remove_duplicated_faces : TriMesh ℝ → TriMesh ℝ
  remove_isolated_vertices : TriMesh ℝ → TriMesh ℝ
  remove_obtuse_triangles : TriMesh ℝ → TriMesh ℝ

/-- The STL files on disk by name, with the triangles they hold.  The rounding of coordinates to single precision on writing is left out. -/
abbrev StlDisk := String → Option (TriMesh ℝ)

/-- Writing a file. -/
def StlDisk.write (d : StlDisk) (f : String) (m : TriMesh ℝ) : StlDisk := fun g => if g = f then some m else d g

/-- `pymesh.meshio.load_mesh`: raises if there is no such file. -/
def StlDisk.load (d : StlDisk) (f : String) : Res (TriMesh ℝ) :=
  match d f with
  | some m => .ok m
  | none => .error .exc

/-- `utilities.py:853-933` `merge_stls`: the name of the merged file, and the files afterwards; `none` stands for PyMesh not being installed.  Printing is
left out. -/
def mergeStls (pm : Option PyMesh) (d : StlDisk) (files : List String) (name : Option String) : Res String × StlDisk :=
  match pm with
  | none => (.error .exc, d)
  | some pm =>
    match files.mapM d.load with
    | .error x => (.error x, d)
    | .ok ms =>
      let merged := pm.merge_meshes ms
      let merged := pm.resolve_self_intersection merged
      let merged := pm.remove_degenerated_triangles merged
      let merged := pm.remove_duplicated_faces merged
      let merged := pm.remove_isolated_vertices merged
      let merged := pm.remove_obtuse_triangles merged
      let outfile := name.getD "combined_mesh" ++ ".stl"
      (.ok outfile, d.write outfile merged)

/-- The effects of `to_stl` on the STL files, one after the other up to the first that raises.  The directories and the analysis and property files are no
STL files. -/
def runEvents (pm : Option PyMesh) : StlDisk → List FsEv → Res Unit × StlDisk
  | d, [] => (.ok (), d)
  | d, .stl f m :: evs => runEvents pm (d.write f m.tris) evs
  | d, .dir _ :: evs => runEvents pm d evs
  | d, .file _ :: evs => runEvents pm d evs
  | d, .merge files name :: evs =>
    match mergeStls pm d files (some name) with
    | (.error x, d') => (.error x, d')
    | (.ok _, d') => runEvents pm d' evs

/-- `vehicle.py:304-422` `to_stl` with its effects on disk. -/
noncomputable def Veh.toStlOnDisk (pm : Option PyMesh) (d : StlDisk) (st : VState) (pre : Option String) (merge : MergeArg) :
    Res Unit × StlDisk × VState :=
  match toStl st pre merge with
  | (r, ev, st') =>
    match runEvents pm d ev with
    | (.error x, d') => (.error x, d', st')
    | (.ok _, d') => (r, d', st')

/-- `hangar/waverider.py:420-421`: the vehicle of the generator is generated, written and merged. -/
noncomputable def Veh.saveOnDisk (pm : Option PyMesh) (d : StlDisk) (lib : Lib) (depth : ℕ) (pre : Option String) (merge : MergeArg) (st : VState) :
    Res Unit × StlDisk × VState :=
  match generate lib depth st with
  | (.error x, st') => (.error x, d, st')
  | (.ok _, st') => toStlOnDisk pm d st' pre merge

end HV
