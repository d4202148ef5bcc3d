import Verif.Model.Mesh

/-!
# `components/component.py`, `components/composite.py`

A component is a record of its instance attributes.  Methods that may raise part-way return the outcome together with the
state the component is left in.  Composite components refer to their children by object identity, so they are handled on a
heap of components.
-/

namespace HV

/-- `stl_resolution`: an integer or a dictionary of integers. -/
inductive Reso
  | int (n : ℕ)
  | dict (d : Dict String ℕ)

/-- An element of `curvatures`: direction, function, derivative. -/
structure Curvature where
  direction : String
  fn : ℝ → ℝ → Res ℝ
  fn_dash : ℝ → ℝ → Res ℝ

/-- The argument of `Component.translate`. -/
inductive Offset
  | vector (v : V)
  | callable (f : OffFn)

/-- A transformation tuple `(name, *args)`; `getattr` finds a method for the names listed, `unknown` is any other name.
Calls with wrong argument lists are not modelled. -/
inductive Transf
  | rotate (angle : ℝ) (axis : String)
  | translate (offset : Offset)
  | reflect (axis : Option String)
  | curve
  | applyModifier
  | unknown (name : String)

/-- What a leaf component's `generate_patches` assigns, in order, and the exception it ends with, if any. -/
structure GenOut where
  items : List (String × Surf)
  resR : List (String × ℕ) := []
  resS : List (String × ℕ) := []
  err : Option PyErr := none

/-- How `generate_patches` treats the patch dictionary.  `into`: assigns into the existing dictionary (Wing, Swept, Revolved,
Cube, Sphere).  `replace`: builds a new dictionary and assigns it at the end (Fin).  `composite`: merges the children.
The argument of `out` is the current `stl_resolution` (used by Swept). -/
inductive GenKind
  | into (out : Reso → GenOut)
  | replace (out : Reso → GenOut)
  | composite (children : List ℕ)

/-- `component.py:86-149`: instance attributes.  Not modelled: `params`, `edges`, `grids`.  The `_clustering` dictionary is
represented by the keyword arguments it stands for. -/
structure Comp where
  componenttype : String
  gen : GenKind
  patches : Dict String Surf := []
  patch_res_r : Dict String ℕ := []
  patch_res_s : Dict String ℕ := []
  surfaces : Option (Dict String (TriMesh ℝ)) := none
  stl_resolution : Reso := .int 2
  mesh_ : Option StlMesh := none
  curvatures : Option (List Curvature) := none
  clustering : MeshOpts := {}
  transformations : List Transf := []
  modifier : Option OffFn := none
  reflection_axis : Option String := none
  append_reflection : Bool := true
  ghost : Bool := false
  name : Option String := none
  verbosity : ℤ := 1
  multiprocess : Bool := true

namespace Comp

/-- `component.py:174-183` `curve`. -/
noncomputable def curve (c : Comp) : Comp :=
  match c.curvatures with
  | none => c
  | some l => { c with patches := l.foldl (fun d k =>
      d.mapVals fun _ p => CurvedPatch p (some k.direction) (some k.fn) (some k.fn_dash)) c.patches }

/-- `component.py:208-210` `rotate`. -/
noncomputable def rotate (c : Comp) (angle : ℝ) (axis : String) : Comp :=
  { c with patches := c.patches.mapVals fun _ p => RotatedPatch p (angle * (Real.pi / 180)) axis }

/-- `component.py:213-217`: the offset function of `translate`. -/
def offsetFn : Offset → OffFn
  | .vector v => fun _ _ _ => .ok v
  | .callable f => f

/-- `component.py:212-221` `translate`. -/
def translate (c : Comp) (o : Offset) : Comp :=
  { c with patches := c.patches.mapVals fun _ p => OffsetPatchFunction p (offsetFn o) }

/-- `component.py:228-231` `apply_modifier`. -/
def applyModifier (c : Comp) : Comp :=
  match c.modifier with
  | none => c
  | some f => { c with patches := c.patches.mapVals fun _ p => OffsetPatchFunction p f }

/-- `component.py:233-249` `reflect`. -/
def reflect (c : Comp) (axis : Option String) : Comp :=
  match c.reflection_axis.or axis with
  | none => c
  | some a =>
    let mirrored : Dict String Surf :=
      c.patches.foldl (fun d e => d.set (e.1 ++ "_mirrored") (MirroredPatch e.2 a)) []
    if c.append_reflection then { c with patches := c.patches.setAll mirrored }
    else { c with patches := mirrored }

/-- `getattr(self, name)(*args)` for one transformation tuple, as on lines 225-226. -/
noncomputable def applyTransf (c : Comp) : Transf → Res Comp
  | .rotate angle axis => .ok (c.rotate angle axis)
  | .translate o => .ok (c.translate o)
  | .reflect axis => .ok (c.reflect axis)
  | .curve => .ok c.curve
  | .applyModifier => .ok c.applyModifier
  | .unknown _ => .error .attr

/-- The loop over transformation tuples: returns the outcome and the state reached. -/
noncomputable def applyAll (c : Comp) : List Transf → Res Unit × Comp
  | [] => (.ok (), c)
  | t :: ts => match c.applyTransf t with
    | .ok c' => c'.applyAll ts
    | .error e => (.error e, c)

/-- `component.py:223-226` `transform`. -/
noncomputable def transform (c : Comp) : Res Unit × Comp := c.applyAll c.transformations

/-- `component.py:268-278`: one entry of the case list. -/
def caseOf (c : Comp) (res : Reso) (e : String × Surf) : Res (String × Surf × ℕ × ℕ) :=
  match res with
  | .int n => .ok (e.1, e.2, n, n)
  | .dict _ => do return (e.1, e.2, ← c.patch_res_r.get e.1, ← c.patch_res_r.get e.1)

/-- `component.py:281-288`: the worker. -/
noncomputable def wrapper (o : MeshOpts) (case : String × Surf × ℕ × ℕ) : Res (String × TriMesh ℝ) := do
  let m ← surfceToStl case.2.1 case.2.2.1 case.2.2.2 o
  return (case.1, m)

/-- `component.py:299-306`: the sequential loop. -/
noncomputable def surfaceLoop (o : MeshOpts) (acc : Dict String (TriMesh ℝ)) :
    List (String × Surf × ℕ × ℕ) → Res Unit × Dict String (TriMesh ℝ)
  | [] => (.ok (), acc)
  | k :: ks => match wrapper o k with
    | .ok r => surfaceLoop o (acc.set r.1 r.2) ks
    | .error e => (.error e, acc)

/-- `component.py:290-306`: computing the surfaces of the case list.  `Pool.starmap` returns all results in order or
raises. -/
noncomputable def surfaceCases (c : Comp) (cases : List (String × Surf × ℕ × ℕ)) : Res Unit × Comp :=
  if c.multiprocess then
    match cases.mapM (wrapper c.clustering) with
    | .error e => (.error e, { c with surfaces := some [] })
    | .ok l => (.ok (), { c with surfaces := some (Dict.setAll [] l) })
  else
    ((surfaceLoop c.clustering [] cases).1, { c with surfaces := some (surfaceLoop c.clustering [] cases).2 })

/-- `component.py:259-306` `surface`. -/
noncomputable def surface (c : Comp) (resolution : Option Reso := none) : Res Unit × Comp :=
  if c.patches.length = 0 then (.error .exc, c)
  else match c.patches.mapM (c.caseOf (resolution.getD c.stl_resolution)) with
    | .error e => (.error e, c)
    | .ok cases => c.surfaceCases cases

/-- `component.py:196-202`: combining the surfaces; `np.concatenate` of nothing raises. -/
noncomputable def combine (c : Comp) : Res StlMesh × Comp :=
  match c.surfaces with
  | none => (.error .attr, c)
  | some [] => (.error .value, c)
  | some d =>
    let m := StlMesh.ofTris (d.map Prod.snd).flatten
    (.ok m, { c with mesh_ := some m })

/-- `component.py:188-200`: computing the mesh, using existing surfaces. -/
noncomputable def buildMesh (c : Comp) : Res StlMesh × Comp :=
  match c.surfaces with
  | some _ => c.combine
  | none => match c.surface with
    | (.error e, c') => (.error e, c')
    | (.ok _, c') => c'.combine

/-- `component.py:185-202` the `mesh` property.  A numpy-stl mesh is truthy when it has triangles. -/
noncomputable def mesh (c : Comp) : Res StlMesh × Comp :=
  match c.mesh_ with
  | some m => if m.tris.length ≠ 0 then (.ok m, c) else c.buildMesh
  | none => c.buildMesh

/-- `component.py:314-331` `to_stl`: the file written, if any, the outcome and the new state. -/
noncomputable def toStl (c : Comp) (outfile : Option String) : Res (Option (String × StlMesh)) × Comp :=
  if c.ghost then (.ok none, c)
  else match c.mesh with
    | (.error e, c') => (.error e, c')
    | (.ok m, c') => (.ok (outfile.map fun f => (f, m)), c')

/-- `component.py:343-362` `add_clustering_options`. -/
def addClusteringOptions (c : Comp) (i j : Option (ℝ → Res ℝ)) : Comp :=
  let o := c.clustering
  let o := match i with | some f => { o with i_clustering := some f } | none => o
  let o := match j with | some f => { o with j_clustering := some f } | none => o
  { c with clustering := o }

/-- `generate_patches` of a component that assigns into its existing dictionary. -/
def genInto (c : Comp) (out : GenOut) : Res Unit × Comp :=
  let c' := { c with patches := c.patches.setAll out.items, patch_res_r := c.patch_res_r.setAll out.resR,
                     patch_res_s := c.patch_res_s.setAll out.resS }
  (match out.err with | some e => .error e | none => .ok (), c')

/-- `generate_patches` of a component that replaces its dictionary when it succeeds. -/
def genReplace (c : Comp) (out : GenOut) : Res Unit × Comp :=
  match out.err with
  | some e => (.error e, c)
  | none => (.ok (), { c with patches := Dict.setAll [] out.items })

end Comp

/-- Objects by identity. -/
abbrev Heap := ℕ → Comp

/-- `h[id] = c`. -/
def Heap.upd (h : Heap) (id : ℕ) (c : Comp) : Heap := fun k => if k = id then c else h k

namespace Composite

/-- `generate_patches` of a child, which is never a composite (`composite.py:26-33`); a composite child would raise. -/
def genLeaf (h : Heap) (id : ℕ) : Res Unit × Heap :=
  match (h id).gen with
  | .into out => let r := (h id).genInto (out (h id).stl_resolution); (r.1, h.upd id r.2)
  | .replace out => let r := (h id).genReplace (out (h id).stl_resolution); (r.1, h.upd id r.2)
  | .composite _ => (.error .exc, h)

/-- `composite.py:123-124`: generating all children. -/
def genChildren (h : Heap) : List ℕ → Res Unit × Heap
  | [] => (.ok (), h)
  | k :: ks => match genLeaf h k with
    | (.ok _, h') => genChildren h' ks
    | (.error e, h') => (.error e, h')

/-- `composite.py:127-130`: the merged items of the children numbered from `ix`. -/
def mergedItems (h : Heap) (ix : ℕ) : List ℕ → List (String × Surf)
  | [] => []
  | k :: ks => (h k).patches.map (fun e => (e.1 ++ "_" ++ toString ix, e.2)) ++ mergedItems h (ix + 1) ks

/-- `composite.py:121-132` `generate_patches`. -/
def generatePatches (h : Heap) (id : ℕ) (children : List ℕ) : Res Unit × Heap :=
  match genChildren h children with
  | (.error e, h') => (.error e, h')
  | (.ok _, h') => (.ok (), h'.upd id { h' id with patches := Dict.setAll [] (mergedItems h' 0 children) })

/-- `composite.py:26-33`. -/
def allowable : List String := ["fin", "wing", "swept", "revolved", "sphere", "cube"]

end Composite

/-- `component.generate_patches()` by dynamic dispatch. -/
def generatePatches (h : Heap) (id : ℕ) : Res Unit × Heap :=
  match (h id).gen with
  | .composite children => Composite.generatePatches h id children
  | _ => Composite.genLeaf h id

/-- The optional arguments of `Vehicle.add_component` and `CompositeComponent.add_component`. -/
structure AddOpts where
  name : Option String := none
  reflection_axis : Option String := none
  append_reflection : Bool := true
  curvatures : Option (List Curvature) := none
  clustering : Option (Option (ℝ → Res ℝ) × Option (ℝ → Res ℝ)) := none
  transformations : Option (List Transf) := none
  modifier : Option OffFn := none
  ghost : Bool := false

/-- `vehicle.py:138-161` and `composite.py:90-113`: verbosity, reflection, curvature and transformation options. -/
def Comp.setCommon (c : Comp) (verbosity : ℤ) (o : AddOpts) : Comp :=
  let c := if verbosity = 0 then { c with verbosity := 0 } else { c with verbosity := max c.verbosity verbosity }
  let c := match o.reflection_axis with
    | some a => { c with reflection_axis := some a, append_reflection := o.append_reflection }
    | none => c
  let c := match o.curvatures with | some k => { c with curvatures := some k } | none => c
  match o.transformations with | some t => { c with transformations := t } | none => c

namespace Composite

/-- `composite.py:90-113`: the options recorded on the child; the `clustering` dictionary replaces the child's. -/
def childWith (c : Comp) (verbosity : ℤ) (o : AddOpts) : Comp :=
  match o.clustering with
  | some (i, j) => { c.setCommon verbosity o with clustering := { i_clustering := i, j_clustering := j } }
  | none => c.setCommon verbosity o

/-- `composite.py:116`: `self.components.append(component)`. -/
def appendChild (h : Heap) (self child : ℕ) : Heap :=
  match (h self).gen with
  | .composite l => h.upd self { h self with gen := .composite (l ++ [child]) }
  | _ => h

/-- `composite.py:48-119` `add_component`. -/
def addComponent (h : Heap) (self child : ℕ) (o : AddOpts) : Res Unit × Heap :=
  if (h child).componenttype ∈ allowable then
    (.ok (), appendChild (h.upd child (childWith (h child) (h self).verbosity o)) self child)
  else (.error .exc, h)

end Composite

end HV
