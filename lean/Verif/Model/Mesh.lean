import Verif.Model.Geometry
import Mathlib.Data.Finset.Card
import Mathlib.Analysis.SpecialFunctions.Pow.Real

/-!
# Triangle meshes: `utilities.py:16-147`, `component.py:364-499`
-/

namespace HV

/-- One record of `stl_mesh.vectors`: the three corners of a triangle. -/
@[ext] structure Tri (β : Type) where
  v0 : Vec β
  v1 : Vec β
  v2 : Vec β

/-- `stl_mesh.vectors`. -/
abbrev TriMesh (β : Type) := List (Tri β)

/-- The arithmetic used by `surfce_to_stl` (`utilities.py:82-135`): `add` and `mul` on coordinates, the
constant `0.25`, the integer factor `y_mult`, and the cast on storing into the mesh (float64 to
float32).  No laws are assumed. -/
structure MeshArith (α β : Type) where
  add : α → α → α
  mul : α → α → α
  quarter : α
  ymult : Bool → α
  store : α → β

/-- Exact real arithmetic. -/
noncomputable def MeshArith.real : MeshArith ℝ ℝ where
  add := (· + ·)
  mul := (· * ·)
  quarter := 0.25
  ymult m := if m then -1 else 1
  store := id

section
variable {α β : Type} (ar : MeshArith α β)

/-- `utilities.py:116` etc.: `np.array([p.x, y_mult * p.y, p.z])` stored in the mesh. -/
def meshVertex (mirror : Bool) (p : Vec α) : Vec β :=
  ⟨ar.store p.x, ar.store (ar.mul (ar.ymult mirror) p.y), ar.store p.z⟩

/-- `utilities.py:110-113`: the centre of a cell. -/
def cellCentre (p00 p10 p01 p11 : Vec α) : Vec α :=
  ⟨ar.mul ar.quarter (ar.add (ar.add (ar.add p00.x p10.x) p01.x) p11.x),
   ar.mul ar.quarter (ar.add (ar.add (ar.add p00.y p10.y) p01.y) p11.y),
   ar.mul ar.quarter (ar.add (ar.add (ar.add p00.z p10.z) p01.z) p11.z)⟩

/-- `utilities.py:115-137`: the four triangles of a cell. -/
def cellTris (mirror : Bool) (p00 p10 p01 p11 : Vec α) : TriMesh β :=
  let v := meshVertex ar mirror
  let c := v (cellCentre ar p00 p10 p01 p11)
  [⟨v p00, v p10, c⟩, ⟨v p10, v p11, c⟩, ⟨v p11, v p01, c⟩, ⟨v p01, v p00, c⟩]

/-- `utilities.py:104-108`: evaluation of the corners of cell `(i,j)`, then its triangles. -/
def cellAt (mirror : Bool) (surf : α → α → Res (Vec α)) (rList sList : List α) (i j : ℕ) :
    Res (TriMesh β) := do
  let pos00 ← surf (← SweptPatch.getIdx rList i) (← SweptPatch.getIdx sList j)
  let pos10 ← surf (← SweptPatch.getIdx rList (i + 1)) (← SweptPatch.getIdx sList j)
  let pos01 ← surf (← SweptPatch.getIdx rList i) (← SweptPatch.getIdx sList (j + 1))
  let pos11 ← surf (← SweptPatch.getIdx rList (i + 1)) (← SweptPatch.getIdx sList (j + 1))
  return cellTris ar mirror pos00 pos10 pos01 pos11

/-- `utilities.py:90-139`: the nested loops.  The preallocated array of `4*ni*nj` records is filled in order
`t = 0, 1, 2, ...`; the model collects the records in that order. -/
def meshFromLists (mirror : Bool) (surf : α → α → Res (Vec α)) (ni nj : ℕ) (rList sList : List α) :
    Res (TriMesh β) := do
  let rows ← (List.range ni).mapM fun i => (List.range nj).mapM fun j => cellAt ar mirror surf rList sList i j
  return (rows.map List.flatten).flatten

end

/-- Python `x ** y` for `x ≥ 0`. -/
noncomputable def ppow (x y : ℝ) : Res ℝ := if x = 0 ∧ y < 0 then .error .zeroDiv else .ok (x ^ y)

/-- `utilities.py:144-147` `default_vertex_func`. -/
noncomputable def defaultVertexFunc (lb ub : ℝ) (steps : ℕ) (spacing : ℝ) : Res (List ℝ) := do
  let span := ub - lb
  let dx ← pdiv 1 ((steps : ℝ) - 1)
  (List.range steps).mapM fun (i : ℕ) => do
    let p ← ppow ((i : ℝ) * dx) spacing
    return lb + p * span

/-- The optional arguments of `surfce_to_stl`, `utilities.py:16-26`. -/
structure MeshOpts where
  si : ℝ := 1
  sj : ℝ := 1
  mirror_y : Bool := false
  i_clustering : Option (ℝ → Res ℝ) := none
  j_clustering : Option (ℝ → Res ℝ) := none

/-- `utilities.py:72-75`: the list of r parameters. -/
noncomputable def rList (o : MeshOpts) (ni : ℕ) : Res (List ℝ) :=
  match o.i_clustering with
  | some f => (linspace01 (ni + 1)).mapM f
  | none => defaultVertexFunc 0 1 (ni + 1) o.si

/-- `utilities.py:77-80`: the list of s parameters; with a clustering function it has `ni + 1` entries. -/
noncomputable def sList (o : MeshOpts) (ni nj : ℕ) : Res (List ℝ) :=
  match o.j_clustering with
  | some f => (linspace01 (ni + 1)).mapM f
  | none => defaultVertexFunc 0 1 (nj + 1) o.sj

/-- `utilities.py:16-141` `surfce_to_stl`.  Simplified: resolutions are natural numbers, arithmetic is exact
(`meshFromLists` itself is generic). -/
noncomputable def surfceToStl (surf : Surf) (ni nj : ℕ) (o : MeshOpts := {}) : Res (TriMesh ℝ) := do
  let r_list ← rList o ni
  let s_list ← sList o ni nj
  meshFromLists MeshArith.real o.mirror_y surf ni nj r_list s_list

/-! ## `stl_check` -/

/-- A numpy-stl `Mesh`: the triangles and the stored `normals` array, which `Mesh(data)` computes as
`cross(v1 - v0, v2 - v0)` and later vertex assignments leave as it is. -/
structure StlMesh where
  tris : TriMesh ℝ
  normals : List V

/-- The (unnormalised) normal numpy-stl computes. -/
def Tri.normal (t : Tri ℝ) : V := Vec.cross (t.v1 - t.v0) (t.v2 - t.v0)

/-- `mesh.Mesh(data)`: normals are calculated on construction. -/
def StlMesh.ofTris (m : TriMesh ℝ) : StlMesh := ⟨m, m.map Tri.normal⟩

/-- Componentwise `np.sum(axis=0)`. -/
def vecSum (l : List V) : V := l.foldl (· + ·) ⟨0, 0, 0⟩

open Classical in
/-- `component.py:374-386`: the project area test. -/
noncomputable def areaTest (eps : ℝ) (m : StlMesh) : Bool :=
  let absn : List V := m.normals.map fun n => ⟨|n.x|, |n.y|, |n.z|⟩
  let allowed := vecSum absn * eps
  let s := vecSum m.normals
  decide (|s.x| ≤ allowed.x) && decide (|s.y| ≤ allowed.y) && decide (|s.z| ≤ allowed.z)

open Classical in
/-- `component.py:391-393`: which triangles disagree with their stored normal. -/
noncomputable def reversedTris (m : StlMesh) : List Bool :=
  List.zipWith (fun (t : Tri ℝ) (n : V) => decide (t.normal.dot n < 0)) m.tris m.normals

/-- `component.py:396-406`: the edges in the order of the generator, each reversed if its triangle is
flagged.  The flags are cycled, so all three edges of a triangle use its flag. -/
def directedEdgeList {β : Type} (rev : List Bool) (tris : TriMesh β) : List (Vec β × Vec β) :=
  let orient (r : Bool) (e : Vec β × Vec β) := if r then (e.2, e.1) else e
  List.zipWith (fun r t => orient r (t.v0, t.v1)) rev tris ++
  List.zipWith (fun r t => orient r (t.v1, t.v2)) rev tris ++
  List.zipWith (fun r t => orient r (t.v2, t.v0)) rev tris

open Classical in
/-- `component.py:395-407`: the set of directed edges. -/
noncomputable def directedEdges (m : StlMesh) : Finset (V × V) :=
  (directedEdgeList (reversedTris m) m.tris).toFinset

open Classical in
/-- `component.py:408`: the set of undirected edges, each a `frozenset` of its end points. -/
noncomputable def undirectedEdges (d : Finset (V × V)) : Finset (Finset V) :=
  d.image fun e => {e.1, e.2}

open Classical in
/-- `component.py:364-444` `stl_check`; printing is dropped, as is the final bookkeeping with a counter which
does not influence the result.  Without `matching_lines`, `directed_edges` is unbound on line 408.
`eps` is the float32 machine epsilon. -/
noncomputable def stlCheck (eps : ℝ) (m : StlMesh) (project_area matching_lines : Bool) : Res Bool := do
  let flag1 : Bool := if project_area then areaTest eps m else true
  let directed ← if matching_lines then pure (directedEdges m) else throw .unbound
  let undirected := undirectedEdges directed
  let edge_check : Bool := decide (directed.card = 3 * m.tris.length)
  let pair_check : Bool := decide (directed.card = 2 * undirected.card)
  let flag2 := flag1 && edge_check
  if pair_check then return flag2
  else return false

/-! ## `stl_repair` -/

/-- Loop state of `find_groups`, `component.py:460-463`. -/
structure GroupState where
  groups : List (List ℕ) := []
  li : List ℕ := []
  count : Bool := false
  x0 : ℝ := 0

open Classical in
/-- `component.py:464-480`: one iteration `i` of the loop of `find_groups`; `n` is the number of points. -/
noncomputable def groupStep (x : ℕ → ℝ) (sort : ℕ → ℕ) (n : ℕ) (d : ℝ) (st : GroupState) (i : ℕ) : GroupState :=
  let x0 := if st.count then st.x0 else x (sort i)
  let x1 := x (sort (i + 1))
  let st' : GroupState :=
    if |x1 - x0| < d then
      if st.count then { st with li := st.li ++ [sort (i + 1)], x0 := x0 }
      else { st with li := st.li ++ [sort i, sort (i + 1)], count := true, x0 := x0 }
    else { groups := st.groups ++ [st.li], li := [], count := false, x0 := x0 }
  if i = n - 2 ∧ st'.count then { st' with groups := st'.groups ++ [st'.li] } else st'

/-- `component.py:458-481` `find_groups`.  `np.argsort` is the parameter `sort`. -/
noncomputable def findGroups (x : ℕ → ℝ) (sort : ℕ → ℕ) (n : ℕ) (d : ℝ) : List (List ℕ) :=
  ((List.range (n - 1)).foldl (groupStep x sort n d) {}).groups

/-- `np.mean(vectors[common], axis=0)`. -/
noncomputable def meanOf (vs : ℕ → V) (common : List ℕ) : V :=
  vecSum (common.map vs) * (1 / (common.length : ℝ))

/-- `component.py:487-496`: merging one intersection. -/
noncomputable def mergeOne (vs : ℕ → V) (common : List ℕ) : ℕ → V :=
  if common = [] then vs else fun i => if i ∈ common then meanOf vs common else vs i

/-- `component.py:487-496`: the triple loop over the groups of the three coordinates. -/
noncomputable def mergeAll (gx gy gz : List (List ℕ)) (vs : ℕ → V) : ℕ → V :=
  gx.foldl (fun vs ix =>
    gy.foldl (fun vs iy =>
      if ix.filter (· ∈ iy) = [] then vs
      else gz.foldl (fun vs iz => mergeOne vs ((ix.filter (· ∈ iy)).filter (· ∈ iz))) vs) vs) vs

/-- `component.py:446-499` `stl_repair` on the stacked corner array `vstack(v0, v1, v2)`, given as a function
on indices `0 .. 3N-1`; `sx sy sz` are the results of `np.argsort` on the three columns. Duplicates cannot occur
in the index lists, so sets are modelled by lists. -/
noncomputable def repairVectors (n : ℕ) (vs : ℕ → V) (sx sy sz : ℕ → ℕ) (d : ℝ) : ℕ → V :=
  mergeAll (findGroups (fun i => (vs i).x) sx n d) (findGroups (fun i => (vs i).y) sy n d)
    (findGroups (fun i => (vs i).z) sz n d) vs

/-- `component.py:455-456,497-499`: stacking the corners and writing them back; normals are not recomputed. -/
noncomputable def stlRepair (m : StlMesh) (sx sy sz : ℕ → ℕ) (d : ℝ) : StlMesh :=
  let N := m.tris.length
  let stacked : List V := m.tris.map Tri.v0 ++ m.tris.map Tri.v1 ++ m.tris.map Tri.v2
  let out := repairVectors (3 * N) (fun i => stacked.getD i ⟨0, 0, 0⟩) sx sy sz d
  { m with tris := (List.range N).map fun i => ⟨out i, out (N + i), out (2 * N + i)⟩ }

end HV
