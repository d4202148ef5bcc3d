import Verif.Model.Mesh

/-!
# Specification notions for triangle meshes

Directed edges, closedness, vector area and enclosed volume, independently of how meshes are built.
-/

namespace HV.Spec

/-- The three directed edges of a triangle. -/
def triEdges {β : Type} (t : Tri β) : List (Vec β × Vec β) := [(t.v0, t.v1), (t.v1, t.v2), (t.v2, t.v0)]

/-- The directed edges of a mesh, with multiplicity. -/
def edges {β : Type} (m : TriMesh β) : List (Vec β × Vec β) := m.flatMap triEdges

open Classical in
/-- How often the directed edge from `a` to `b` occurs in a list of directed edges. -/
noncomputable def edgeCount {W : Type} (l : List (W × W)) (a b : W) : ℕ := l.count (a, b)

/-- Closed and consistently oriented: every directed edge occurs as often as its reverse. -/
def Closed {β : Type} (m : TriMesh β) : Prop := ∀ a b, edgeCount (edges m) a b = edgeCount (edges m) b a

/-- The consecutive directed edges of the vertex sequence `p 0, ..., p n`. -/
def pathEdges {W : Type} (p : ℕ → W) (n : ℕ) : List (W × W) := (List.range n).map fun i => (p i, p (i + 1))

/-- The same edges traversed backwards. -/
def pathEdgesRev {W : Type} (p : ℕ → W) (n : ℕ) : List (W × W) := (List.range n).map fun i => (p (i + 1), p i)

/-- The boundary loop of a rectangular array of points: south, east, north backwards, west backwards. -/
def boundaryLoop {W : Type} (p : ℕ → ℕ → W) (ni nj : ℕ) : List (W × W) :=
  pathEdges (fun i => p i 0) ni ++ pathEdges (fun j => p ni j) nj ++
  pathEdgesRev (fun i => p i nj) ni ++ pathEdgesRev (fun j => p 0 j) nj

/-- Six times the signed volume of the tetrahedron on the origin and the triangle. -/
def det3 (a b c : V) : ℝ :=
  a.x * (b.y * c.z - b.z * c.y) - a.y * (b.x * c.z - b.z * c.x) + a.z * (b.x * c.y - b.y * c.x)

/-- Signed volume enclosed by a mesh (divergence theorem). -/
noncomputable def signedVolume (m : TriMesh ℝ) : ℝ := (m.map fun t => det3 t.v0 t.v1 t.v2 / 6).sum

/-- Twice the vector area of a triangle. -/
def triArea2 (t : Tri ℝ) : Fin 3 → ℝ :=
  ![(t.v1.y - t.v0.y) * (t.v2.z - t.v0.z) - (t.v1.z - t.v0.z) * (t.v2.y - t.v0.y),
    (t.v1.z - t.v0.z) * (t.v2.x - t.v0.x) - (t.v1.x - t.v0.x) * (t.v2.z - t.v0.z),
    (t.v1.x - t.v0.x) * (t.v2.y - t.v0.y) - (t.v1.y - t.v0.y) * (t.v2.x - t.v0.x)]

/-- Twice the vector area of a mesh: the sum of its (unnormalised) normals. -/
def vectorArea2 (m : TriMesh ℝ) : Fin 3 → ℝ := (m.map triArea2).sum

/-- Apply a map to every vertex. -/
def mapVerts {β γ : Type} (f : Vec β → Vec γ) (m : TriMesh β) : TriMesh γ :=
  m.map fun t => ⟨f t.v0, f t.v1, f t.v2⟩

end HV.Spec
