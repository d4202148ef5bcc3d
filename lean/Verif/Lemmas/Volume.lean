import Verif.Lemmas.Watertight

/-!
# Volumes of meshes of grids
-/

namespace HV
open Spec

/-- Twice the signed area of the triangle on the origin and the projections of two points to the `x`-`y` plane. -/
def crossXY (u v : V) : ℝ := u.x * v.y - u.y * v.x

theorem crossXY_anti : Anti crossXY := by
  intro a b; unfold crossXY; ring

theorem signedVolume_nil : signedVolume [] = 0 := rfl

theorem signedVolume_add (m m' : TriMesh ℝ) : signedVolume (m ++ m') = signedVolume m + signedVolume m' := by
  simp [signedVolume]

theorem signedVolume_flatten (l : List (TriMesh ℝ)) : signedVolume l.flatten = (l.map signedVolume).sum := by
  induction l with
  | nil => rfl
  | cons a l ih => simp [signedVolume_add, ih]

/-- The volume of a grid mesh is the sum over its cells. -/
theorem signedVolume_grid (n m : ℕ) (P : ℕ → ℕ → V) :
    signedVolume (gridMesh MeshArith.real false n m P) = ∑ i ∈ Finset.range n, ∑ j ∈ Finset.range m,
      signedVolume (cellTris MeshArith.real false (P i j) (P (i + 1) j) (P i (j + 1)) (P (i + 1) (j + 1))) := by
  unfold gridMesh
  rw [signedVolume_flatten, List.map_map, sum_map_range]
  apply Finset.sum_congr rfl
  intro i _
  simp only [Function.comp_apply]
  rw [signedVolume_flatten, List.map_map, sum_map_range]
  rfl

/-- A mesh in the plane at height `z`. -/
theorem signedVolume_flat (m : TriMesh ℝ) (z : ℝ) (h : ∀ t ∈ m, t.v0.z = z ∧ t.v1.z = z ∧ t.v2.z = z) :
    signedVolume m = z / 6 * edgeSum crossXY (edges m) := by
  induction m with
  | nil => simp [signedVolume, edges, edgeSum]
  | cons t m ih =>
    have e : t :: m = [t] ++ m := rfl
    rw [e, signedVolume_add, edges_append, edgeSum_append, ih fun t' ht => h t' (List.mem_cons_of_mem _ ht), mul_add]
    congr 1
    obtain ⟨h0, h1, h2⟩ := h t List.mem_cons_self
    simp only [signedVolume, edges, edgeSum, triEdges, det3, crossXY, List.map_cons, List.map_nil, List.sum_cons, List.sum_nil,
      List.flatMap_cons, List.flatMap_nil, List.append_nil, h0, h1, h2]
    ring

theorem mem_cell_of_gridMesh {n m : ℕ} {P : ℕ → ℕ → V} {t : Tri ℝ} (h : t ∈ gridMesh MeshArith.real false n m P) :
    ∃ i < n, ∃ j < m, t ∈ cellTris MeshArith.real false (P i j) (P (i + 1) j) (P i (j + 1)) (P (i + 1) (j + 1)) := by
  unfold gridMesh at h
  simp only [List.mem_flatten, List.mem_map, List.mem_range] at h
  obtain ⟨_, ⟨i, hi, rfl⟩, h⟩ := h
  simp only [List.mem_flatten, List.mem_map, List.mem_range] at h
  obtain ⟨_, ⟨j, hj, rfl⟩, h⟩ := h
  exact ⟨i, hi, j, hj, h⟩

/-- The mesh of a grid of points at height `z` has all its vertices there. -/
theorem gridMesh_flat (n m : ℕ) (P : ℕ → ℕ → V) (z : ℝ) (h : ∀ i ≤ n, ∀ j ≤ m, (P i j).z = z) :
    ∀ t ∈ gridMesh MeshArith.real false n m P, t.v0.z = z ∧ t.v1.z = z ∧ t.v2.z = z := by
  intro t ht
  obtain ⟨i, hi, j, hj, ht⟩ := mem_cell_of_gridMesh ht
  have a := h i (by omega) j (by omega)
  have b := h (i + 1) (by omega) j (by omega)
  have c := h i (by omega) (j + 1) (by omega)
  have d := h (i + 1) (by omega) (j + 1) (by omega)
  have hc : (cellCentre MeshArith.real (P i j) (P (i + 1) j) (P i (j + 1)) (P (i + 1) (j + 1))).z = z := by
    simp only [cellCentre, MeshArith.real, a, b, c, d]
    ring
  simp only [cellTris, meshVertex_real, List.mem_cons, List.not_mem_nil, or_false] at ht
  rcases ht with rfl | rfl | rfl | rfl <;> simp [a, b, c, d, hc]

/-- The volume under a flat grid: a sixth of its height times the sum around its boundary. -/
theorem signedVolume_flat_grid (n : ℕ) (P : ℕ → ℕ → V) (z : ℝ) (h : ∀ i ≤ n, ∀ j ≤ n, (P i j).z = z) :
    signedVolume (gridMesh MeshArith.real false n n P) = z / 6 * bdry crossXY n n P := by
  rw [signedVolume_flat _ z (gridMesh_flat n n P z h), edgeSum_stl _ crossXY_anti]

/-- The volume under the wall swept by a polyline moved in `z`. -/
theorem signedVolume_wall (n m : ℕ) (P : ℕ → ℕ → V) (x y : ℕ → ℝ) (z : ℕ → ℝ)
    (h : ∀ i ≤ n, ∀ j ≤ m, P i j = ⟨x j, y j, z i⟩) :
    signedVolume (gridMesh MeshArith.real false n m P) = -(z n - z 0) / 3 * pathSum crossXY (fun j => P 0 j) m := by
  rw [signedVolume_grid]
  have hcell : ∀ i ∈ Finset.range n, ∑ j ∈ Finset.range m,
      signedVolume (cellTris MeshArith.real false (P i j) (P (i + 1) j) (P i (j + 1)) (P (i + 1) (j + 1))) =
      (z i - z (i + 1)) * ((1 / 3) * ∑ j ∈ Finset.range m, (x j * y (j + 1) - y j * x (j + 1))) := by
    intro i hi
    have hi := Finset.mem_range.1 hi
    rw [Finset.mul_sum, Finset.mul_sum]
    apply Finset.sum_congr rfl
    intro j hj
    have hj := Finset.mem_range.1 hj
    rw [h i (by omega) j (by omega), h (i + 1) (by omega) j (by omega), h i (by omega) (j + 1) (by omega),
      h (i + 1) (by omega) (j + 1) (by omega)]
    simp only [cellTris, meshVertex_real, signedVolume, List.map_cons, List.map_nil,
      List.sum_cons, List.sum_nil]
    simp only [cellCentre, MeshArith.real, det3]
    ring
  rw [Finset.sum_congr rfl hcell, ← Finset.sum_mul, Finset.sum_range_sub']
  have hp : pathSum crossXY (fun j => P 0 j) m = ∑ j ∈ Finset.range m, (x j * y (j + 1) - y j * x (j + 1)) := by
    apply Finset.sum_congr rfl
    intro j hj
    have hj := Finset.mem_range.1 hj
    simp only [h 0 (by omega) j (by omega), h 0 (by omega) (j + 1) (by omega), crossXY]
  rw [hp]
  ring

end HV
