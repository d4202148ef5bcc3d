import Verif.Props.Polygon
import Verif.Props.Component
import Verif.Lemmas.Volume

/-!
# C98: volume and area of cubes and spheres
-/

namespace HV
open Spec

/-- Surface area of a mesh: half the sum of the lengths of its (unnormalised) normals. -/
noncomputable def Spec.surfaceArea (m : TriMesh ℝ) : ℝ :=
  (m.map fun t => Real.sqrt (triArea2 t 0 ^ 2 + triArea2 t 1 ^ 2 + triArea2 t 2 ^ 2) / 2).sum

theorem surfaceArea_flatten (l : List (TriMesh ℝ)) : surfaceArea l.flatten = (l.map surfaceArea).sum := by
  induction l with
  | nil => rfl
  | cons a l ih =>
    rw [List.flatten_cons, List.map_cons, List.sum_cons, ← ih]
    simp [surfaceArea]

theorem surfaceArea_grid (n m : ℕ) (P : ℕ → ℕ → V) :
    surfaceArea (gridMesh MeshArith.real false n m P) = ∑ i ∈ Finset.range n, ∑ j ∈ Finset.range m,
      surfaceArea (cellTris MeshArith.real false (P i j) (P (i + 1) j) (P i (j + 1)) (P (i + 1) (j + 1))) := by
  unfold gridMesh
  rw [surfaceArea_flatten, List.map_map, sum_map_range]
  apply Finset.sum_congr rfl
  intro i _
  simp only [Function.comp_apply]
  rw [surfaceArea_flatten, List.map_map, sum_map_range]
  rfl

/-- The cross product of the two directions of a parallelogram. -/
def crossV (u v : V) : Fin 3 → ℝ := ![u.y * v.z - u.z * v.y, u.z * v.x - u.x * v.z, u.x * v.y - u.y * v.x]

/-- One cell of a planar parallelogram grid. -/
theorem affine_cell (o u v : V) (i j : ℝ) :
    let p := fun (i j : ℝ) => (⟨o.x + i * u.x + j * v.x, o.y + i * u.y + j * v.y, o.z + i * u.z + j * v.z⟩ : V)
    signedVolume (cellTris MeshArith.real false (p i j) (p (i + 1) j) (p i (j + 1)) (p (i + 1) (j + 1))) = det3 o u v / 3 ∧
    surfaceArea (cellTris MeshArith.real false (p i j) (p (i + 1) j) (p i (j + 1)) (p (i + 1) (j + 1))) =
      Real.sqrt (crossV u v 0 ^ 2 + crossV u v 1 ^ 2 + crossV u v 2 ^ 2) := by
  intro p
  constructor
  · simp only [cellTris, meshVertex_real, signedVolume, List.map_cons, List.map_nil, List.sum_cons, List.sum_nil]
    simp only [p, cellCentre, MeshArith.real, det3]
    ring
  · simp only [cellTris, meshVertex_real, surfaceArea, List.map_cons, List.map_nil, List.sum_cons, List.sum_nil]
    have key : ∀ a b c : ℝ, Real.sqrt ((a / 2) ^ 2 + (b / 2) ^ 2 + (c / 2) ^ 2) = Real.sqrt (a ^ 2 + b ^ 2 + c ^ 2) / 2 := by
      intro a b c
      have : (a / 2) ^ 2 + (b / 2) ^ 2 + (c / 2) ^ 2 = (a ^ 2 + b ^ 2 + c ^ 2) * (1 / 2) ^ 2 := by ring
      rw [this, Real.sqrt_mul (by positivity), Real.sqrt_sq (by norm_num)]
      ring
    have e : ∀ t ∈ cellTris MeshArith.real false (p i j) (p (i + 1) j) (p i (j + 1)) (p (i + 1) (j + 1)),
        triArea2 t 0 = crossV u v 0 / 2 ∧ triArea2 t 1 = crossV u v 1 / 2 ∧ triArea2 t 2 = crossV u v 2 / 2 := by
      intro t ht
      simp only [cellTris, meshVertex_real, List.mem_cons, List.not_mem_nil, or_false] at ht
      rcases ht with rfl | rfl | rfl | rfl <;> simp [p, cellCentre, MeshArith.real, triArea2, crossV] <;>
        refine ⟨?_, ?_, ?_⟩ <;> ring
    simp only [cellTris, meshVertex_real, List.forall_mem_cons] at e
    obtain ⟨⟨a1, a2, a3⟩, ⟨b1, b2, b3⟩, ⟨c1, c2, c3⟩, ⟨d1, d2, d3⟩, -⟩ := e
    simp only [a1, a2, a3, b1, b2, b3, c1, c2, c3, d1, d2, d3, key]
    ring

/-- A planar parallelogram grid: the volume under it and its area. -/
theorem affine_grid (n : ℕ) (P : ℕ → ℕ → V) (o u v : V)
    (h : ∀ i j : ℕ, P i j = ⟨o.x + i * u.x + j * v.x, o.y + i * u.y + j * v.y, o.z + i * u.z + j * v.z⟩) :
    signedVolume (gridMesh MeshArith.real false n n P) = (n : ℝ) ^ 2 * (det3 o u v / 3) ∧
    surfaceArea (gridMesh MeshArith.real false n n P) =
      (n : ℝ) ^ 2 * Real.sqrt (crossV u v 0 ^ 2 + crossV u v 1 ^ 2 + crossV u v 2 ^ 2) := by
  have hc := fun i j : ℕ => affine_cell o u v i j
  simp only at hc
  have h1 : ∀ i j : ℕ, P (i + 1) j = ⟨o.x + ((i : ℝ) + 1) * u.x + j * v.x, o.y + ((i : ℝ) + 1) * u.y + j * v.y, o.z + ((i : ℝ) + 1) * u.z + j * v.z⟩ :=
    fun i j => by rw [h]; push_cast; rfl
  have h2 : ∀ i j : ℕ, P i (j + 1) = ⟨o.x + i * u.x + ((j : ℝ) + 1) * v.x, o.y + i * u.y + ((j : ℝ) + 1) * v.y, o.z + i * u.z + ((j : ℝ) + 1) * v.z⟩ :=
    fun i j => by rw [h]; push_cast; rfl
  have h3 : ∀ i j : ℕ, P (i + 1) (j + 1) = ⟨o.x + ((i : ℝ) + 1) * u.x + ((j : ℝ) + 1) * v.x, o.y + ((i : ℝ) + 1) * u.y + ((j : ℝ) + 1) * v.y, o.z + ((i : ℝ) + 1) * u.z + ((j : ℝ) + 1) * v.z⟩ :=
    fun i j => by rw [h]; push_cast; rfl
  constructor
  · rw [signedVolume_grid]
    have hk : ∀ i j : ℕ, signedVolume (cellTris MeshArith.real false (P i j) (P (i + 1) j) (P i (j + 1)) (P (i + 1) (j + 1))) =
        det3 o u v / 3 := fun i j => by rw [h3, h1, h2, h i j]; exact (hc i j).1
    simp only [hk, Finset.sum_const, Finset.card_range, nsmul_eq_mul]
    ring
  · rw [surfaceArea_grid]
    have hk : ∀ i j : ℕ, surfaceArea (cellTris MeshArith.real false (P i j) (P (i + 1) j) (P i (j + 1)) (P (i + 1) (j + 1))) =
        Real.sqrt (crossV u v 0 ^ 2 + crossV u v 1 ^ 2 + crossV u v 2 ^ 2) := fun i j => by rw [h3, h1, h2, h i j]; exact (hc i j).2
    simp only [hk, Finset.sum_const, Finset.card_range, nsmul_eq_mul]
    ring

/-- The mesh of a cube. -/
theorem cube_mesh (a : ℝ) (centre : V) (n : ℕ) (hn : 1 ≤ n) (name : Option String) (h : Heap) (id : ℕ)
    (hid : h id = Cube a centre n name) :
    ∃ h' M c', generatePatches h id = (.ok (), h') ∧ (h' id).mesh = (.ok M, c') ∧
      signedVolume M.tris = 8 * a ^ 2 / 3 * (centre.x - centre.y + centre.z) ∧ surfaceArea M.tris = 6 * (2 * a) ^ 2 := by
  have hn0 : (n : ℝ) ≠ 0 := by positivity
  obtain ⟨h', M, c', hg, hM, -, -, ht⟩ := faces_mesh h id (CubePatch a centre)
    (fun p => ⟨p.x * a + centre.x, p.y * a + centre.y, p.z * a + centre.z⟩) n hn
    (by
      intro f hf i _ j _
      simp only [CubePatch, cubeFace_grid n f hf, bind, Except.bind, pure, Except.pure])
    (by rw [hid]; rfl) (by rw [hid]; rfl) (by rw [hid]; rfl) (by rw [hid]; rfl) (by rw [hid]; rfl) (by rw [hid]; rfl)
  refine ⟨h', M, c', hg, hM, ?_⟩
  have hs : Real.sqrt ((2 / (n : ℝ) * a * (2 / n * a)) ^ 2) = (2 / (n : ℝ) * a * (2 / n * a)) :=
    Real.sqrt_sq (mul_self_nonneg _)
  have east := affine_grid n (fun i j => ⟨1 * a + centre.x, gridT n i * a + centre.y, gridT n j * a + centre.z⟩)
    ⟨1 * a + centre.x, -a + centre.y, -a + centre.z⟩ ⟨0, 2 / n * a, 0⟩ ⟨0, 0, 2 / n * a⟩
    (fun i j => by ext <;> simp [gridT] <;> ring)
  have west := affine_grid n (fun i j => ⟨-1 * a + centre.x, gridT n i * a + centre.y, gridT n j * a + centre.z⟩)
    ⟨-1 * a + centre.x, -a + centre.y, -a + centre.z⟩ ⟨0, 2 / n * a, 0⟩ ⟨0, 0, 2 / n * a⟩
    (fun i j => by ext <;> simp [gridT] <;> ring)
  have south := affine_grid n (fun i j => ⟨gridT n i * a + centre.x, -1 * a + centre.y, gridT n j * a + centre.z⟩)
    ⟨-a + centre.x, -1 * a + centre.y, -a + centre.z⟩ ⟨2 / n * a, 0, 0⟩ ⟨0, 0, 2 / n * a⟩
    (fun i j => by ext <;> simp [gridT] <;> ring)
  have north := affine_grid n (fun i j => ⟨gridT n i * a + centre.x, 1 * a + centre.y, gridT n j * a + centre.z⟩)
    ⟨-a + centre.x, 1 * a + centre.y, -a + centre.z⟩ ⟨2 / n * a, 0, 0⟩ ⟨0, 0, 2 / n * a⟩
    (fun i j => by ext <;> simp [gridT] <;> ring)
  have bottom := affine_grid n (fun i j => ⟨gridT n i * a + centre.x, gridT n j * a + centre.y, -1 * a + centre.z⟩)
    ⟨-a + centre.x, -a + centre.y, -1 * a + centre.z⟩ ⟨2 / n * a, 0, 0⟩ ⟨0, 2 / n * a, 0⟩
    (fun i j => by ext <;> simp [gridT] <;> ring)
  have top := affine_grid n (fun i j => ⟨gridT n i * a + centre.x, gridT n j * a + centre.y, 1 * a + centre.z⟩)
    ⟨-a + centre.x, -a + centre.y, 1 * a + centre.z⟩ ⟨2 / n * a, 0, 0⟩ ⟨0, 2 / n * a, 0⟩
    (fun i j => by ext <;> simp [gridT] <;> ring)
  rw [ht, signedVolume_flatten, surfaceArea_flatten]
  simp only [faceNames, List.map_cons, List.map_nil, List.sum_cons, List.sum_nil, facePt, if_true, String.reduceEq, if_false]
  rw [east.1, west.1, south.1, north.1, bottom.1, top.1, east.2, west.2, south.2, north.2, bottom.2, top.2]
  constructor
  · simp only [det3]
    field_simp
    ring
  · simp [crossV, hs]
    field_simp
    ring

/-- C98: cubes of half side `a` have the surface area of six squares, at every resolution; but the volume their mesh encloses
is not `8 a³`.  Missing: the volume, see `C98_cube_violated` and `C98_sphere_violated`. -/
theorem C98_area_partial (a : ℝ) (centre : V) (n : ℕ) (hn : 1 ≤ n) (name : Option String) (h : Heap) (id : ℕ)
    (hid : h id = Cube a centre n name) :
    ∃ h' M c', generatePatches h id = (.ok (), h') ∧ (h' id).mesh = (.ok M, c') ∧ surfaceArea M.tris = 6 * (2 * a) ^ 2 := by
  obtain ⟨h', M, c', h1, h2, -, h3⟩ := cube_mesh a centre n hn name h id hid
  exact ⟨h', M, c', h1, h2, h3⟩

/-- C98 fails for cubes at every resolution: as three of the faces point inwards, the mesh encloses the volume
`8 a² / 3 * (x - y + z)`, where `(x, y, z)` is the centre; for a cube at the origin nothing. -/
theorem C98_cube_violated (a : ℝ) (centre : V) (n : ℕ) (hn : 1 ≤ n) (name : Option String) (h : Heap) (id : ℕ)
    (hid : h id = Cube a centre n name) :
    ∃ h' M c', generatePatches h id = (.ok (), h') ∧ (h' id).mesh = (.ok M, c') ∧
      signedVolume M.tris = 8 * a ^ 2 / 3 * (centre.x - centre.y + centre.z) := by
  obtain ⟨h', M, c', h1, h2, h3, -⟩ := cube_mesh a centre n hn name h id hid
  exact ⟨h', M, c', h1, h2, h3⟩

/-- The volume under a mirrored grid. -/
theorem signedVolume_mirror_grid (k : Fin 3) (n : ℕ) (P Q : ℕ → ℕ → V) (h : ∀ i j, Q i j = mirrorV k (P i j)) :
    signedVolume (gridMesh MeshArith.real false n n Q) = -signedVolume (gridMesh MeshArith.real false n n P) := by
  rw [← signedVolume_mirrorV k]
  congr 1
  have hQ : Q = fun i j => mirrorV k (P i j) := by funext i j; exact h i j
  subst hQ
  simp only [gridMesh, mapVerts, List.map_flatten, List.map_map]
  congr 1
  apply List.map_congr_left
  intro i' _
  simp only [Function.comp, List.map_flatten, List.map_map]
  congr 1
  apply List.map_congr_left
  intro j' _
  have hc : ∀ p q u v : V, cellCentre MeshArith.real (mirrorV k p) (mirrorV k q) (mirrorV k u) (mirrorV k v) =
      mirrorV k (cellCentre MeshArith.real p q u v) := by
    intro p q u v
    fin_cases k <;> simp [cellCentre, MeshArith.real, mirrorV] <;> ring
  simp only [Function.comp, cellTris, meshVertex_real, hc, List.map_cons, List.map_nil]

/-- C98 fails for spheres: at every resolution the mesh of a sphere around the origin encloses no volume. -/
theorem C98_sphere_violated (r : ℝ) (n : ℕ) (hn : 1 ≤ n) (name : Option String) (h : Heap) (id : ℕ)
    (hid : h id = Sphere r ⟨0, 0, 0⟩ n name) :
    ∃ h' M c', generatePatches h id = (.ok (), h') ∧ (h' id).mesh = (.ok M, c') ∧ signedVolume M.tris = 0 := by
  obtain ⟨h', M, c', hg, hM, -, -, ht⟩ := faces_mesh h id (SpherePatch r ⟨0, 0, 0⟩)
    (fun p => ⟨p.x * sphereG p.y p.z * r + 0, p.y * sphereG p.x p.z * r + 0, p.z * sphereG p.x p.y * r + 0⟩) n hn
    (fun f hf i hi j hj => SpherePatch_grid r ⟨0, 0, 0⟩ n hn f hf i hi j hj)
    (by rw [hid]; rfl) (by rw [hid]; rfl) (by rw [hid]; rfl) (by rw [hid]; rfl) (by rw [hid]; rfl) (by rw [hid]; rfl)
  refine ⟨h', M, c', hg, hM, ?_⟩
  have hg : ∀ x y, sphereG (-x) y = sphereG x y := fun x y => by unfold sphereG; congr 1; ring
  have hg' : ∀ x y, sphereG x (-y) = sphereG x y := fun x y => by unfold sphereG; congr 1; ring
  rw [ht, signedVolume_flatten]
  simp only [faceNames, List.map_cons, List.map_nil, List.sum_cons, List.sum_nil, facePt, if_true, String.reduceEq, if_false,
    add_zero]
  rw [signedVolume_mirror_grid 0 n (fun i j => ⟨1 * sphereG (gridT n i) (gridT n j) * r,
      gridT n i * sphereG 1 (gridT n j) * r, gridT n j * sphereG 1 (gridT n i) * r⟩) (fun i j =>
      ⟨-1 * sphereG (gridT n i) (gridT n j) * r, gridT n i * sphereG (-1) (gridT n j) * r, gridT n j * sphereG (-1) (gridT n i) * r⟩)
      (fun i j => by simp [mirrorV, hg]),
    signedVolume_mirror_grid 1 n (fun i j => ⟨gridT n i * sphereG 1 (gridT n j) * r,
      1 * sphereG (gridT n i) (gridT n j) * r, gridT n j * sphereG (gridT n i) 1 * r⟩) (fun i j =>
      ⟨gridT n i * sphereG (-1) (gridT n j) * r, -1 * sphereG (gridT n i) (gridT n j) * r, gridT n j * sphereG (gridT n i) (-1) * r⟩)
      (fun i j => by simp [mirrorV, hg, hg']),
    signedVolume_mirror_grid 2 n (fun i j => ⟨gridT n i * sphereG (gridT n j) 1 * r,
      gridT n j * sphereG (gridT n i) 1 * r, 1 * sphereG (gridT n i) (gridT n j) * r⟩) (fun i j =>
      ⟨gridT n i * sphereG (gridT n j) (-1) * r, gridT n j * sphereG (gridT n i) (-1) * r, -1 * sphereG (gridT n i) (gridT n j) * r⟩)
      (fun i j => by simp [mirrorV, hg'])]
  ring

/-- The hypotheses of the theorems on cubes and spheres are met; a cube around the origin encloses
nothing. -/
example : ∃ (h : Heap), h 0 = Cube 1 ⟨0, 0, 0⟩ 2 none ∧ h 1 = Sphere 1 ⟨0, 0, 0⟩ 2 none ∧
    ∃ h' M c', generatePatches h 0 = (.ok (), h') ∧ (h' 0).mesh = (.ok M, c') ∧ signedVolume M.tris = 0 := by
  refine ⟨fun k => if k = 0 then Cube 1 ⟨0, 0, 0⟩ 2 none else Sphere 1 ⟨0, 0, 0⟩ 2 none, rfl, rfl, ?_⟩
  obtain ⟨h', M, c', h1, h2, h3⟩ := C98_cube_violated 1 ⟨0, 0, 0⟩ 2 (by norm_num) none
    (fun k => if k = 0 then Cube 1 ⟨0, 0, 0⟩ 2 none else Sphere 1 ⟨0, 0, 0⟩ 2 none) 0 rfl
  exact ⟨h', M, c', h1, h2, by rw [h3]; norm_num⟩

end HV
