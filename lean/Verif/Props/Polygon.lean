import Verif.Lemmas.Watertight
import Verif.Props.Patches

/-!
# C61: cubes and spheres
-/

namespace HV
open Spec

/-- The parameter of grid line `i`, from -1 to 1. -/
noncomputable def gridT (n i : ℕ) : ℝ := 2 * ((i : ℝ) / n) - 1

/-- The point of the cube surface `[-1,1]³` at grid position `i`, `j` of a face. -/
noncomputable def facePt (n : ℕ) (face : String) (i j : ℕ) : V :=
  if face = "east" then ⟨1, gridT n i, gridT n j⟩ else if face = "west" then ⟨-1, gridT n i, gridT n j⟩
  else if face = "south" then ⟨gridT n i, -1, gridT n j⟩ else if face = "north" then ⟨gridT n i, 1, gridT n j⟩
  else if face = "bottom" then ⟨gridT n i, gridT n j, -1⟩ else ⟨gridT n i, gridT n j, 1⟩

theorem gridT_zero (n : ℕ) : gridT n 0 = -1 := by simp [gridT]
theorem gridT_n (n : ℕ) (hn : 1 ≤ n) : gridT n n = 1 := by
  have : (n : ℝ) ≠ 0 := by positivity
  rw [gridT, div_self this]; norm_num

theorem gridT_mem (n i : ℕ) (hn : 1 ≤ n) (hi : i ≤ n) : -1 ≤ gridT n i ∧ gridT n i ≤ 1 := by
  have hp : (0 : ℝ) < n := by positivity
  have h1 : (0 : ℝ) ≤ (i : ℝ) / n := by positivity
  have h2 : (i : ℝ) / n ≤ 1 := by rw [div_le_one hp]; exact_mod_cast hi
  unfold gridT
  constructor <;> linarith

theorem gridT_lt (n i : ℕ) (hn : 1 ≤ n) : gridT n i < gridT n (i + 1) := by
  have hp : (0 : ℝ) < n := by positivity
  unfold gridT
  have : (i : ℝ) / n < ((i + 1 : ℕ) : ℝ) / n := by
    rw [div_lt_div_iff_of_pos_right hp]; push_cast; linarith
  linarith

theorem cubeFace_grid (n : ℕ) (face : String) (hf : face ∈ faceNames) (i j : ℕ) :
    cubeFace face ((i : ℝ) / n) ((j : ℝ) / n) = .ok (facePt n face i j) := by
  simp only [faceNames, List.mem_cons, List.not_mem_nil, or_false] at hf
  rcases hf with rfl | rfl | rfl | rfl | rfl | rfl <;> rw [cubeFace_eq] <;>
    simp [faceOf, facePoint, facePt, gridT]

/-- The hexagon of cube edges along which the six faces disagree in direction. -/
noncomputable def hexagon {A : Type} [AddCommGroup A] (φ : V → V → A) (G : V → V) (n : ℕ) : A :=
  pathSum φ (fun i => G ⟨1, gridT n i, -1⟩) n + pathSum φ (fun i => G ⟨1, 1, gridT n i⟩) n
  - pathSum φ (fun i => G ⟨-1, gridT n i, 1⟩) n - pathSum φ (fun i => G ⟨-1, -1, gridT n i⟩) n
  + pathSum φ (fun i => G ⟨gridT n i, -1, -1⟩) n - pathSum φ (fun i => G ⟨gridT n i, 1, 1⟩) n

/-- The edge sum of the six faces is twice that of the hexagon. -/
theorem faces_sum {A : Type} [AddCommGroup A] (φ : V → V → A) (G : V → V) (n : ℕ) (hn : 1 ≤ n) :
    (faceNames.map fun f => bdry φ n n fun i j => G (facePt n f i j)).sum = hexagon φ G n + hexagon φ G n := by
  simp only [faceNames, List.map_cons, List.map_nil, List.sum_cons, List.sum_nil, bdry, facePt, hexagon, gridT_zero,
    gridT_n n hn, if_true]
  simp only [String.reduceEq, if_false]
  abel

/-- A component with six faces `G ∘ cubeFace`: it generates and meshes; every undirected edge is in an even number of
triangles; the directed edge sums are twice those of the hexagon. -/
theorem faces_mesh (h : Heap) (id : ℕ) (F : String → Surf) (G : V → V) (n : ℕ) (hn : 1 ≤ n)
    (hF : ∀ f ∈ faceNames, ∀ i ≤ n, ∀ j ≤ n, F f ((i : ℝ) / n) ((j : ℝ) / n) = .ok (G (facePt n f i j)))
    (hgen : (h id).gen = .into fun _ => runSteps (faceNames.map fun f => .patch f (.ok (F f))))
    (hres : (h id).stl_resolution = .int n) (hp : (h id).patches = []) (hm : (h id).mesh_ = none) (hs : (h id).surfaces = none)
    (hc : (h id).clustering = {}) :
    ∃ h' M c', generatePatches h id = (.ok (), h') ∧ (h' id).mesh = (.ok M, c') ∧ EvenEdges M.tris ∧
      (∀ (A : Type) [AddCommGroup A] (φ : V → V → A), Anti φ → edgeSum φ (edges M.tris) = hexagon φ G n + hexagon φ G n) ∧
      M.tris = ((faceNames.map fun f i j => G (facePt n f i j)).map (gridMesh MeshArith.real false n n)).flatten := by
  have hsteps : runSteps (faceNames.map fun f => GenStep.patch f (.ok (F f))) =
      ⟨faceNames.map fun f => (f, F f), [], [], none⟩ := runSteps_patches faceNames (fun f => f) F
  obtain ⟨h', M, c', hg, _, hM, ht⟩ := generated_mesh h id _ hgen n hn hres hp hm hs hc (by rw [hsteps])
    (by rw [hsteps, List.map_map]; simp [faceNames]) (by rw [hsteps]; simp [faceNames])
    (faceNames.map fun f i j => G (facePt n f i j)) (by
      rw [hsteps, List.forall₂_map_right_iff, List.forall₂_map_left_iff, List.forall₂_same]
      exact hF)
  have key : ∀ (A : Type) [AddCommGroup A] (φ : V → V → A), Anti φ →
      edgeSum φ (edges M.tris) = hexagon φ G n + hexagon φ G n := by
    intro A _ φ hφ
    rw [ht, edgeSum_grids φ hφ, List.map_map]
    exact faces_sum φ G n hn
  refine ⟨h', M, c', hg, hM, ?_, key, ht⟩
  apply evenEdges_of_edgeSum
  intro φ hφ
  rw [key _ φ hφ]
  have : ∀ x : ZMod 2, x + x = 0 := by decide
  exact this _

/-- Twice the area swept in the plane orthogonal to `z` about `c`. -/
noncomputable def swept2 (c u v : V) : ℝ := (u.x - c.x) * (v.y - c.y) - (u.y - c.y) * (v.x - c.x)

theorem swept2_anti (c : V) : Anti (swept2 c) := by
  intro a b
  unfold swept2
  ring

/-- For `G` of the form used by cube and sphere patches the hexagon sum is four times the area swept by one edge. -/
theorem hexagon_swept (g : ℝ → ℝ → ℝ) (hg : ∀ x y, g (-x) y = g x y) (hg' : ∀ x y, g x y = g y x) (a : ℝ) (c : V) (n : ℕ) :
    hexagon (swept2 c) (fun p => ⟨p.x * g p.y p.z * a + c.x, p.y * g p.x p.z * a + c.y, p.z * g p.x p.y * a + c.z⟩) n =
      4 * (a ^ 2 * g 1 1 * ∑ i ∈ Finset.range n,
        (g (gridT n i) 1 * gridT n (i + 1) - gridT n i * g (gridT n (i + 1)) 1)) := by
  have hn1 : ∀ x, g x (-1) = g x 1 := fun x => by rw [hg', hg, hg']
  have h1x : ∀ x, g 1 x = g x 1 := fun x => hg' _ _
  have hm1 : ∀ x, g (-1) x = g x 1 := fun x => by rw [hg, hg']
  unfold hexagon pathSum swept2
  simp only [hn1, hm1, h1x, add_sub_cancel_right]
  rw [Finset.mul_sum, Finset.mul_sum, ← Finset.sum_add_distrib, ← Finset.sum_sub_distrib, ← Finset.sum_sub_distrib,
    ← Finset.sum_add_distrib, ← Finset.sum_sub_distrib]
  apply Finset.sum_congr rfl
  intro i _
  ring

theorem not_closed_of_swept (m : TriMesh ℝ) (c : V) (h : edgeSum (swept2 c) (edges m) ≠ 0) : ¬ Closed m := by
  intro hc
  apply h
  exact edgeSum_eq_zero_of_balanced (swept2 c) (swept2_anti c) (fun a ha => by linarith) _ hc

/-- C61 for cubes.  It fails for every cube of non-zero size at every resolution: the mesh is not consistently oriented.
What holds (the partial claim): every undirected edge belongs to an even number of triangles, so there are no gaps. -/
theorem C61_cube_violated (a : ℝ) (centre : V) (n : ℕ) (hn : 1 ≤ n) (name : Option String) (h : Heap) (id : ℕ)
    (hid : h id = Cube a centre n name) :
    ∃ h' M c', generatePatches h id = (.ok (), h') ∧ (h' id).mesh = (.ok M, c') ∧ EvenEdges M.tris ∧
      (a ≠ 0 → ¬ Closed M.tris) := by
  obtain ⟨h', M, c', hg, hM, he, hs, -⟩ := faces_mesh h id (CubePatch a centre)
    (fun p => ⟨p.x * (fun _ _ => 1 : ℝ → ℝ → ℝ) p.y p.z * a + centre.x, p.y * (fun _ _ => 1 : ℝ → ℝ → ℝ) p.x p.z * a + centre.y,
      p.z * (fun _ _ => 1 : ℝ → ℝ → ℝ) p.x p.y * a + centre.z⟩) n hn
    (by
      intro f hf i _ j _
      simp only [CubePatch, cubeFace_grid n f hf, bind, Except.bind, pure, Except.pure, mul_one])
    (by rw [hid]; rfl) (by rw [hid]; rfl) (by rw [hid]; rfl) (by rw [hid]; rfl) (by rw [hid]; rfl) (by rw [hid]; rfl)
  refine ⟨h', M, c', hg, hM, he, ?_⟩
  intro ha
  apply not_closed_of_swept _ centre
  rw [hs ℝ _ (swept2_anti centre), hexagon_swept (fun _ _ => 1) (fun _ _ => rfl) (fun _ _ => rfl) a centre n]
  have hsum : 0 < ∑ i ∈ Finset.range n, ((1 : ℝ) * gridT n (i + 1) - gridT n i * 1) := by
    apply Finset.sum_pos
    · intro i _
      have := gridT_lt n i hn
      linarith
    · exact Finset.nonempty_range_iff.2 (by omega)
  have ha2 : 0 < a ^ 2 := by positivity
  have : 0 < a ^ 2 * 1 * ∑ i ∈ Finset.range n, ((1 : ℝ) * gridT n (i + 1) - gridT n i * 1) := by
    rw [mul_one]; exact mul_pos ha2 hsum
  linarith

/-- The factor of the sphere patches. -/
noncomputable def sphereG (y z : ℝ) : ℝ := Real.sqrt (1 - 0.5 * y * y - 0.5 * z * z + y * y * z * z / 3)

theorem sphereG_symm (x y : ℝ) : sphereG x y = sphereG y x := by
  unfold sphereG; congr 1; ring

theorem sphereG_lt (s t : ℝ) (hs : -1 ≤ s) (hst : s < t) (ht : t ≤ 1) : s * sphereG t 1 < sphereG s 1 * t := by
  have hpos : ∀ x : ℝ, -1 ≤ x → x ≤ 1 → 0 < sphereG x 1 := by
    intro x h1 h2
    apply Real.sqrt_pos.2
    nlinarith
  have hmono : ∀ x y : ℝ, x ^ 2 ≤ y ^ 2 → sphereG y 1 ≤ sphereG x 1 := by
    intro x y hxy
    apply Real.sqrt_le_sqrt
    nlinarith
  have hKs := hpos s hs (by linarith)
  have hKt := hpos t (by linarith) ht
  rcases lt_or_ge 0 s with h0 | h0
  · have := hmono s t (by nlinarith)
    nlinarith
  · rcases lt_or_ge 0 t with h1 | h1
    · nlinarith
    · have := hmono t s (by nlinarith)
      nlinarith

theorem facePt_mem (n : ℕ) (hn : 1 ≤ n) (f : String) (i j : ℕ) (hi : i ≤ n) (hj : j ≤ n) :
    ((facePt n f i j).x ^ 2 ≤ 1 ∧ (facePt n f i j).y ^ 2 ≤ 1) ∧ (facePt n f i j).z ^ 2 ≤ 1 := by
  obtain ⟨a1, a2⟩ := gridT_mem n i hn hi
  obtain ⟨b1, b2⟩ := gridT_mem n j hn hj
  have h1 : gridT n i ^ 2 ≤ 1 := by nlinarith
  have h2 : gridT n j ^ 2 ≤ 1 := by nlinarith
  unfold facePt
  split_ifs <;> simp only [one_pow, even_two.neg_pow, le_refl, h1, h2, and_self]

theorem SpherePatch_grid (r : ℝ) (centre : V) (n : ℕ) (hn : 1 ≤ n) (f : String) (hf : f ∈ faceNames) (i : ℕ) (hi : i ≤ n)
    (j : ℕ) (hj : j ≤ n) : SpherePatch r centre f ((i : ℝ) / n) ((j : ℝ) / n) =
      .ok ((fun p : V => ⟨p.x * sphereG p.y p.z * r + centre.x, p.y * sphereG p.x p.z * r + centre.y,
        p.z * sphereG p.x p.y * r + centre.z⟩) (facePt n f i j)) := by
  obtain ⟨⟨hx, hy⟩, hz⟩ := facePt_mem n hn f i j hi hj
  set p := facePt n f i j with hp
  have e1 : ∀ y z : ℝ, y ^ 2 ≤ 1 → z ^ 2 ≤ 1 → ¬ (1 - 0.5 * z * z - 0.5 * y * y + y * y * z * z / 3 < 0) := by
    intro y z hy hz
    rw [not_lt]
    nlinarith [mul_nonneg (sq_nonneg y) (sq_nonneg z)]
  have e2 : ∀ y z : ℝ, Real.sqrt (1 - 0.5 * z * z - 0.5 * y * y + y * y * z * z / 3) = sphereG y z := by
    intro y z
    unfold sphereG
    congr 1
    ring
  simp only [SpherePatch, cubeFace_grid n f hf, bind, Except.bind, pure, Except.pure, psqrt, ← hp,
    if_neg (e1 _ _ hy hz), if_neg (e1 _ _ hx hz), if_neg (e1 _ _ hx hy), e2]

/-- C61 for spheres.  It fails for every sphere of non-zero radius at every resolution: the mesh is not consistently
oriented.  What holds (the partial claim): every undirected edge belongs to an even number of triangles. -/
theorem C61_sphere_violated (r : ℝ) (centre : V) (n : ℕ) (hn : 1 ≤ n) (name : Option String) (h : Heap) (id : ℕ)
    (hid : h id = Sphere r centre n name) :
    ∃ h' M c', generatePatches h id = (.ok (), h') ∧ (h' id).mesh = (.ok M, c') ∧ EvenEdges M.tris ∧
      (r ≠ 0 → ¬ Closed M.tris) := by
  obtain ⟨h', M, c', hg, hM, he, hs, -⟩ := faces_mesh h id (SpherePatch r centre)
    (fun p => ⟨p.x * sphereG p.y p.z * r + centre.x, p.y * sphereG p.x p.z * r + centre.y,
      p.z * sphereG p.x p.y * r + centre.z⟩) n hn
    (fun f hf i hi j hj => SpherePatch_grid r centre n hn f hf i hi j hj)
    (by rw [hid]; rfl) (by rw [hid]; rfl) (by rw [hid]; rfl) (by rw [hid]; rfl) (by rw [hid]; rfl) (by rw [hid]; rfl)
  refine ⟨h', M, c', hg, hM, he, ?_⟩
  intro ha
  apply not_closed_of_swept _ centre
  rw [hs ℝ _ (swept2_anti centre), hexagon_swept sphereG (fun x y => by unfold sphereG; congr 1; ring) sphereG_symm r centre n]
  have hsum : 0 < ∑ i ∈ Finset.range n, (sphereG (gridT n i) 1 * gridT n (i + 1) - gridT n i * sphereG (gridT n (i + 1)) 1) := by
    apply Finset.sum_pos
    · intro i hi
      rw [Finset.mem_range] at hi
      have := sphereG_lt (gridT n i) (gridT n (i + 1)) (gridT_mem n i hn (by omega)).1 (gridT_lt n i hn)
        (gridT_mem n (i + 1) hn (by omega)).2
      linarith
    · exact Finset.nonempty_range_iff.2 (by omega)
  have ha2 : 0 < r ^ 2 := by positivity
  have hg1 : 0 < sphereG 1 1 := by
    apply Real.sqrt_pos.2
    norm_num
  have := mul_pos (mul_pos ha2 hg1) hsum
  linarith

/-- The partial claim of C61 on its own: cubes and spheres have no gaps, at every size, centre and resolution.  Missing:
consistent orientation, which fails. -/
theorem C61_partial (a : ℝ) (centre : V) (n : ℕ) (hn : 1 ≤ n) (name : Option String) (h : Heap) (id : ℕ)
    (hid : h id = Cube a centre n name ∨ h id = Sphere a centre n name) :
    ∃ h' M c', generatePatches h id = (.ok (), h') ∧ (h' id).mesh = (.ok M, c') ∧ EvenEdges M.tris := by
  rcases hid with hid | hid
  · obtain ⟨h', M, c', h1, h2, h3, _⟩ := C61_cube_violated a centre n hn name h id hid
    exact ⟨h', M, c', h1, h2, h3⟩
  · obtain ⟨h', M, c', h1, h2, h3, _⟩ := C61_sphere_violated a centre n hn name h id hid
    exact ⟨h', M, c', h1, h2, h3⟩

/-- The hypotheses hold for a new cube of half-size 1 and a new sphere of radius 2. -/
example : (∃ h : Heap, h 0 = Cube 1 ⟨0, 0, 0⟩ 2 none ∧ h 1 = Sphere 2 ⟨1, 0, 0⟩ 3 (some "ball")) :=
  ⟨fun i => if i = 0 then Cube 1 ⟨0, 0, 0⟩ 2 none else Sphere 2 ⟨1, 0, 0⟩ 3 (some "ball"), by simp, by simp⟩

end HV
