import Verif.Props.VolumeError
import Verif.Props.PolygonVolume
import Verif.Props.Motion

/-!
# C162: how far the surface area of the mesh of a body of revolution is off
-/

namespace HV
open Spec

namespace Spec

/-- The lateral area of the frusta of cones swept by segments of the half plane `z = 0`: `π (r + r')` times the length of the segment. -/
noncomputable def frustaArea (segs : List (V × V)) : ℝ :=
  (segs.map fun s => Real.pi * (s.1.y + s.2.y) * √((s.2.x - s.1.x) ^ 2 + (s.2.y - s.1.y) ^ 2)).sum

/-- The lateral area of the frusta of pyramids with `N` sides whose corners are on those cones: every side is a trapezium with the parallel sides
`2 r sin (π / N)` and `2 r' sin (π / N)`. -/
noncomputable def pyramidArea (N : ℕ) (segs : List (V × V)) : ℝ :=
  (segs.map fun s => N * (((2 * s.1.y * Real.sin (Real.pi / N) + 2 * s.2.y * Real.sin (Real.pi / N)) / 2) *
    √((s.2.x - s.1.x) ^ 2 + ((s.2.y - s.1.y) * Real.cos (Real.pi / N)) ^ 2))).sum

/-- The chords of a curve over `n` equal parts of its parameter. -/
noncomputable def chords (f : ℝ → V) (n : ℕ) : List (V × V) :=
  (List.range n).map fun (i : ℕ) => (f ((i : ℝ) / n), f (((i + 1 : ℕ) : ℝ) / n))

end Spec

/-! ## One cell -/

theorem isMotion_revolveRot (a : ℝ) : IsMotion (revolveRot a) := by
  have h := Real.sin_sq_add_cos_sq a
  refine ⟨!![1, 0, 0; 0, Real.cos a, Real.sin a; 0, -Real.sin a, Real.cos a], 0, ?_, fun p => ?_⟩
  · rw [Matrix.mem_specialOrthogonalGroup_iff, Matrix.mem_orthogonalGroup_iff]
    constructor
    · ext j k
      fin_cases j <;> fin_cases k <;> simp [Matrix.mul_apply, Fin.sum_univ_three] <;> linarith
    · rw [Matrix.det_fin_three]
      simp
      linarith
  · ext j
    fin_cases j <;> simp [toF, revolveRot] <;> ring

theorem cell_rotated (b : ℝ) (p q r s : V) : cellTris MeshArith.real false (revolveRot b p) (revolveRot b q) (revolveRot b r) (revolveRot b s) =
    mapVerts (revolveRot b) (cellTris MeshArith.real false p q r s) := by
  simp only [cellTris, meshVertex_real, cellCentre_revolveRot, mapVerts, List.map_cons, List.map_nil]

theorem root_scaled {w H A : ℝ} (hw : 0 ≤ w) (h : A = w ^ 2 * H) : √A = w * √H := by
  rw [h, Real.sqrt_mul (sq_nonneg w), Real.sqrt_sq hw]

/-- The four triangles of a cell of a revolved grid make up a plane trapezium. -/
theorem revolve_cell_area (p q : V) (a d : ℝ) (hp : 0 ≤ p.y) (hq : 0 ≤ q.y) (hpz : p.z = 0) (hqz : q.z = 0) (hd : 0 ≤ Real.sin (d / 2)) :
    surfaceArea (cellTris MeshArith.real false (revolveRot a p) (revolveRot a q) (revolveRot (a + d) p) (revolveRot (a + d) q)) =
      (p.y + q.y) * Real.sin (d / 2) * √((q.x - p.x) ^ 2 + ((q.y - p.y) * Real.cos (d / 2)) ^ 2) := by
  have e1 : ∀ u, revolveRot a u = revolveRot (a + d / 2) (revolveRot (-(d / 2)) u) := fun u => by
    rw [← revolveRot_add]; congr 1; ring
  have e2 : ∀ u, revolveRot (a + d) u = revolveRot (a + d / 2) (revolveRot (d / 2) u) := fun u => by
    rw [← revolveRot_add]; congr 1; ring
  rw [e1, e1, e2, e2, cell_rotated, surfaceArea_motion _ (isMotion_revolveRot _)]
  set s := Real.sin (d / 2) with hs
  set c := Real.cos (d / 2) with hc
  set H := (q.x - p.x) ^ 2 + ((q.y - p.y) * c) ^ 2 with hH
  have m1 : ∀ u : V, u.z = 0 → revolveRot (-(d / 2)) u = ⟨u.x, u.y * c, u.y * s⟩ := fun u hu => by
    ext <;> simp [revolveRot, hu, hs, hc]
  have m2 : ∀ u : V, u.z = 0 → revolveRot (d / 2) u = ⟨u.x, u.y * c, -(u.y * s)⟩ := fun u hu => by
    ext <;> simp [revolveRot, hu, hs, hc]
  rw [m1 p hpz, m1 q hqz, m2 p hpz, m2 q hqz]
  simp only [cellTris, meshVertex_real]
  set ctr := cellCentre MeshArith.real (⟨p.x, p.y * c, p.y * s⟩ : V) ⟨q.x, q.y * c, q.y * s⟩ ⟨p.x, p.y * c, -(p.y * s)⟩ ⟨q.x, q.y * c, -(q.y * s)⟩ with hctr
  have hcc : ctr = ⟨(p.x + q.x) / 2, (p.y + q.y) / 2 * c, 0⟩ := by
    rw [hctr]
    ext <;> simp [cellCentre, MeshArith.real] <;> ring
  rw [hcc]
  have A : ∀ (t : Tri ℝ) (w : ℝ), 0 ≤ w → triArea2 t 0 ^ 2 + triArea2 t 1 ^ 2 + triArea2 t 2 ^ 2 = w ^ 2 * H →
      √(triArea2 t 0 ^ 2 + triArea2 t 1 ^ 2 + triArea2 t 2 ^ 2) = w * √H := fun t w hw h => root_scaled hw h
  simp only [surfaceArea, List.map_cons, List.map_nil, List.sum_cons, List.sum_nil]
  rw [A _ ((p.y + q.y) / 2 * s) (by positivity) ?_, A _ (q.y * s) (by positivity) ?_,
    A _ ((p.y + q.y) / 2 * s) (by positivity) ?_, A _ (p.y * s) (by positivity) ?_]
  · ring
  all_goals
    simp [triArea2, hH]
    ring

/-! ## All cells -/

theorem line_grids_area (a b : V) (n : ℕ) (hn : 1 ≤ n) (ha : 0 ≤ a.y) (hb : 0 ≤ b.y) (haz : a.z = 0) (hbz : b.z = 0) :
    surfaceArea (((List.range 4).map (revolveGrid (lineAt a b) n)).map (gridMesh MeshArith.real false n n)).flatten = pyramidArea (4 * n) [(a, b)] := by
  have hnp : (0 : ℝ) < n := by positivity
  have hn0 : (n : ℝ) ≠ 0 := hnp.ne'
  set d : ℝ := 2 * Real.pi / (4 * n : ℕ) with hd
  have hd2 : d / 2 = Real.pi / (4 * n : ℕ) := by rw [hd]; ring
  have hs : 0 ≤ Real.sin (d / 2) := by
    rw [hd2]
    refine Real.sin_nonneg_of_nonneg_of_le_pi (by positivity) (div_le_self Real.pi_pos.le ?_)
    have : 1 ≤ 4 * n := by omega
    exact_mod_cast this
  set F : ℕ → V := fun i => lineAt a b ((i : ℝ) / n) with hF
  have Fx : ∀ i, (F i).x = a.x + (b.x - a.x) * (i / n) := fun i => by simp [hF, lineAt]; ring
  have Fy : ∀ i, (F i).y = a.y + (b.y - a.y) * (i / n) := fun i => by simp [hF, lineAt]; ring
  have Fz : ∀ i, (F i).z = 0 := fun i => by simp [hF, lineAt, haz, hbz]
  have Fy0 : ∀ i ≤ n, 0 ≤ (F i).y := fun i hi => by
    have h1 : (i : ℝ) / n ≤ 1 := by rw [div_le_one hnp]; exact_mod_cast hi
    have h0 : 0 ≤ (i : ℝ) / n := by positivity
    rw [Fy]
    nlinarith
  set S := √((b.x - a.x) ^ 2 + ((b.y - a.y) * Real.cos (d / 2)) ^ 2) with hS
  have hroot : ∀ i : ℕ, √(((F (i + 1)).x - (F i).x) ^ 2 + (((F (i + 1)).y - (F i).y) * Real.cos (d / 2)) ^ 2) = 1 / n * S := by
    intro i
    refine root_scaled (by positivity) ?_
    rw [Fx, Fx, Fy, Fy]
    push_cast
    field_simp
    ring
  have hcell : ∀ k, surfaceArea (gridMesh MeshArith.real false n n (revolveGrid (lineAt a b) n k)) = ∑ i ∈ Finset.range n,
      n * (((F i).y + (F (i + 1)).y) * Real.sin (d / 2) * (1 / n * S)) := by
    intro k
    rw [surfaceArea_grid]
    apply Finset.sum_congr rfl
    intro i hi
    have hi := Finset.mem_range.1 hi
    have : ∀ j ∈ Finset.range n, surfaceArea (cellTris MeshArith.real false (revolveGrid (lineAt a b) n k i j) (revolveGrid (lineAt a b) n k (i + 1) j)
        (revolveGrid (lineAt a b) n k i (j + 1)) (revolveGrid (lineAt a b) n k (i + 1) (j + 1))) =
        ((F i).y + (F (i + 1)).y) * Real.sin (d / 2) * (1 / n * S) := by
      intro j _
      have ha : (k * Real.pi / 2) * (1 - ((j + 1 : ℕ) : ℝ) / n) + (((k : ℝ) + 1) * Real.pi / 2) * (((j + 1 : ℕ) : ℝ) / n) =
          (k * Real.pi / 2) * (1 - (j : ℝ) / n) + (((k : ℝ) + 1) * Real.pi / 2) * ((j : ℝ) / n) + d := by
        rw [hd]
        push_cast
        field_simp
        ring
      unfold revolveGrid
      rw [ha, ← hroot i]
      exact revolve_cell_area (F i) (F (i + 1)) _ _ (Fy0 i (by omega)) (Fy0 (i + 1) (by omega)) (Fz _) (Fz _) hs
    rw [Finset.sum_congr rfl this, Finset.sum_const, Finset.card_range, nsmul_eq_mul]
  have hsum : ∑ i ∈ Finset.range n, ((F i).y + (F (i + 1)).y) = n * (a.y + b.y) := by
    have h1 : ∀ m : ℕ, ∑ i ∈ Finset.range m, ((F i).y + (F (i + 1)).y) = 2 * a.y * m + (b.y - a.y) * (m ^ 2 / n) := by
      intro m
      induction m with
      | zero => simp
      | succ m ih =>
        rw [Finset.sum_range_succ, ih, Fy, Fy]
        push_cast
        field_simp
        ring
    rw [h1]
    field_simp
    ring
  rw [surfaceArea_flatten, List.map_map, List.map_map, sum_map_range]
  simp only [Function.comp_def, hcell, Finset.sum_const, Finset.card_range, nsmul_eq_mul]
  rw [← Finset.mul_sum, ← Finset.sum_mul, ← Finset.sum_mul, hsum]
  simp only [pyramidArea, List.map_cons, List.map_nil, List.sum_cons, List.sum_nil, add_zero, ← hd2, ← hS]
  push_cast
  field_simp

theorem curve_grids_area (f : ℝ → V) (n : ℕ) (hn : 1 ≤ n) (hz : ∀ t, 0 ≤ t → t ≤ 1 → (f t).z = 0) (hy : ∀ t, 0 ≤ t → t ≤ 1 → 0 ≤ (f t).y) :
    surfaceArea (((List.range 4).map (revolveGrid f n)).map (gridMesh MeshArith.real false n n)).flatten = pyramidArea (4 * n) (chords f n) := by
  have hnp : (0 : ℝ) < n := by positivity
  have hn0 : (n : ℝ) ≠ 0 := hnp.ne'
  set d : ℝ := 2 * Real.pi / (4 * n : ℕ) with hd
  have hd2 : d / 2 = Real.pi / (4 * n : ℕ) := by rw [hd]; ring
  have hs : 0 ≤ Real.sin (d / 2) := by
    rw [hd2]
    refine Real.sin_nonneg_of_nonneg_of_le_pi (by positivity) (div_le_self Real.pi_pos.le ?_)
    have : 1 ≤ 4 * n := by omega
    exact_mod_cast this
  have h01 : ∀ i ≤ n, 0 ≤ (i : ℝ) / n ∧ (i : ℝ) / n ≤ 1 := fun i hi => ⟨by positivity, by rw [div_le_one hnp]; exact_mod_cast hi⟩
  set F : ℕ → V := fun i => f ((i : ℝ) / n) with hF
  set S : ℕ → ℝ := fun i => ((F i).y + (F (i + 1)).y) * Real.sin (d / 2) *
    √(((F (i + 1)).x - (F i).x) ^ 2 + (((F (i + 1)).y - (F i).y) * Real.cos (d / 2)) ^ 2) with hS
  have hcell : ∀ k, surfaceArea (gridMesh MeshArith.real false n n (revolveGrid f n k)) = ∑ i ∈ Finset.range n, n * S i := by
    intro k
    rw [surfaceArea_grid]
    apply Finset.sum_congr rfl
    intro i hi
    have hi := Finset.mem_range.1 hi
    have : ∀ j ∈ Finset.range n, surfaceArea (cellTris MeshArith.real false (revolveGrid f n k i j) (revolveGrid f n k (i + 1) j)
        (revolveGrid f n k i (j + 1)) (revolveGrid f n k (i + 1) (j + 1))) = S i := by
      intro j _
      have ha : (k * Real.pi / 2) * (1 - ((j + 1 : ℕ) : ℝ) / n) + (((k : ℝ) + 1) * Real.pi / 2) * (((j + 1 : ℕ) : ℝ) / n) =
          (k * Real.pi / 2) * (1 - (j : ℝ) / n) + (((k : ℝ) + 1) * Real.pi / 2) * ((j : ℝ) / n) + d := by
        rw [hd]
        push_cast
        field_simp
        ring
      have a := h01 i (by omega)
      have b := h01 (i + 1) (by omega)
      unfold revolveGrid
      rw [ha]
      exact revolve_cell_area (F i) (F (i + 1)) _ _ (hy _ a.1 a.2) (hy _ b.1 b.2) (hz _ a.1 a.2) (hz _ b.1 b.2) hs
    rw [Finset.sum_congr rfl this, Finset.sum_const, Finset.card_range, nsmul_eq_mul]
  rw [surfaceArea_flatten, List.map_map, List.map_map, sum_map_range]
  simp only [Function.comp_def, hcell, Finset.sum_const, Finset.card_range, nsmul_eq_mul]
  rw [pyramidArea, chords, List.map_map, sum_map_range, Finset.mul_sum]
  apply Finset.sum_congr rfl
  intro i _
  simp only [Function.comp_def, ← hd2, hS, hF]
  push_cast
  ring

theorem pyramidArea_cons (N : ℕ) (s : V × V) (segs : List (V × V)) : pyramidArea N (s :: segs) = pyramidArea N [s] + pyramidArea N segs := by
  simp [pyramidArea]

theorem stack_area (n : ℕ) (hn : 1 ≤ n) (segs : List (V × V)) (hz : ∀ s ∈ segs, s.1.z = 0 ∧ s.2.z = 0) (hy : ∀ s ∈ segs, 0 ≤ s.1.y ∧ 0 ≤ s.2.y) :
    surfaceArea ((allGrids n (segs.map fun s => lineAt s.1 s.2)).map (gridMesh MeshArith.real false n n)).flatten = pyramidArea (4 * n) segs := by
  induction segs with
  | nil => simp [allGrids, surfaceArea, pyramidArea]
  | cons s segs ih =>
    have h1 := hz s (by simp)
    have h2 := hy s (by simp)
    have := ih (fun s' hs' => hz s' (by simp [hs'])) fun s' hs' => hy s' (by simp [hs'])
    unfold allGrids at this ⊢
    rw [List.map_cons, List.flatMap_cons, List.map_append, List.flatten_append, pyramidArea_cons, ← this,
      ← line_grids_area s.1 s.2 n hn h2.1 h2.2 h1.1 h1.2]
    simp [surfaceArea]

/-! ## Comparison with the cones -/

theorem pyramid_bounds (n : ℕ) (hn : 1 ≤ n) (s : V × V) (h1 : 0 ≤ s.1.y) (h2 : 0 ≤ s.2.y) :
    pyramidArea (4 * n) [s] ≤ frustaArea [s] ∧ polyArea n / Real.pi * frustaArea [s] ≤ pyramidArea (4 * n) [s] := by
  have hp := Real.pi_pos
  set N : ℝ := ((4 * n : ℕ) : ℝ) with hN
  have hN4 : 4 ≤ N := by
    have : 4 ≤ 4 * n := by omega
    rw [hN]; exact_mod_cast this
  have hN0 : 0 < N := by linarith
  set t := Real.pi / N with ht
  have ht0 : 0 < t := by positivity
  have htN : N * t = Real.pi := by rw [ht]; field_simp
  have ht2 : t < Real.pi / 2 := by rw [ht]; exact div_lt_div_of_pos_left hp (by norm_num) (by linarith)
  have hc0 : 0 < Real.cos t := Real.cos_pos_of_mem_Ioo ⟨by linarith, ht2⟩
  have hc1 := Real.cos_le_one t
  have hs0 : 0 < Real.sin t := Real.sin_pos_of_pos_of_lt_pi ht0 (by linarith)
  have hst := Real.sin_lt ht0
  have hpoly : polyArea n = N * (Real.sin t * Real.cos t) := by
    unfold polyArea
    rw [← hN, show 2 * Real.pi / N = 2 * t by rw [ht]; ring, Real.sin_two_mul]
    ring
  set A := (s.2.x - s.1.x) ^ 2 with hA
  set D := s.2.y - s.1.y with hD
  have hA0 : 0 ≤ A := sq_nonneg _
  have r1 : √(A + (D * Real.cos t) ^ 2) ≤ √(A + D ^ 2) := by
    apply Real.sqrt_le_sqrt
    have : Real.cos t ^ 2 ≤ 1 := by nlinarith
    nlinarith [sq_nonneg D]
  have r2 : Real.cos t * √(A + D ^ 2) ≤ √(A + (D * Real.cos t) ^ 2) := by
    rw [← root_scaled (w := Real.cos t) (H := A + D ^ 2) hc0.le rfl]
    apply Real.sqrt_le_sqrt
    have : Real.cos t ^ 2 ≤ 1 := by nlinarith
    nlinarith [sq_nonneg D]
  have e1 : pyramidArea (4 * n) [s] = N * Real.sin t * ((s.1.y + s.2.y) * √(A + (D * Real.cos t) ^ 2)) := by
    simp only [pyramidArea, List.map_cons, List.map_nil, List.sum_cons, List.sum_nil, ← hN, ← ht, ← hA, ← hD]
    ring
  have e2 : frustaArea [s] = Real.pi * ((s.1.y + s.2.y) * √(A + D ^ 2)) := by
    simp only [frustaArea, List.map_cons, List.map_nil, List.sum_cons, List.sum_nil, ← hA, ← hD]
    ring
  have hy : 0 ≤ s.1.y + s.2.y := by linarith
  rw [e1, e2, hpoly]
  constructor
  · refine mul_le_mul ?_ (mul_le_mul_of_nonneg_left r1 hy) (by positivity) hp.le
    rw [← htN]
    exact mul_le_mul_of_nonneg_left hst.le hN0.le
  · have : N * (Real.sin t * Real.cos t) / Real.pi * (Real.pi * ((s.1.y + s.2.y) * √(A + D ^ 2))) =
        N * Real.sin t * ((s.1.y + s.2.y) * (Real.cos t * √(A + D ^ 2))) := by
      field_simp
    rw [this]
    exact mul_le_mul_of_nonneg_left (mul_le_mul_of_nonneg_left r2 hy) (by positivity)

theorem pyramids_bounds (n : ℕ) (hn : 1 ≤ n) (segs : List (V × V)) (hy : ∀ s ∈ segs, 0 ≤ s.1.y ∧ 0 ≤ s.2.y) :
    pyramidArea (4 * n) segs ≤ frustaArea segs ∧ polyArea n / Real.pi * frustaArea segs ≤ pyramidArea (4 * n) segs := by
  induction segs with
  | nil => simp [pyramidArea, frustaArea]
  | cons s segs ih =>
    have h1 := hy s (by simp)
    obtain ⟨i1, i2⟩ := ih fun s' hs' => hy s' (by simp [hs'])
    obtain ⟨k1, k2⟩ := pyramid_bounds n hn s h1.1 h1.2
    have e : frustaArea (s :: segs) = frustaArea [s] + frustaArea segs := by simp [frustaArea]
    rw [pyramidArea_cons, e, mul_add]
    exact ⟨add_le_add k1 i1, add_le_add k2 i2⟩

theorem pyramids_fraction (n : ℕ) (hn : 1 ≤ n) (segs : List (V × V)) (hy : ∀ s ∈ segs, 0 ≤ s.1.y ∧ 0 ≤ s.2.y) :
    pyramidArea (4 * n) segs ≤ frustaArea segs ∧ frustaArea segs * (1 - Real.pi ^ 2 / (24 * n ^ 2)) ≤ pyramidArea (4 * n) segs := by
  have hp := Real.pi_pos
  obtain ⟨b1, b2⟩ := pyramids_bounds n hn segs hy
  have hf : 0 ≤ frustaArea segs := by
    unfold frustaArea
    refine List.sum_nonneg fun x hx => ?_
    obtain ⟨s, hs, rfl⟩ := List.mem_map.1 hx
    have := hy s hs
    exact mul_nonneg (mul_nonneg hp.le (add_nonneg this.1 this.2)) (Real.sqrt_nonneg _)
  refine ⟨b1, le_trans ?_ b2⟩
  rw [mul_comm]
  refine mul_le_mul_of_nonneg_right ?_ hf
  rw [le_div_iff₀ hp, mul_comm]
  exact (polyArea_gt n hn).le

theorem pyramids_mono (n m : ℕ) (hn : 1 ≤ n) (hnm : n ≤ m) (segs : List (V × V)) (hy : ∀ s ∈ segs, 0 ≤ s.1.y ∧ 0 ≤ s.2.y) :
    pyramidArea (4 * n) segs ≤ pyramidArea (4 * m) segs := by
  rcases hnm.eq_or_lt with rfl | hlt
  · exact le_rfl
  have hp := Real.pi_pos
  set N : ℝ := ((4 * n : ℕ) : ℝ) with hN
  set M : ℝ := ((4 * m : ℕ) : ℝ) with hM
  have hN4 : 4 ≤ N := by
    have : 4 ≤ 4 * n := by omega
    rw [hN]; exact_mod_cast this
  have hNM : N < M := by
    have : 4 * n < 4 * m := by omega
    rw [hN, hM]; exact_mod_cast this
  have hN0 : 0 < N := by linarith
  have hM0 : 0 < M := by linarith
  have htt : Real.pi / M < Real.pi / N := div_lt_div_of_pos_left hp hN0 hNM
  have hM1 : 0 < Real.pi / M := by positivity
  have hN2 : Real.pi / N ≤ Real.pi / 4 := div_le_div_of_nonneg_left hp.le (by norm_num) hN4
  have hsin : N * Real.sin (Real.pi / N) ≤ M * Real.sin (Real.pi / M) := by
    have := sin_div_anti _ _ hM1 htt (by linarith)
    have e : ∀ X : ℝ, 0 < X → Real.sin (Real.pi / X) / (Real.pi / X) = X * Real.sin (Real.pi / X) / Real.pi := fun X hX => by field_simp
    rw [e N hN0, e M hM0] at this
    exact ((div_lt_div_iff_of_pos_right hp).1 this).le
  have hcos : Real.cos (Real.pi / N) ≤ Real.cos (Real.pi / M) := Real.cos_le_cos_of_nonneg_of_le_pi hM1.le (by linarith) htt.le
  have hc0 : 0 ≤ Real.cos (Real.pi / N) := Real.cos_nonneg_of_mem_Icc ⟨by linarith, by linarith⟩
  have hs0 : 0 ≤ Real.sin (Real.pi / M) := Real.sin_nonneg_of_nonneg_of_le_pi hM1.le (by linarith)
  unfold pyramidArea
  refine List.sum_le_sum fun s hs => ?_
  have hy1 := hy s hs
  rw [← hN, ← hM]
  have e : ∀ (X r : ℝ), X * ((2 * s.1.y * Real.sin (Real.pi / X) + 2 * s.2.y * Real.sin (Real.pi / X)) / 2 * r) =
      X * Real.sin (Real.pi / X) * ((s.1.y + s.2.y) * r) := fun X r => by ring
  rw [e, e]
  refine mul_le_mul hsin (mul_le_mul_of_nonneg_left (Real.sqrt_le_sqrt ?_) (by linarith [hy1.1, hy1.2])) (mul_nonneg (by linarith [hy1.1, hy1.2]) (Real.sqrt_nonneg _))
    (by positivity)
  have := mul_le_mul hcos hcos hc0 (hc0.trans hcos)
  have hD := sq_nonneg (s.2.y - s.1.y)
  rw [mul_pow, mul_pow]
  have : Real.cos (Real.pi / N) ^ 2 ≤ Real.cos (Real.pi / M) ^ 2 := by rw [sq, sq]; exact this
  linarith [mul_le_mul_of_nonneg_left this hD]

/-! ## The claims -/

/-- C162: the surface area of the mesh of a body of revolution made of straight lines, in the half plane `y ≥ 0`, is at every resolution `n` exactly that of
frusta of pyramids with `4 n` sides on the cones.  It is never larger than the area of the cones, and lacks at most the fraction `π² / (24 n²)` of it. -/
theorem C162_straight (h : Heap) (id : ℕ) (ids : List ℕ) (segs : List (V × V)) (n : ℕ) (hb : StraightBody h id ids segs n)
    (hy : ∀ s ∈ segs, 0 ≤ s.1.y ∧ 0 ≤ s.2.y) :
    ∃ h' M c', generatePatches h id = (.ok (), h') ∧ (h' id).mesh = (.ok M, c') ∧ surfaceArea M.tris = pyramidArea (4 * n) segs ∧
      surfaceArea M.tris ≤ frustaArea segs ∧ frustaArea segs * (1 - Real.pi ^ 2 / (24 * n ^ 2)) ≤ surfaceArea M.tris := by
  have hp := Real.pi_pos
  have hc : List.Forall₂ (fun k line => NewRevolved (h k) line) ids (segs.map fun s => Line s.1 s.2) := by
    rw [List.forall₂_map_right_iff]; exact hb.parts
  have hl : List.Forall₂ (fun (line : PathObj) (f : ℝ → V) => ∀ t, 0 ≤ t → t ≤ 1 → line.call t = .ok (f t))
      (segs.map fun s => Line s.1 s.2) (segs.map fun s => lineAt s.1 s.2) := by
    rw [List.forall₂_map_left_iff, List.forall₂_map_right_iff, List.forall₂_same]
    exact fun s _ t _ _ => rfl
  obtain ⟨h', M, c', g1, g2, -, g3⟩ := revolved_composite_mesh h id ids _ _ hb.nodup hb.notin hb.nonempty hb.gen hc hl n hb.pos hb.res
    hb.mesh hb.surf hb.clust
  have e : surfaceArea M.tris = pyramidArea (4 * n) segs := by rw [g3, stack_area n hb.pos segs hb.plane hy]
  obtain ⟨b1, b2⟩ := pyramids_fraction n hb.pos segs hy
  exact ⟨h', M, c', g1, g2, e, by rw [e]; exact b1, by rw [e]; exact b2⟩

/-- C162: a finer mesh of such a body never has a smaller area. -/
theorem C162_finer (h k : Heap) (id jd : ℕ) (ids jds : List ℕ) (segs : List (V × V)) (n m : ℕ) (hb : StraightBody h id ids segs n)
    (hk : StraightBody k jd jds segs m) (hnm : n ≤ m) (hy : ∀ s ∈ segs, 0 ≤ s.1.y ∧ 0 ≤ s.2.y) :
    ∃ h' M c' k' N d', generatePatches h id = (.ok (), h') ∧ (h' id).mesh = (.ok M, c') ∧
      generatePatches k jd = (.ok (), k') ∧ (k' jd).mesh = (.ok N, d') ∧ surfaceArea M.tris ≤ surfaceArea N.tris := by
  obtain ⟨h', M, c', g1, g2, g4, -⟩ := C162_straight h id ids segs n hb hy
  obtain ⟨k', N, d', k1, k2, k4, -⟩ := C162_straight k jd jds segs m hk hy
  exact ⟨h', M, c', k', N, d', g1, g2, k1, k2, by rw [g4, k4]; exact pyramids_mono n m hb.pos hnm segs hy⟩

/-- C162: the mesh of a single revolved curve, planar and on one side of the axis, has exactly the area of the frusta of pyramids with `4 n` sides over its `n` chords.
It is at most the area which the chords sweep and lacks at most the fraction `π² / (24 n²)` of that. -/
theorem C162_curved (line : PathObj) (f : ℝ → V) (hl : ∀ t, 0 ≤ t → t ≤ 1 → line.call t = .ok (f t)) (hz : ∀ t, 0 ≤ t → t ≤ 1 → (f t).z = 0)
    (hy : ∀ t, 0 ≤ t → t ≤ 1 → 0 ≤ (f t).y) (n : ℕ) (hn : 1 ≤ n) (name : Option String) (h : Heap) (id : ℕ)
    (hid : h id = RevolvedComponent line n name) :
    ∃ h' M c', generatePatches h id = (.ok (), h') ∧ (h' id).mesh = (.ok M, c') ∧ surfaceArea M.tris = pyramidArea (4 * n) (chords f n) ∧
      surfaceArea M.tris ≤ frustaArea (chords f n) ∧ frustaArea (chords f n) * (1 - Real.pi ^ 2 / (24 * n ^ 2)) ≤ surfaceArea M.tris := by
  have hp := Real.pi_pos
  have hnp : (0 : ℝ) < n := by positivity
  obtain ⟨h', M, c', g1, g2, g3⟩ := revolved_mesh line f hl n hn name h id hid
  have e : surfaceArea M.tris = pyramidArea (4 * n) (chords f n) := by rw [g3, curve_grids_area f n hn hz hy]
  have h01 : ∀ i ≤ n, 0 ≤ (i : ℝ) / n ∧ (i : ℝ) / n ≤ 1 := fun i hi => ⟨by positivity, by rw [div_le_one hnp]; exact_mod_cast hi⟩
  have hc : ∀ s ∈ chords f n, 0 ≤ s.1.y ∧ 0 ≤ s.2.y := by
    intro s hs
    obtain ⟨i, hi, rfl⟩ := List.mem_map.1 hs
    have hi := List.mem_range.1 hi
    have a := h01 i (by omega)
    have b := h01 (i + 1) (by omega)
    exact ⟨hy _ a.1 a.2, hy _ b.1 b.2⟩
  obtain ⟨b1, b2⟩ := pyramids_fraction n hn _ hc
  exact ⟨h', M, c', g1, g2, e, by rw [e]; exact b1, by rw [e]; exact b2⟩

/-- A parabolic nose meets the hypotheses of `C162_curved`. -/
example : ∃ (line : PathObj) (f : ℝ → V), (∀ t, 0 ≤ t → t ≤ 1 → line.call t = .ok (f t)) ∧ (∀ t, 0 ≤ t → t ≤ 1 → (f t).z = 0) ∧
    (∀ t, 0 ≤ t → t ≤ 1 → 0 ≤ (f t).y) ∧ f 0 ≠ f 1 :=
  ⟨⟨fun t => .ok ⟨t, t * (2 - t), 0⟩, .error .notImpl⟩, fun t => ⟨t, t * (2 - t), 0⟩, fun _ _ _ => rfl, fun _ _ _ => rfl,
    fun t h0 h1 => mul_nonneg h0 (by linarith), fun h => by have := congrArg Vec.x h; norm_num at this⟩

/-- The cone of radius 1 and height 3 with its base has the area `π √10 + π`. -/
example : ∃ h' M c', generatePatches coneHeap 0 = (.ok (), h') ∧ (h' 0).mesh = (.ok M, c') ∧
    surfaceArea M.tris ≤ Real.pi * √10 + Real.pi ∧ (Real.pi * √10 + Real.pi) * (1 - Real.pi ^ 2 / (24 * 8 ^ 2)) ≤ surfaceArea M.tris := by
  have hb : StraightBody coneHeap 0 [1, 2] [(⟨0, 0, 0⟩, ⟨3, 1, 0⟩), (⟨3, 1, 0⟩, ⟨3, 0, 0⟩)] 8 := by
    refine ⟨by decide, by decide, by decide, rfl, .cons ⟨rfl, rfl⟩ (.cons ⟨rfl, rfl⟩ .nil), by simp, ⟨0, 3, ?_⟩, rfl, by norm_num, rfl, rfl, rfl⟩
    refine ⟨?_, ?_, ?_⟩ <;> ext <;> simp [lineAt]
  obtain ⟨h', M, c', g1, g2, -, g3, g4⟩ := C162_straight coneHeap 0 _ _ 8 hb (by simp)
  have e : frustaArea [(⟨0, 0, 0⟩, ⟨3, 1, 0⟩), (⟨3, 1, 0⟩, ⟨3, 0, 0⟩)] = Real.pi * √10 + Real.pi := by
    simp [frustaArea]
    norm_num
  rw [e] at g3 g4
  exact ⟨h', M, c', g1, g2, g3, by exact_mod_cast g4⟩

end HV
