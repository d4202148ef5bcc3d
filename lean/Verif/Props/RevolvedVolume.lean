import Verif.Props.Revolved
import Verif.Lemmas.Volume
import Verif.Props.Bezier
import Mathlib.Analysis.SpecialFunctions.Integrals.Basic
import Mathlib.MeasureTheory.Integral.DivergenceTheorem
import Mathlib.Analysis.SpecialFunctions.Trigonometric.Sinc

/-!
# C97: the volume of revolved bodies
-/

namespace HV
open Spec

/-- The volume enclosed by a stack of prismatoids over regular polygons with `N` corners: the polygons have their centres at
`x 0, ..., x n` on the axis, and the corner number 0 of polygon `i` is at `u i` in the plane orthogonal to the axis (so its
area is `N / 2 * sin (2π / N) * |u i|²`). -/
noncomputable def Spec.polygonalVolume (N n : ℕ) (x : ℕ → ℝ) (u : ℕ → ℝ × ℝ) : ℝ :=
  N / 2 * Real.sin (2 * Real.pi / N) * ∑ i ∈ Finset.range n, (x (i + 1) - x i) *
    (((u i).1 ^ 2 + (u i).2 ^ 2) + ((u i).1 * (u (i + 1)).1 + (u i).2 * (u (i + 1)).2) +
      ((u (i + 1)).1 ^ 2 + (u (i + 1)).2 ^ 2)) / 3

/-- Rotation keeps the volume of a tetrahedron on the origin. -/
theorem det3_revolveRot (a : ℝ) (p q r : V) : det3 (revolveRot a p) (revolveRot a q) (revolveRot a r) = det3 p q r := by
  have h := Real.sin_sq_add_cos_sq a
  simp only [det3, revolveRot]
  linear_combination (p.x * (q.y * r.z - q.z * r.y) - p.y * (q.x * r.z - q.z * r.x) + p.z * (q.x * r.y - q.y * r.x)) * h

theorem revolveRot_add (a d : ℝ) (p : V) : revolveRot (a + d) p = revolveRot a (revolveRot d p) := by
  simp only [revolveRot, Real.cos_add, Real.sin_add]
  ext <;> simp <;> ring

theorem cellCentre_revolveRot (a : ℝ) (p q r s : V) : cellCentre MeshArith.real (revolveRot a p) (revolveRot a q)
    (revolveRot a r) (revolveRot a s) = revolveRot a (cellCentre MeshArith.real p q r s) := by
  simp only [cellCentre, MeshArith.real, revolveRot]
  ext <;> simp <;> ring

/-- The volume under one cell of a revolved grid. -/
theorem revolve_cell (p q : V) (a d : ℝ) :
    signedVolume (cellTris MeshArith.real false (revolveRot a p) (revolveRot a q) (revolveRot (a + d) p) (revolveRot (a + d) q)) =
      Real.sin d / 6 * ((q.x - p.x) * (p.y * q.y + p.z * q.z) + q.x * (p.y ^ 2 + p.z ^ 2) - p.x * (q.y ^ 2 + q.z ^ 2)) := by
  have h := Real.sin_sq_add_cos_sq d
  simp only [cellTris, meshVertex_real, signedVolume, List.map_cons, List.map_nil, List.sum_cons, List.sum_nil, revolveRot_add,
    cellCentre_revolveRot, det3_revolveRot]
  simp only [cellCentre, MeshArith.real, det3, revolveRot]
  linear_combination ((q.x + p.x) / 12 * (q.y * p.z - q.z * p.y)) * h

/-- The volume under the four grids of a revolved component. -/
theorem revolve_grids (f : ℝ → V) (n : ℕ) (hn : 1 ≤ n) :
    signedVolume (((List.range 4).map (revolveGrid f n)).map (gridMesh MeshArith.real false n n)).flatten =
      polygonalVolume (4 * n) n (fun i => (f ((i : ℝ) / n)).x) (fun i => ((f ((i : ℝ) / n)).y, (f ((i : ℝ) / n)).z)) -
      (4 * n : ℕ) / 2 * Real.sin (2 * Real.pi / (4 * n : ℕ)) *
        ((f 1).x * ((f 1).y ^ 2 + (f 1).z ^ 2) - (f 0).x * ((f 0).y ^ 2 + (f 0).z ^ 2)) / 3 := by
  have hn0 : (n : ℝ) ≠ 0 := by positivity
  set d : ℝ := 2 * Real.pi / (4 * n : ℕ) with hd
  set F : ℕ → V := fun i => f ((i : ℝ) / n) with hF
  have hcell : ∀ k, signedVolume (gridMesh MeshArith.real false n n (revolveGrid f n k)) = ∑ i ∈ Finset.range n,
      n * (Real.sin d / 6 * (((F (i + 1)).x - (F i).x) * ((F i).y * (F (i + 1)).y + (F i).z * (F (i + 1)).z) +
        (F (i + 1)).x * ((F i).y ^ 2 + (F i).z ^ 2) - (F i).x * ((F (i + 1)).y ^ 2 + (F (i + 1)).z ^ 2))) := by
    intro k
    rw [signedVolume_grid]
    apply Finset.sum_congr rfl
    intro i _
    have : ∀ j ∈ Finset.range n, signedVolume (cellTris MeshArith.real false (revolveGrid f n k i j) (revolveGrid f n k (i + 1) j)
        (revolveGrid f n k i (j + 1)) (revolveGrid f n k (i + 1) (j + 1))) =
        Real.sin d / 6 * (((F (i + 1)).x - (F i).x) * ((F i).y * (F (i + 1)).y + (F i).z * (F (i + 1)).z) +
        (F (i + 1)).x * ((F i).y ^ 2 + (F i).z ^ 2) - (F i).x * ((F (i + 1)).y ^ 2 + (F (i + 1)).z ^ 2)) := by
      intro j _
      have ha : (k * Real.pi / 2) * (1 - ((j + 1 : ℕ) : ℝ) / n) + (((k : ℝ) + 1) * Real.pi / 2) * (((j + 1 : ℕ) : ℝ) / n) =
          (k * Real.pi / 2) * (1 - (j : ℝ) / n) + (((k : ℝ) + 1) * Real.pi / 2) * ((j : ℝ) / n) + d := by
        rw [hd]
        push_cast
        field_simp
        ring
      unfold revolveGrid
      rw [ha]
      exact revolve_cell _ _ _ _
    rw [Finset.sum_congr rfl this, Finset.sum_const, Finset.card_range, nsmul_eq_mul]
  have htel : (f 1).x * ((f 1).y ^ 2 + (f 1).z ^ 2) - (f 0).x * ((f 0).y ^ 2 + (f 0).z ^ 2) =
      ∑ i ∈ Finset.range n, ((F (i + 1)).x * ((F (i + 1)).y ^ 2 + (F (i + 1)).z ^ 2) - (F i).x * ((F i).y ^ 2 + (F i).z ^ 2)) := by
    rw [Finset.sum_range_sub fun i => (F i).x * ((F i).y ^ 2 + (F i).z ^ 2)]
    simp only [hF, div_self hn0, Nat.cast_zero, zero_div]
  rw [htel, signedVolume_flatten, List.map_map, List.map_map, sum_map_range]
  simp only [Function.comp_def, hcell, Finset.sum_const, Finset.card_range, nsmul_eq_mul]
  unfold polygonalVolume
  rw [← hd, mul_div_assoc, Finset.sum_div, Finset.mul_sum, Finset.mul_sum, Finset.mul_sum, ← Finset.sum_sub_distrib]
  apply Finset.sum_congr rfl
  intro i _
  simp only [hF]
  push_cast
  ring

/-- C97: a revolved component whose line starts and ends on the axis encloses exactly the volume of the stack of prismatoids
over regular polygons of `4 n` corners through the sampled points of the line; the volume is positive when the line runs
towards positive `x`. -/
theorem C97_volume (line : PathObj) (f : ℝ → V) (hl : ∀ t, 0 ≤ t → t ≤ 1 → line.call t = .ok (f t))
    (h0 : (f 0).y = 0 ∧ (f 0).z = 0) (h1 : (f 1).y = 0 ∧ (f 1).z = 0) (n : ℕ) (hn : 1 ≤ n) (name : Option String)
    (h : Heap) (id : ℕ) (hid : h id = RevolvedComponent line n name) :
    ∃ h' M c', generatePatches h id = (.ok (), h') ∧ (h' id).mesh = (.ok M, c') ∧ Closed M.tris ∧
      signedVolume M.tris = polygonalVolume (4 * n) n (fun i => (f ((i : ℝ) / n)).x)
        (fun i => ((f ((i : ℝ) / n)).y, (f ((i : ℝ) / n)).z)) := by
  obtain ⟨h', M, c', hg, hM, ht⟩ := revolved_mesh line f hl n hn name h id hid
  obtain ⟨h'', M', c'', hg', hM', hc⟩ := C60_watertight line f hl h0 h1 n hn name h id hid
  rw [hg] at hg'
  obtain rfl : h' = h'' := congrArg Prod.snd hg'
  rw [hM] at hM'
  obtain rfl : M = M' := Except.ok.inj (congrArg Prod.fst hM')
  refine ⟨h', M, c', hg, hM, hc, ?_⟩
  rw [ht, revolve_grids f n hn, h0.1, h0.2, h1.1, h1.2]
  ring

/-! ## Convergence to the body of revolution -/

/-- The sums over the prismatoids converge to the integral of the squared radius. -/
theorem prismatoid_sum_tendsto (x y z x' : ℝ → ℝ) (s : Set ℝ) (hs : s.Countable) (L : ℝ)
    (hx : ContinuousOn x (Set.Icc 0 1)) (hy : ContinuousOn y (Set.Icc 0 1)) (hz : ContinuousOn z (Set.Icc 0 1))
    (hd : ∀ t ∈ Set.Ioo (0 : ℝ) 1 \ s, HasDerivAt x (x' t) t) (hL : ∀ t ∈ Set.Icc (0 : ℝ) 1, |x' t| ≤ L)
    (hi : IntervalIntegrable x' MeasureTheory.volume 0 1) :
    Filter.Tendsto (fun n : ℕ => ∑ i ∈ Finset.range n, (x (((i + 1 : ℕ) : ℝ) / n) - x ((i : ℝ) / n)) *
      ((y ((i : ℝ) / n) ^ 2 + z ((i : ℝ) / n) ^ 2) +
        (y ((i : ℝ) / n) * y (((i + 1 : ℕ) : ℝ) / n) + z ((i : ℝ) / n) * z (((i + 1 : ℕ) : ℝ) / n)) +
        (y (((i + 1 : ℕ) : ℝ) / n) ^ 2 + z (((i + 1 : ℕ) : ℝ) / n) ^ 2)) / 3) Filter.atTop
      (nhds (∫ t in (0 : ℝ)..1, x' t * (y t ^ 2 + z t ^ 2))) := by
  have hL0 : 0 ≤ L := (abs_nonneg _).trans (hL 0 (by simp))
  set G : ℝ × ℝ → ℝ := fun q => ((y q.1 ^ 2 + z q.1 ^ 2) + (y q.1 * y q.2 + z q.1 * z q.2) + (y q.2 ^ 2 + z q.2 ^ 2)) / 3 with hG
  have hGc : ContinuousOn G (Set.Icc 0 1 ×ˢ Set.Icc 0 1) := by
    have y1 : ContinuousOn (fun q : ℝ × ℝ => y q.1) (Set.Icc 0 1 ×ˢ Set.Icc 0 1) :=
      hy.comp continuousOn_fst fun q hq => hq.1
    have y2 : ContinuousOn (fun q : ℝ × ℝ => y q.2) (Set.Icc 0 1 ×ˢ Set.Icc 0 1) :=
      hy.comp continuousOn_snd fun q hq => hq.2
    have z1 : ContinuousOn (fun q : ℝ × ℝ => z q.1) (Set.Icc 0 1 ×ˢ Set.Icc 0 1) :=
      hz.comp continuousOn_fst fun q hq => hq.1
    have z2 : ContinuousOn (fun q : ℝ × ℝ => z q.2) (Set.Icc 0 1 ×ˢ Set.Icc 0 1) :=
      hz.comp continuousOn_snd fun q hq => hq.2
    exact (((y1.pow 2).add (z1.pow 2)).add ((y1.mul y2).add (z1.mul z2)) |>.add ((y2.pow 2).add (z2.pow 2))).div_const 3
  have hGu := (isCompact_Icc.prod isCompact_Icc).uniformContinuousOn_of_continuous hGc
  rw [Metric.uniformContinuousOn_iff] at hGu
  rw [Metric.tendsto_atTop]
  intro ε hε
  obtain ⟨δ, hδ, hGδ⟩ := hGu (ε / (L + 1)) (by positivity)
  obtain ⟨N, hN⟩ := exists_nat_gt (1 / δ)
  refine ⟨max N 1, fun n hn => ?_⟩
  have hn1 : 1 ≤ n := le_trans (le_max_right _ _) hn
  have hnp : (0 : ℝ) < n := by positivity
  have hn0 : (n : ℝ) ≠ 0 := hnp.ne'
  have hnδ : 1 / (n : ℝ) < δ := by
    rw [div_lt_comm₀ hnp hδ]
    exact hN.trans_le (by exact_mod_cast le_trans (le_max_left _ _) hn)
  set a : ℕ → ℝ := fun i => (i : ℝ) / n with ha
  have hastep : ∀ i, a (i + 1) = a i + 1 / n := fun i => by simp only [ha]; push_cast; ring
  have hamem : ∀ i ≤ n, a i ∈ Set.Icc (0 : ℝ) 1 := fun i hi =>
    ⟨by simp only [ha]; positivity, by simp only [ha]; rw [div_le_one hnp]; exact_mod_cast hi⟩
  have hsub : ∀ i < n, Set.Icc (a i) (a (i + 1)) ⊆ Set.Icc 0 1 := fun i hi =>
    Set.Icc_subset_Icc (hamem i (by omega)).1 (hamem (i + 1) (by omega)).2
  have hale : ∀ i, a i ≤ a (i + 1) := fun i => by rw [hastep]; have : 0 < 1 / (n : ℝ) := by positivity
                                                  linarith
  have hρ : ContinuousOn (fun t => y t ^ 2 + z t ^ 2) (Set.Icc 0 1) := (hy.pow 2).add (hz.pow 2)
  have hiI : ∀ i < n, IntervalIntegrable x' MeasureTheory.volume (a i) (a (i + 1)) := fun i hi' =>
    hi.mono_set (by rw [Set.uIcc_of_le (hale i), Set.uIcc_of_le zero_le_one]; exact hsub i hi')
  have hρI : ∀ i < n, IntervalIntegrable (fun t => x' t * (y t ^ 2 + z t ^ 2)) MeasureTheory.volume (a i) (a (i + 1)) :=
    fun i hi' => (hiI i hi').mul_continuousOn (by rw [Set.uIcc_of_le (hale i)]; exact hρ.mono (hsub i hi'))
  have htot : ∫ t in (0 : ℝ)..1, x' t * (y t ^ 2 + z t ^ 2) =
      ∑ i ∈ Finset.range n, ∫ t in (a i)..(a (i + 1)), x' t * (y t ^ 2 + z t ^ 2) := by
    rw [intervalIntegral.sum_integral_adjacent_intervals hρI]
    simp only [ha, div_self hn0, Nat.cast_zero, zero_div]
  have hdiff : ∀ i < n, x (a (i + 1)) - x (a i) = ∫ t in (a i)..(a (i + 1)), x' t := by
    intro i hi'
    refine (MeasureTheory.integral_eq_of_hasDerivAt_off_countable_of_le x x' (hale i) hs (hx.mono (hsub i hi')) ?_ (hiI i hi')).symm
    intro t ht
    refine hd t ⟨⟨lt_of_le_of_lt (hamem i (by omega)).1 ht.1.1, lt_of_lt_of_le ht.1.2 (hamem (i + 1) (by omega)).2⟩, ht.2⟩
  have hterm : ∀ i < n, |(x (a (i + 1)) - x (a i)) * G (a i, a (i + 1)) - ∫ t in (a i)..(a (i + 1)), x' t * (y t ^ 2 + z t ^ 2)| ≤
      L * (ε / (L + 1)) * (1 / n) := by
    intro i hi'
    rw [hdiff i hi', ← intervalIntegral.integral_mul_const, ← intervalIntegral.integral_sub ((hiI i hi').mul_const _) (hρI i hi')]
    have := intervalIntegral.norm_integral_le_of_norm_le_const (a := a i) (b := a (i + 1)) (C := L * (ε / (L + 1)))
      (f := fun t => x' t * G (a i, a (i + 1)) - x' t * (y t ^ 2 + z t ^ 2)) (by
        intro t ht
        rw [Set.uIoc_of_le (hale i)] at ht
        have htm : t ∈ Set.Icc (0 : ℝ) 1 := hsub i hi' ⟨ht.1.le, ht.2⟩
        have e : G (t, t) = y t ^ 2 + z t ^ 2 := by simp only [hG]; ring
        rw [← e, ← mul_sub, norm_mul]
        refine mul_le_mul (hL t htm) ?_ (norm_nonneg _) hL0
        refine le_of_lt ?_
        rw [← dist_eq_norm]
        refine hGδ _ ⟨hamem i (by omega), hamem (i + 1) (by omega)⟩ _ ⟨htm, htm⟩ ?_
        rw [Prod.dist_eq, max_lt_iff, Real.dist_eq, Real.dist_eq, abs_lt, abs_lt]
        have := ht.1
        have := ht.2
        have := hastep i
        constructor <;> constructor <;> linarith)
    rw [hastep i, add_sub_cancel_left, abs_of_pos (by positivity : (0 : ℝ) < 1 / n)] at this
    rw [hastep i]
    exact this
  have hsum : (∑ i ∈ Finset.range n, (x (((i + 1 : ℕ) : ℝ) / n) - x ((i : ℝ) / n)) *
      ((y ((i : ℝ) / n) ^ 2 + z ((i : ℝ) / n) ^ 2) +
        (y ((i : ℝ) / n) * y (((i + 1 : ℕ) : ℝ) / n) + z ((i : ℝ) / n) * z (((i + 1 : ℕ) : ℝ) / n)) +
        (y (((i + 1 : ℕ) : ℝ) / n) ^ 2 + z (((i + 1 : ℕ) : ℝ) / n) ^ 2)) / 3) =
      ∑ i ∈ Finset.range n, (x (a (i + 1)) - x (a i)) * G (a i, a (i + 1)) := by
    apply Finset.sum_congr rfl
    intro i _
    simp only [hG, ha]
    ring
  rw [hsum, htot, Real.dist_eq, ← Finset.sum_sub_distrib]
  refine lt_of_le_of_lt (Finset.abs_sum_le_sum_abs _ _) ?_
  refine lt_of_le_of_lt (Finset.sum_le_sum fun i hi' => hterm i (Finset.mem_range.1 hi')) ?_
  rw [Finset.sum_const, Finset.card_range, nsmul_eq_mul]
  have e : (n : ℝ) * (L * (ε / (L + 1)) * (1 / n)) = L / (L + 1) * ε := by field_simp
  rw [e]
  have : L / (L + 1) < 1 := by rw [div_lt_one (by positivity)]; linarith
  nlinarith

/-- The area of a regular polygon with `4 n` corners on the unit circle tends to `π`. -/
theorem polygon_area_tendsto : Filter.Tendsto (fun n : ℕ => ((4 * n : ℕ) : ℝ) / 2 * Real.sin (2 * Real.pi / (4 * n : ℕ)))
    Filter.atTop (nhds Real.pi) := by
  have h1 : Filter.Tendsto (fun n : ℕ => Real.pi * Real.sinc (Real.pi / 2 * (1 / (n : ℝ)))) Filter.atTop (nhds (Real.pi * Real.sinc (Real.pi / 2 * 0))) := by
    refine Filter.Tendsto.const_mul _ ?_
    exact (Real.continuous_sinc.tendsto _).comp ((tendsto_one_div_atTop_nhds_zero_nat (𝕜 := ℝ)).const_mul _)
  rw [mul_zero, Real.sinc_zero, mul_one] at h1
  refine h1.congr' ?_
  filter_upwards [Filter.eventually_ge_atTop 1] with n hn
  have hnp : (0 : ℝ) < n := by positivity
  have hpi := Real.pi_pos
  rw [Real.sinc_of_ne_zero (by positivity)]
  have e : 2 * Real.pi / ((4 * n : ℕ) : ℝ) = Real.pi / 2 * (1 / (n : ℝ)) := by push_cast; field_simp; norm_num
  rw [e]
  push_cast
  field_simp
  norm_num
  ring

/-- C97: as the resolution grows, the volume of the mesh tends to that of the body of revolution, `π ∫ ρ² dx`, for every
continuous line from axis to axis along which `x` has a bounded derivative except at countably many points (such as lines
composed of Bezier curves, arcs and straight pieces). -/
theorem C97_converges (line : PathObj) (f : ℝ → V) (hl : ∀ t, 0 ≤ t → t ≤ 1 → line.call t = .ok (f t))
    (h0 : (f 0).y = 0 ∧ (f 0).z = 0) (h1 : (f 1).y = 0 ∧ (f 1).z = 0)
    (hx : ContinuousOn (fun t => (f t).x) (Set.Icc 0 1)) (hy : ContinuousOn (fun t => (f t).y) (Set.Icc 0 1))
    (hz : ContinuousOn (fun t => (f t).z) (Set.Icc 0 1)) (x' : ℝ → ℝ) (s : Set ℝ) (hs : s.Countable) (L : ℝ)
    (hd : ∀ t ∈ Set.Ioo (0 : ℝ) 1 \ s, HasDerivAt (fun t => (f t).x) (x' t) t) (hL : ∀ t ∈ Set.Icc (0 : ℝ) 1, |x' t| ≤ L)
    (hi : IntervalIntegrable x' MeasureTheory.volume 0 1) (ε : ℝ) (hε : 0 < ε) :
    ∃ N : ℕ, ∀ n ≥ N, ∀ (name : Option String) (h : Heap) (id : ℕ), h id = RevolvedComponent line n name →
      ∃ h' M c', generatePatches h id = (.ok (), h') ∧ (h' id).mesh = (.ok M, c') ∧ Closed M.tris ∧
        |signedVolume M.tris - Real.pi * ∫ t in (0 : ℝ)..1, x' t * ((f t).y ^ 2 + (f t).z ^ 2)| < ε := by
  have ht := polygon_area_tendsto.mul (prismatoid_sum_tendsto _ _ _ x' s hs L hx hy hz hd hL hi)
  rw [Metric.tendsto_atTop] at ht
  obtain ⟨N, hN⟩ := ht ε hε
  refine ⟨max N 1, fun n hn name h id hid => ?_⟩
  obtain ⟨h', M, c', g1, g2, g3, g4⟩ := C97_volume line f hl h0 h1 n (le_trans (le_max_right _ _) hn) name h id hid
  refine ⟨h', M, c', g1, g2, g3, ?_⟩
  rw [g4, ← Real.dist_eq]
  exact hN n (le_trans (le_max_left _ _) hn)

/-- The Bezier curve from the origin over `(1/2, 1/2, 0)` to `(1, 0, 0)`. -/
theorem spindle_call (t : ℝ) : (Bezier [⟨0, 0, 0⟩, ⟨1 / 2, 1 / 2, 0⟩, ⟨1, 0, 0⟩]).call t = .ok ⟨t, t * (1 - t), 0⟩ := by
  show Except.ok _ = _
  congr 1
  have e2 : (List.range 2) = [0, 1] := rfl
  have e1 : (List.range 1) = [0] := rfl
  simp only [Bezier.work, Bezier.inner, List.length_cons, List.length_nil, Nat.reduceAdd, Nat.reduceSub, e2, List.foldl_cons,
    List.foldl_nil, Nat.sub_zero, e1]
  simp [Function.update_apply]
  ext <;> simp <;> ring

/-- The hypotheses of `C97_converges` are met by this curve: the volumes of the meshes of the spindle tend to `π / 30`. -/
example (ε : ℝ) (hε : 0 < ε) : ∃ N : ℕ, ∀ n ≥ N, ∀ (name : Option String) (h : Heap) (id : ℕ),
    h id = RevolvedComponent (Bezier [⟨0, 0, 0⟩, ⟨1 / 2, 1 / 2, 0⟩, ⟨1, 0, 0⟩]) n name →
      ∃ h' M c', generatePatches h id = (.ok (), h') ∧ (h' id).mesh = (.ok M, c') ∧ Closed M.tris ∧
        |signedVolume M.tris - Real.pi / 30| < ε := by
  have hI : ∫ t in (0 : ℝ)..1, (1 : ℝ) * ((t * (1 - t)) ^ 2 + 0 ^ 2) = 1 / 30 := by
    have : ∀ t : ℝ, (1 : ℝ) * ((t * (1 - t)) ^ 2 + 0 ^ 2) = t ^ 2 - 2 * t ^ 3 + t ^ 4 := fun t => by ring
    simp only [this]
    rw [intervalIntegral.integral_add (Continuous.intervalIntegrable (by fun_prop) _ _) (Continuous.intervalIntegrable (by fun_prop) _ _),
      intervalIntegral.integral_sub (Continuous.intervalIntegrable (by fun_prop) _ _) (Continuous.intervalIntegrable (by fun_prop) _ _),
      intervalIntegral.integral_const_mul, integral_pow, integral_pow, integral_pow]
    norm_num
  have := C97_converges _ (fun t => ⟨t, t * (1 - t), 0⟩) (fun t _ _ => spindle_call t) ⟨by simp, rfl⟩ ⟨by simp, rfl⟩
    (by fun_prop) (by fun_prop) (by fun_prop) (fun _ => 1) ∅ Set.countable_empty 1 (fun t _ => hasDerivAt_id t) (by simp) (by simp) ε hε
  simp only [hI] at this
  have e : Real.pi * (1 / 30) = Real.pi / 30 := by ring
  rw [e] at this
  exact this

end HV
