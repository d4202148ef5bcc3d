import Verif.Props.Finner
import Mathlib.Analysis.Convex.SpecificFunctions.Deriv
import Mathlib.Analysis.SpecialFunctions.Trigonometric.Bounds
import Mathlib.Analysis.Real.Pi.Bounds

/-!
# C158: how far the volume of the mesh of a body of revolution is off
-/

namespace HV
open Spec Veh

/-! ## The area of the regular polygon with `4 n` corners -/

/-- The area of the regular polygon with `4 n` corners on the unit circle. -/
noncomputable def polyArea (n : ℕ) : ℝ := (4 * n : ℕ) / 2 * Real.sin (2 * Real.pi / (4 * n : ℕ))

theorem polyArea_eq (n : ℕ) (hn : 1 ≤ n) : polyArea n = Real.pi * (Real.sin (Real.pi / (2 * n)) / (Real.pi / (2 * n))) := by
  have hn0 : (n : ℝ) ≠ 0 := by positivity
  have hp := Real.pi_pos.ne'
  unfold polyArea
  have e : 2 * Real.pi / ((4 * n : ℕ) : ℝ) = Real.pi / (2 * n) := by push_cast; field_simp; norm_num
  rw [e]
  push_cast
  field_simp
  ring

theorem sin_div_anti (a b : ℝ) (ha : 0 < a) (hab : a < b) (hb : b ≤ Real.pi) : Real.sin b / b < Real.sin a / a := by
  have hb0 : 0 < b := ha.trans hab
  have hw : (0 : ℝ) < 1 - a / b := by rw [sub_pos, div_lt_one hb0]; exact hab
  have h := strictConcaveOn_sin_Icc.2 (⟨hb0.le, hb⟩ : b ∈ Set.Icc 0 Real.pi) (⟨le_rfl, Real.pi_pos.le⟩ : (0 : ℝ) ∈ Set.Icc 0 Real.pi)
    hb0.ne' (div_pos ha hb0) hw (by ring)
  simp only [smul_eq_mul, mul_zero, add_zero, Real.sin_zero] at h
  rw [div_mul_cancel₀ _ hb0.ne'] at h
  rw [lt_div_iff₀ ha]
  calc Real.sin b / b * a = a / b * Real.sin b := by ring
    _ < _ := h

theorem polyArea_mono (n m : ℕ) (hn : 1 ≤ n) (hnm : n < m) : polyArea n < polyArea m := by
  have hp := Real.pi_pos
  have hn0 : (1 : ℝ) ≤ n := by exact_mod_cast hn
  have hm : (n : ℝ) < m := by exact_mod_cast hnm
  rw [polyArea_eq n hn, polyArea_eq m (by omega)]
  refine mul_lt_mul_of_pos_left (sin_div_anti _ _ (div_pos hp (by linarith)) ?_ ?_) hp
  · exact div_lt_div_of_pos_left hp (by linarith) (by linarith)
  · rw [div_le_iff₀ (by linarith)]
    nlinarith

theorem polyArea_lt (n : ℕ) (hn : 1 ≤ n) : polyArea n < Real.pi := by
  have hp := Real.pi_pos
  have hθ : 0 < Real.pi / (2 * n) := by positivity
  rw [polyArea_eq n hn]
  have : Real.sin (Real.pi / (2 * n)) / (Real.pi / (2 * n)) < 1 := (div_lt_one hθ).2 (Real.sin_lt hθ)
  nlinarith

theorem polyArea_gt (n : ℕ) (hn : 1 ≤ n) : Real.pi * (1 - Real.pi ^ 2 / (24 * n ^ 2)) < polyArea n := by
  have hp := Real.pi_pos
  have hn0 : (n : ℝ) ≠ 0 := by positivity
  have hθ : 0 < Real.pi / (2 * n) := by positivity
  rw [polyArea_eq n hn]
  refine mul_lt_mul_of_pos_left ?_ hp
  rw [lt_div_iff₀ hθ]
  refine lt_of_eq_of_lt ?_ (Real.sin_gt_sub_cube hθ)
  field_simp
  ring

/-! ## Bodies of straight lines -/

/-- The volume of the frusta of cones swept by segments of the half plane `z = 0`, each counted with the sign of the direction
of its segment: `π h (r² + r r' + r'²) / 3`. -/
noncomputable def Spec.frustaVolume (segs : List (V × V)) : ℝ :=
  (segs.map fun s => Real.pi * (s.2.x - s.1.x) * (s.1.y ^ 2 + s.1.y * s.2.y + s.2.y ^ 2) / 3).sum

theorem stack_frusta (n : ℕ) (hn : 1 ≤ n) (segs : List (V × V)) (hz : ∀ s ∈ segs, s.1.z = 0 ∧ s.2.z = 0) :
    stackVolume n (segs.map fun s => lineAt s.1 s.2) = polyArea n / Real.pi * frustaVolume segs := by
  have hp := Real.pi_pos.ne'
  unfold stackVolume frustaVolume
  induction segs with
  | nil => simp
  | cons s segs ih =>
    have h1 := hz s (by simp)
    rw [List.map_cons, List.map_cons, List.sum_cons, List.map_cons, List.sum_cons, ih (fun s' hs' => hz s' (by simp [hs'])),
      line_volume (4 * n) n hn _ _ h1.1 h1.2, mul_add]
    unfold polyArea
    field_simp

/-- A composite of fresh revolved straight lines laid end to end, from the axis to the axis. -/
structure Spec.StraightBody (h : Heap) (id : ℕ) (ids : List ℕ) (segs : List (V × V)) (n : ℕ) : Prop where
  nodup : ids.Nodup
  notin : id ∉ ids
  nonempty : ids ≠ []
  gen : (h id).gen = .composite ids
  parts : List.Forall₂ (fun k s => NewRevolved (h k) (Line s.1 s.2)) ids segs
  plane : ∀ s ∈ segs, s.1.z = 0 ∧ s.2.z = 0
  ends : ∃ x0 x1, EndToEnd ⟨x0, 0, 0⟩ (segs.map fun s => lineAt s.1 s.2) ⟨x1, 0, 0⟩
  res : (h id).stl_resolution = .int n
  pos : 1 ≤ n
  mesh : (h id).mesh_ = none
  surf : (h id).surfaces = none
  clust : (h id).clustering = {}

theorem straight_mesh (h : Heap) (id : ℕ) (ids : List ℕ) (segs : List (V × V)) (n : ℕ) (hb : StraightBody h id ids segs n) :
    ∃ h' M c', generatePatches h id = (.ok (), h') ∧ (h' id).mesh = (.ok M, c') ∧ Closed M.tris ∧
      signedVolume M.tris = polyArea n / Real.pi * frustaVolume segs := by
  obtain ⟨x0, x1, he⟩ := hb.ends
  have hc : List.Forall₂ (fun k line => NewRevolved (h k) line) ids (segs.map fun s => Line s.1 s.2) := by
    rw [List.forall₂_map_right_iff]; exact hb.parts
  have hl : List.Forall₂ (fun (line : PathObj) (f : ℝ → V) => ∀ t, 0 ≤ t → t ≤ 1 → line.call t = .ok (f t))
      (segs.map fun s => Line s.1 s.2) (segs.map fun s => lineAt s.1 s.2) := by
    rw [List.forall₂_map_left_iff, List.forall₂_map_right_iff, List.forall₂_same]
    exact fun s _ t _ _ => rfl
  obtain ⟨h', M, c', g1, g2, g3, g4⟩ := C104_closed h id ids _ _ hb.nodup hb.notin hb.nonempty hb.gen hc hl n hb.pos hb.res
    hb.mesh hb.surf hb.clust x0 x1 he
  exact ⟨h', M, c', g1, g2, g3, by rw [g4, stack_frusta n hb.pos segs hb.plane]⟩

/-- C158: the mesh of a body of revolution made of straight lines encloses less than the body, at every resolution `n`, but
lacks at most the fraction `π² / (24 n²)` of the volume. -/
theorem C158_straight (h : Heap) (id : ℕ) (ids : List ℕ) (segs : List (V × V)) (n : ℕ) (hb : StraightBody h id ids segs n)
    (hv : 0 < frustaVolume segs) :
    ∃ h' M c', generatePatches h id = (.ok (), h') ∧ (h' id).mesh = (.ok M, c') ∧ Closed M.tris ∧
      signedVolume M.tris < frustaVolume segs ∧
      frustaVolume segs * (1 - Real.pi ^ 2 / (24 * n ^ 2)) < signedVolume M.tris := by
  have hp := Real.pi_pos
  obtain ⟨h', M, c', g1, g2, g3, g4⟩ := straight_mesh h id ids segs n hb
  have h1 := polyArea_lt n hb.pos
  have h2 := polyArea_gt n hb.pos
  refine ⟨h', M, c', g1, g2, g3, ?_, ?_⟩
  · rw [g4]
    have : polyArea n / Real.pi < 1 := (div_lt_one hp).2 h1
    nlinarith
  · rw [g4, mul_comm]
    refine mul_lt_mul_of_pos_right ?_ hv
    rw [lt_div_iff₀ hp, mul_comm]
    exact h2

/-- C158: a finer mesh of the same body encloses more. -/
theorem C158_finer (h k : Heap) (id jd : ℕ) (ids jds : List ℕ) (segs : List (V × V)) (n m : ℕ) (hb : StraightBody h id ids segs n)
    (hk : StraightBody k jd jds segs m) (hnm : n < m) (hv : 0 < frustaVolume segs) :
    ∃ h' M c' k' N d', generatePatches h id = (.ok (), h') ∧ (h' id).mesh = (.ok M, c') ∧
      generatePatches k jd = (.ok (), k') ∧ (k' jd).mesh = (.ok N, d') ∧ signedVolume M.tris < signedVolume N.tris := by
  obtain ⟨h', M, c', g1, g2, -, g4⟩ := straight_mesh h id ids segs n hb
  obtain ⟨k', N, d', k1, k2, -, k4⟩ := straight_mesh k jd jds segs m hk
  refine ⟨h', M, c', k', N, d', g1, g2, k1, k2, ?_⟩
  rw [g4, k4]
  exact mul_lt_mul_of_pos_right (div_lt_div_of_pos_right (polyArea_mono n m hb.pos hnm) Real.pi_pos) hv

/-- The cone of radius 1 and height 3 with its base, whose volume is `π`. -/
example : StraightBody coneHeap 0 [1, 2] [(⟨0, 0, 0⟩, ⟨3, 1, 0⟩), (⟨3, 1, 0⟩, ⟨3, 0, 0⟩)] 8 ∧
    frustaVolume [(⟨0, 0, 0⟩, ⟨3, 1, 0⟩), (⟨3, 1, 0⟩, ⟨3, 0, 0⟩)] = Real.pi := by
  refine ⟨⟨by decide, by decide, by decide, rfl, .cons ⟨rfl, rfl⟩ (.cons ⟨rfl, rfl⟩ .nil), by simp, ⟨0, 3, ?_⟩, rfl, by norm_num, rfl,
    rfl, rfl⟩, ?_⟩
  · refine ⟨?_, ?_, ?_⟩ <;> ext <;> simp [lineAt]
  · simp [frustaVolume]

/-- C158: the fuselage of the Finner, for all keyword arguments with lengths in order: its meshes enclose less than the cone and
the cylinder, lack at most the fraction `π² / (24 n²)` (less than one percent at the resolution `n = 8` that it has), and
enclose more the finer they are. -/
theorem C158_finner (h : Heap) (ids : ℕ → ℕ) (hi : Function.Injective ids) (kwargs : Dict String ℝ) (p : Finner.Params)
    (ha : FinnerArgs kwargs p) (hd : p.diameter ≠ 0) (hn : 0 < p.nose_length) (hl : p.nose_length ≤ p.total_length)
    (lib : Lib) (depth : ℕ) (vol : ℝ) (hvol : vol = Real.pi * (p.diameter / 2) ^ 2 * p.nose_length / 3 +
      Real.pi * (p.diameter / 2) ^ 2 * (p.total_length - p.nose_length)) :
    ∃ st, Finner.instanceOf h ids kwargs = .ok st ∧ withResolution st (ids 0) 8 = st ∧
    ∃ v : ℕ → ℝ, (∀ n : ℕ, 1 ≤ n → ∃ st' M c, generate lib depth (withResolution st (ids 0) n) = (.ok (), st') ∧
        (st'.heap (ids 0)).mesh = (.ok M, c) ∧ Closed M.tris ∧ signedVolume M.tris = v n) ∧
      (∀ n : ℕ, 1 ≤ n → v n < vol ∧ vol * (1 - Real.pi ^ 2 / (24 * n ^ 2)) < v n) ∧
      (∀ n m : ℕ, 1 ≤ n → n < m → v n < v m) ∧ vol * 0.99 < v 8 := by
  have hp := Real.pi_pos
  obtain ⟨st, s1, -, -, -, s2, _, _, _, _, -, -, -, s3⟩ := C103_finner h ids hi kwargs p ha
  have hK : 0 < (p.diameter / 2) ^ 2 * (p.nose_length / 3 + (p.total_length - p.nose_length)) := by
    have : 0 < (p.diameter / 2) ^ 2 := by positivity
    refine mul_pos this ?_
    linarith
  set K := (p.diameter / 2) ^ 2 * (p.nose_length / 3 + (p.total_length - p.nose_length)) with hKd
  have hvK : vol = Real.pi * K := by rw [hvol, hKd]; ring
  have hbound : ∀ n : ℕ, 1 ≤ n → polyArea n * K < vol ∧ vol * (1 - Real.pi ^ 2 / (24 * n ^ 2)) < polyArea n * K := by
    intro n hn1
    rw [hvK]
    refine ⟨mul_lt_mul_of_pos_right (polyArea_lt n hn1) hK, ?_⟩
    calc Real.pi * K * (1 - Real.pi ^ 2 / (24 * n ^ 2)) = Real.pi * (1 - Real.pi ^ 2 / (24 * n ^ 2)) * K := by ring
      _ < _ := mul_lt_mul_of_pos_right (polyArea_gt n hn1) hK
  refine ⟨st, s1, s2, fun n => polyArea n * K, ?_, hbound, ?_, ?_⟩
  · intro n hn1
    obtain ⟨st', t1, ⟨M, c, t2, t3, t4⟩, -⟩ := s3 n hn1 lib depth
    refine ⟨st', M, c, t1, t2, t3, ?_⟩
    rw [t4, hKd]
    unfold polyArea
    ring
  · intro n m hn1 hnm
    exact mul_lt_mul_of_pos_right (polyArea_mono n m hn1 hnm) hK
  · refine lt_of_le_of_lt ?_ (hbound 8 (by norm_num)).2
    have hv : 0 < vol := by rw [hvK]; positivity
    refine mul_le_mul_of_nonneg_left ?_ hv.le
    have h3 : Real.pi < 3.15 := Real.pi_lt_d2
    push_cast
    nlinarith

/-- The default Finner meets the hypotheses of `C158_finner`. -/
example : ∃ p : Finner.Params, FinnerArgs [] p ∧ p.diameter ≠ 0 ∧ 0 < p.nose_length ∧ p.nose_length ≤ p.total_length :=
  ⟨⟨1, 10, 2.84, 1, 1, 0.08⟩, ⟨by decide, .inr ⟨by simp, rfl⟩, .inr ⟨by simp, rfl⟩, .inr ⟨by simp, rfl⟩, .inr ⟨by simp, rfl⟩,
    .inr ⟨by simp, rfl⟩, .inr ⟨by simp, rfl⟩⟩, by norm_num, by norm_num, by norm_num⟩

/-! ## Curved bodies -/

/-- The sums over the prismatoids differ from the integral of the squared radius by at most `2 L (R K + R' K') / n`. -/
theorem prismatoid_sum_error (x y z x' : ℝ → ℝ) (s : Set ℝ) (hs : s.Countable) (L R K R' K' : ℝ)
    (hx : ContinuousOn x (Set.Icc 0 1))
    (hyR : ∀ t ∈ Set.Icc (0 : ℝ) 1, |y t| ≤ R) (hyK : ∀ t ∈ Set.Icc (0 : ℝ) 1, ∀ u ∈ Set.Icc (0 : ℝ) 1, |y t - y u| ≤ K * |t - u|)
    (hzR : ∀ t ∈ Set.Icc (0 : ℝ) 1, |z t| ≤ R') (hzK : ∀ t ∈ Set.Icc (0 : ℝ) 1, ∀ u ∈ Set.Icc (0 : ℝ) 1, |z t - z u| ≤ K' * |t - u|)
    (hd : ∀ t ∈ Set.Ioo (0 : ℝ) 1 \ s, HasDerivAt x (x' t) t) (hL : ∀ t ∈ Set.Icc (0 : ℝ) 1, |x' t| ≤ L)
    (hi : IntervalIntegrable x' MeasureTheory.volume 0 1) (n : ℕ) (hn1 : 1 ≤ n) :
    |∑ i ∈ Finset.range n, (x (((i + 1 : ℕ) : ℝ) / n) - x ((i : ℝ) / n)) *
      ((y ((i : ℝ) / n) ^ 2 + z ((i : ℝ) / n) ^ 2) +
        (y ((i : ℝ) / n) * y (((i + 1 : ℕ) : ℝ) / n) + z ((i : ℝ) / n) * z (((i + 1 : ℕ) : ℝ) / n)) +
        (y (((i + 1 : ℕ) : ℝ) / n) ^ 2 + z (((i + 1 : ℕ) : ℝ) / n) ^ 2)) / 3 -
      ∫ t in (0 : ℝ)..1, x' t * (y t ^ 2 + z t ^ 2)| ≤ 2 * L * (R * K + R' * K') / n := by
  have hL0 : 0 ≤ L := (abs_nonneg _).trans (hL 0 (by simp))
  have hnp : (0 : ℝ) < n := by positivity
  have hn0 : (n : ℝ) ≠ 0 := hnp.ne'
  have lip : ∀ (g : ℝ → ℝ) (C : ℝ), (∀ t ∈ Set.Icc (0 : ℝ) 1, ∀ u ∈ Set.Icc (0 : ℝ) 1, |g t - g u| ≤ C * |t - u|) →
      ContinuousOn g (Set.Icc 0 1) := by
    intro g C hg
    have hC : 0 ≤ C := by have := (abs_nonneg _).trans (hg 1 (by simp) 0 (by simp)); simpa using this
    exact (LipschitzOnWith.of_dist_le_mul (K := ⟨C, hC⟩) fun t ht u hu => hg t ht u hu).continuousOn
  have hy := lip y K hyK
  have hz := lip z K' hzK
  set G : ℝ × ℝ → ℝ := fun q => ((y q.1 ^ 2 + z q.1 ^ 2) + (y q.1 * y q.2 + z q.1 * z q.2) + (y q.2 ^ 2 + z q.2 ^ 2)) / 3 with hG
  have part : ∀ (g : ℝ → ℝ) (r C : ℝ), (∀ t ∈ Set.Icc (0 : ℝ) 1, |g t| ≤ r) →
      (∀ t ∈ Set.Icc (0 : ℝ) 1, ∀ u ∈ Set.Icc (0 : ℝ) 1, |g t - g u| ≤ C * |t - u|) →
      ∀ a ∈ Set.Icc (0 : ℝ) 1, ∀ b ∈ Set.Icc (0 : ℝ) 1, ∀ t ∈ Set.Icc (0 : ℝ) 1, |a - t| ≤ 1 / n → |b - t| ≤ 1 / n →
      |(g a ^ 2 + g a * g b + g b ^ 2) / 3 - g t ^ 2| ≤ 2 * (r * C) / n := by
    intro g r C hr hC a ha b hb t ht hat hbt
    have hC0 : 0 ≤ C := by have := (abs_nonneg _).trans (hC 1 (by simp) 0 (by simp)); simpa using this
    have hr0 : 0 ≤ r := (abs_nonneg _).trans (hr t ht)
    have d1 : |g a - g t| ≤ C * (1 / n) := (hC a ha t ht).trans (mul_le_mul_of_nonneg_left hat hC0)
    have d2 : |g b - g t| ≤ C * (1 / n) := (hC b hb t ht).trans (mul_le_mul_of_nonneg_left hbt hC0)
    have key : ∀ u v w : ℝ, |u| ≤ r → |v| ≤ r → |w| ≤ r → |u - w| ≤ C * (1 / n) → |v - w| ≤ C * (1 / n) →
        |u * v - w ^ 2| ≤ 2 * (r * (C * (1 / n))) := by
      intro u v w hu hv hw h1 h2
      have e : u * v - w ^ 2 = u * (v - w) + w * (u - w) := by ring
      rw [e]
      refine (abs_add_le _ _).trans ?_
      rw [abs_mul, abs_mul]
      have := mul_le_mul hu h2 (abs_nonneg _) hr0
      have := mul_le_mul hw h1 (abs_nonneg _) hr0
      linarith
    have k1 := abs_le.1 (key (g a) (g a) (g t) (hr a ha) (hr a ha) (hr t ht) d1 d1)
    have k2 := abs_le.1 (key (g a) (g b) (g t) (hr a ha) (hr b hb) (hr t ht) d1 d2)
    have k3 := abs_le.1 (key (g b) (g b) (g t) (hr b hb) (hr b hb) (hr t ht) d2 d2)
    have e : 2 * (r * C) / n = 2 * (r * (C * (1 / n))) := by ring
    rw [e, abs_le]
    obtain ⟨a1, a2⟩ := k1
    obtain ⟨b1, b2⟩ := k2
    obtain ⟨c1, c2⟩ := k3
    constructor <;> nlinarith
  set a : ℕ → ℝ := fun i => (i : ℝ) / n with ha
  have hastep : ∀ i, a (i + 1) = a i + 1 / n := fun i => by simp only [ha]; push_cast; ring
  have hamem : ∀ i ≤ n, a i ∈ Set.Icc (0 : ℝ) 1 := fun i hi =>
    ⟨by simp only [ha]; positivity, by simp only [ha]; rw [div_le_one hnp]; exact_mod_cast hi⟩
  have hsub : ∀ i < n, Set.Icc (a i) (a (i + 1)) ⊆ Set.Icc 0 1 := fun i hi =>
    Set.Icc_subset_Icc (hamem i (by omega)).1 (hamem (i + 1) (by omega)).2
  have hale : ∀ i, a i ≤ a (i + 1) := fun i => by rw [hastep]; have : 0 < 1 / (n : ℝ) := by positivity
                                                  linarith
  have hρ : ContinuousOn (fun t => y t ^ 2 + z t ^ 2) (Set.Icc 0 1) := (hy.pow 2).add (hz.pow 2)
  have hiI : ∀ i < n, IntervalIntegrable x' MeasureTheory.volume (a i) (a (i + 1)) := fun i hi' =>
    hi.mono_set (by rw [Set.uIcc_of_le (hale i), Set.uIcc_of_le zero_le_one]; exact hsub i hi')
  have hρI : ∀ i < n, IntervalIntegrable (fun t => x' t * (y t ^ 2 + z t ^ 2)) MeasureTheory.volume (a i) (a (i + 1)) :=
    fun i hi' => (hiI i hi').mul_continuousOn (by rw [Set.uIcc_of_le (hale i)]; exact hρ.mono (hsub i hi'))
  have htot : ∫ t in (0 : ℝ)..1, x' t * (y t ^ 2 + z t ^ 2) =
      ∑ i ∈ Finset.range n, ∫ t in (a i)..(a (i + 1)), x' t * (y t ^ 2 + z t ^ 2) := by
    rw [intervalIntegral.sum_integral_adjacent_intervals hρI]
    simp only [ha, div_self hn0, Nat.cast_zero, zero_div]
  have hdiff : ∀ i < n, x (a (i + 1)) - x (a i) = ∫ t in (a i)..(a (i + 1)), x' t := by
    intro i hi'
    refine (MeasureTheory.integral_eq_of_hasDerivAt_off_countable_of_le x x' (hale i) hs (hx.mono (hsub i hi')) ?_ (hiI i hi')).symm
    intro t ht
    refine hd t ⟨⟨lt_of_le_of_lt (hamem i (by omega)).1 ht.1.1, lt_of_lt_of_le ht.1.2 (hamem (i + 1) (by omega)).2⟩, ht.2⟩
  have hterm : ∀ i < n, |(x (a (i + 1)) - x (a i)) * G (a i, a (i + 1)) - ∫ t in (a i)..(a (i + 1)), x' t * (y t ^ 2 + z t ^ 2)| ≤
      L * (2 * (R * K) / n + 2 * (R' * K') / n) * (1 / n) := by
    intro i hi'
    rw [hdiff i hi', ← intervalIntegral.integral_mul_const, ← intervalIntegral.integral_sub ((hiI i hi').mul_const _) (hρI i hi')]
    have := intervalIntegral.norm_integral_le_of_norm_le_const (a := a i) (b := a (i + 1))
      (C := L * (2 * (R * K) / n + 2 * (R' * K') / n))
      (f := fun t => x' t * G (a i, a (i + 1)) - x' t * (y t ^ 2 + z t ^ 2)) (by
        intro t ht
        rw [Set.uIoc_of_le (hale i)] at ht
        have htm : t ∈ Set.Icc (0 : ℝ) 1 := hsub i hi' ⟨ht.1.le, ht.2⟩
        rw [← mul_sub, norm_mul]
        refine mul_le_mul (hL t htm) ?_ (norm_nonneg _) hL0
        have h1 := ht.1
        have h2 := ht.2
        have h3 := hastep i
        have ta : |a i - t| ≤ 1 / n := by rw [abs_le]; constructor <;> linarith
        have tb : |a (i + 1) - t| ≤ 1 / n := by rw [abs_le]; constructor <;> linarith
        have p1 := part y R K hyR hyK _ (hamem i (by omega)) _ (hamem (i + 1) (by omega)) t htm ta tb
        have p2 := part z R' K' hzR hzK _ (hamem i (by omega)) _ (hamem (i + 1) (by omega)) t htm ta tb
        have e : G (a i, a (i + 1)) - (y t ^ 2 + z t ^ 2) =
            ((y (a i) ^ 2 + y (a i) * y (a (i + 1)) + y (a (i + 1)) ^ 2) / 3 - y t ^ 2) +
            ((z (a i) ^ 2 + z (a i) * z (a (i + 1)) + z (a (i + 1)) ^ 2) / 3 - z t ^ 2) := by simp only [hG]; ring
        rw [e, Real.norm_eq_abs]
        exact (abs_add_le _ _).trans (add_le_add p1 p2))
    rw [hastep i, add_sub_cancel_left, abs_of_pos (by positivity : (0 : ℝ) < 1 / n)] at this
    rw [hastep i]
    exact this
  have hsum : (∑ i ∈ Finset.range n, (x (((i + 1 : ℕ) : ℝ) / n) - x ((i : ℝ) / n)) *
      ((y ((i : ℝ) / n) ^ 2 + z ((i : ℝ) / n) ^ 2) +
        (y ((i : ℝ) / n) * y (((i + 1 : ℕ) : ℝ) / n) + z ((i : ℝ) / n) * z (((i + 1 : ℕ) : ℝ) / n)) +
        (y (((i + 1 : ℕ) : ℝ) / n) ^ 2 + z (((i + 1 : ℕ) : ℝ) / n) ^ 2)) / 3) =
      ∑ i ∈ Finset.range n, (x (a (i + 1)) - x (a i)) * G (a i, a (i + 1)) := by
    apply Finset.sum_congr rfl
    intro i _
    simp only [hG, ha]
    ring
  rw [hsum, htot, ← Finset.sum_sub_distrib]
  refine le_trans (Finset.abs_sum_le_sum_abs _ _) ?_
  refine le_trans (Finset.sum_le_sum fun i hi' => hterm i (Finset.mem_range.1 hi')) ?_
  rw [Finset.sum_const, Finset.card_range, nsmul_eq_mul]
  refine le_of_eq ?_
  field_simp

/-- C158: the volume of the mesh of a revolved component with the resolution `n` differs from that of the body of revolution,
`π ∫ ρ² dx`, by at most `2 π L (R K + R' K') / n` and the fraction `π² / (24 n²)` of it.  `L` bounds the derivative of `x`
along the line, `R` and `R'` bound the other coordinates and `K` and `K'` how fast these vary. -/
theorem C158_revolved (line : PathObj) (f : ℝ → V) (hl : ∀ t, 0 ≤ t → t ≤ 1 → line.call t = .ok (f t))
    (h0 : (f 0).y = 0 ∧ (f 0).z = 0) (h1 : (f 1).y = 0 ∧ (f 1).z = 0)
    (hx : ContinuousOn (fun t => (f t).x) (Set.Icc 0 1)) (R K R' K' : ℝ)
    (hyR : ∀ t ∈ Set.Icc (0 : ℝ) 1, |(f t).y| ≤ R)
    (hyK : ∀ t ∈ Set.Icc (0 : ℝ) 1, ∀ u ∈ Set.Icc (0 : ℝ) 1, |(f t).y - (f u).y| ≤ K * |t - u|)
    (hzR : ∀ t ∈ Set.Icc (0 : ℝ) 1, |(f t).z| ≤ R')
    (hzK : ∀ t ∈ Set.Icc (0 : ℝ) 1, ∀ u ∈ Set.Icc (0 : ℝ) 1, |(f t).z - (f u).z| ≤ K' * |t - u|)
    (x' : ℝ → ℝ) (s : Set ℝ) (hs : s.Countable) (L : ℝ)
    (hd : ∀ t ∈ Set.Ioo (0 : ℝ) 1 \ s, HasDerivAt (fun t => (f t).x) (x' t) t) (hL : ∀ t ∈ Set.Icc (0 : ℝ) 1, |x' t| ≤ L)
    (hi : IntervalIntegrable x' MeasureTheory.volume 0 1) (vol : ℝ)
    (hvol : vol = Real.pi * ∫ t in (0 : ℝ)..1, x' t * ((f t).y ^ 2 + (f t).z ^ 2))
    (n : ℕ) (hn : 1 ≤ n) (name : Option String) (h : Heap) (id : ℕ) (hid : h id = RevolvedComponent line n name) :
    ∃ h' M c', generatePatches h id = (.ok (), h') ∧ (h' id).mesh = (.ok M, c') ∧ Closed M.tris ∧
      |signedVolume M.tris - vol| ≤ 2 * Real.pi * L * (R * K + R' * K') / n + Real.pi ^ 2 / (24 * n ^ 2) * |vol| := by
  have hp := Real.pi_pos
  have hnp : (0 : ℝ) < n := by positivity
  obtain ⟨h', M, c', g1, g2, g3, g4⟩ := C97_volume line f hl h0 h1 n hn name h id hid
  refine ⟨h', M, c', g1, g2, g3, ?_⟩
  have he := prismatoid_sum_error _ _ _ x' s hs L R K R' K' hx hyR hyK hzR hzK hd hL hi n hn
  rw [g4, hvol]
  unfold polygonalVolume
  generalize (∫ t in (0 : ℝ)..1, x' t * ((f t).y ^ 2 + (f t).z ^ 2)) = I at he ⊢
  change |polyArea n * _ - _| ≤ _
  generalize hS : (∑ i ∈ Finset.range n, _ : ℝ) = S at he ⊢
  have h1 := polyArea_lt n hn
  have h2 := polyArea_gt n hn
  have hq : 0 ≤ 2 * L * (R * K + R' * K') / n := (abs_nonneg _).trans he
  have e : polyArea n * S - Real.pi * I = polyArea n * (S - I) - (Real.pi - polyArea n) * I := by ring
  have hA0 : 0 ≤ polyArea n := by
    rw [polyArea_eq n hn]
    have : Real.pi / (2 * n) ≤ Real.pi := by
      rw [div_le_iff₀ (by positivity)]
      have : (1 : ℝ) ≤ n := by exact_mod_cast hn
      nlinarith
    have := Real.sin_nonneg_of_nonneg_of_le_pi (x := Real.pi / (2 * n)) (by positivity) this
    positivity
  rw [e]
  refine (abs_sub _ _).trans (add_le_add ?_ ?_)
  · rw [abs_mul, abs_of_nonneg hA0]
    calc polyArea n * |S - I| ≤ Real.pi * (2 * L * (R * K + R' * K') / n) := mul_le_mul h1.le he (abs_nonneg _) hp.le
      _ = _ := by ring
  · rw [abs_mul, abs_mul, abs_of_pos (by linarith : 0 < Real.pi - polyArea n), abs_of_pos hp, ← mul_assoc]
    refine mul_le_mul_of_nonneg_right ?_ (abs_nonneg _)
    nlinarith

/-- The spindle swept by the Bezier curve from the origin over `(1/2, 1/2, 0)` to `(1, 0, 0)` meets the hypotheses: at every
resolution `n` its volume is `π / 30` up to `π / (2 n) + π³ / (720 n²)`. -/
example (n : ℕ) (hn : 1 ≤ n) (name : Option String) (h : Heap) (id : ℕ)
    (hid : h id = RevolvedComponent (Bezier [⟨0, 0, 0⟩, ⟨1 / 2, 1 / 2, 0⟩, ⟨1, 0, 0⟩]) n name) :
    ∃ h' M c', generatePatches h id = (.ok (), h') ∧ (h' id).mesh = (.ok M, c') ∧ Closed M.tris ∧
      |signedVolume M.tris - Real.pi / 30| ≤ Real.pi / (2 * n) + Real.pi ^ 3 / (720 * n ^ 2) := by
  have hI : ∫ t in (0 : ℝ)..1, (1 : ℝ) * ((t * (1 - t)) ^ 2 + 0 ^ 2) = 1 / 30 := by
    have : ∀ t : ℝ, (1 : ℝ) * ((t * (1 - t)) ^ 2 + 0 ^ 2) = t ^ 2 - 2 * t ^ 3 + t ^ 4 := fun t => by ring
    simp only [this]
    rw [intervalIntegral.integral_add (Continuous.intervalIntegrable (by fun_prop) _ _) (Continuous.intervalIntegrable (by fun_prop) _ _),
      intervalIntegral.integral_sub (Continuous.intervalIntegrable (by fun_prop) _ _) (Continuous.intervalIntegrable (by fun_prop) _ _),
      intervalIntegral.integral_const_mul, integral_pow, integral_pow, integral_pow]
    norm_num
  obtain ⟨h', M, c', g1, g2, g3, g4⟩ := C158_revolved _ (fun t => ⟨t, t * (1 - t), 0⟩) (fun t _ _ => spindle_call t) ⟨by simp, rfl⟩
    ⟨by simp, rfl⟩ (by fun_prop) (1 / 4) 1 0 0 (by
      rintro t ⟨t0, t1⟩
      show |t * (1 - t)| ≤ 1 / 4
      rw [abs_le]
      constructor <;> nlinarith [sq_nonneg (t - 1 / 2)]) (by
      rintro t ⟨t0, t1⟩ u ⟨u0, u1⟩
      show |t * (1 - t) - u * (1 - u)| ≤ 1 * |t - u|
      have e : t * (1 - t) - u * (1 - u) = (1 - t - u) * (t - u) := by ring
      rw [e, abs_mul]
      refine mul_le_mul_of_nonneg_right ?_ (abs_nonneg _)
      rw [abs_le]
      constructor <;> linarith) (by simp) (by simp) (fun _ => 1) ∅ Set.countable_empty 1 (fun t _ => hasDerivAt_id t) (by simp)
    (by simp) (Real.pi / 30) (by simp only [hI]; ring) n hn name h id hid
  refine ⟨h', M, c', g1, g2, g3, g4.trans (le_of_eq ?_)⟩
  have hp := Real.pi_pos
  rw [abs_of_pos (by positivity)]
  have hn0 : (n : ℝ) ≠ 0 := by positivity
  field_simp
  ring

end HV
