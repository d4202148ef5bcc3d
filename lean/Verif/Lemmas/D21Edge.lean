import Verif.Model.Hangar7
import Verif.Lemmas.WingGrid
import Verif.Lemmas.BisectEnd

/-!
# The leading edge of the D-21
-/

namespace HV
open Spec Veh

/-- A function that rises between `a` and `b`, at most with slope `K`. -/
def Rises (K : ℝ) (f : ℝ → ℝ) (a b : ℝ) : Prop := ∀ t u, a ≤ t → t ≤ u → u ≤ b → 0 ≤ f u - f t ∧ f u - f t ≤ K * (u - t)

theorem Rises.glue {K : ℝ} {f : ℝ → ℝ} {a b c : ℝ} (h1 : Rises K f a b) (h2 : Rises K f b c) : Rises K f a c := by
  intro t u ht htu hu
  rcases le_total u b with hb | hb
  · exact h1 t u ht htu hb
  · rcases le_total b t with hb' | hb'
    · exact h2 t u hb' htu hu
    · obtain ⟨k1, k2⟩ := h1 t b ht hb' le_rfl
      obtain ⟨k3, k4⟩ := h2 b u le_rfl hb hu
      constructor <;> nlinarith

theorem Rises.mono {K K' : ℝ} {f : ℝ → ℝ} {a b : ℝ} (hK : K ≤ K') (h : Rises K f a b) : Rises K' f a b := by
  intro t u ht htu hu
  obtain ⟨k1, k2⟩ := h t u ht htu hu
  exact ⟨k1, k2.trans (mul_le_mul_of_nonneg_right hK (by linarith))⟩

theorem Rises.abs {K : ℝ} {f : ℝ → ℝ} {a b : ℝ} (h : Rises K f a b) {t u : ℝ} (ht : t ∈ Set.Icc a b) (hu : u ∈ Set.Icc a b) : |f u - f t| ≤ K * |u - t| := by
  rcases le_total t u with htu | htu
  · obtain ⟨k1, k2⟩ := h t u ht.1 htu hu.2
    rw [abs_of_nonneg k1, abs_of_nonneg (by linarith)]; exact k2
  · obtain ⟨k1, k2⟩ := h u t hu.1 htu ht.2
    rw [abs_sub_comm, abs_of_nonneg k1, abs_sub_comm, abs_of_nonneg (by linarith)]; exact k2

theorem Rises.continuousOn {K : ℝ} {f : ℝ → ℝ} {a b : ℝ} (h : Rises K f a b) : ContinuousOn f (Set.Icc a b) := by
  have : LipschitzOnWith (Real.toNNReal K) f (Set.Icc a b) := by
    refine LipschitzOnWith.of_dist_le_mul fun t ht u hu => ?_
    rw [Real.dist_eq, Real.dist_eq]
    refine (h.abs hu ht).trans (mul_le_mul_of_nonneg_right ?_ (abs_nonneg _))
    exact Real.le_coe_toNNReal K
  exact this.continuousOn

namespace D21

/-- The `x` coordinate of the leading edge: straight up to the parameter `T1`, curved up to `T2`, and straight across the nose from there on. -/
noncomputable def ex (Lw T1 T2 t : ℝ) : ℝ :=
  if t ≤ T1 then -Lw + 0.6 * Lw * (t / T1) else if t ≤ T2 then -0.4 * Lw + (0.4 * Lw - 0.3) * ((t - T1) / (T2 - T1)) else -0.3

/-- The `y` coordinate of the leading edge. -/
noncomputable def ey (W T1 T2 t : ℝ) : ℝ :=
  if t ≤ T1 then W - 0.5 * W * (t / T1) else if t ≤ T2 then 0.5 * W - 0.35 * W * ((t - T1) / (T2 - T1)) ^ 2
  else 0.15 * W * (1 - (t - T2) / (1 - T2))

section
variable {Lw W T1 T2 : ℝ} (h0 : 0 < T1) (h1 : T1 < T2) (h2 : T2 < 1) (hL : 0.75 < Lw) (hW : 0 < W)
include h0 h1

theorem ex_first {t : ℝ} (ht : t ≤ T1) : ex Lw T1 T2 t = -Lw + 0.6 * Lw * (t / T1) := if_pos ht

theorem ex_second {t : ℝ} (ht : T1 ≤ t) (ht' : t ≤ T2) : ex Lw T1 T2 t = -0.4 * Lw + (0.4 * Lw - 0.3) * ((t - T1) / (T2 - T1)) := by
  rcases ht.lt_or_eq with h | rfl
  · unfold ex; rw [if_neg (not_le.2 h), if_pos ht']
  · unfold ex; rw [if_pos le_rfl, div_self h0.ne']; simp; ring

theorem ex_third {t : ℝ} (ht : T2 ≤ t) : ex Lw T1 T2 t = -0.3 := by
  rcases ht.lt_or_eq with h | rfl
  · unfold ex; rw [if_neg (not_le.2 (by linarith)), if_neg (not_le.2 h)]
  · rw [ex_second h0 h1 h1.le le_rfl, div_self (by linarith)]; ring

theorem ey_first {t : ℝ} (ht : t ≤ T1) : ey W T1 T2 t = W - 0.5 * W * (t / T1) := if_pos ht

theorem ey_second {t : ℝ} (ht : T1 ≤ t) (ht' : t ≤ T2) : ey W T1 T2 t = 0.5 * W - 0.35 * W * ((t - T1) / (T2 - T1)) ^ 2 := by
  rcases ht.lt_or_eq with h | rfl
  · unfold ey; rw [if_neg (not_le.2 h), if_pos ht']
  · unfold ey; rw [if_pos le_rfl, div_self h0.ne']; simp; ring

theorem ey_third {t : ℝ} (ht : T2 ≤ t) : ey W T1 T2 t = 0.15 * W * (1 - (t - T2) / (1 - T2)) := by
  rcases ht.lt_or_eq with h | rfl
  · unfold ey; rw [if_neg (not_le.2 (by linarith)), if_neg (not_le.2 h)]
  · rw [ey_second h0 h1 h1.le le_rfl, div_self (by linarith), sub_self, zero_div]; ring

theorem ex_zero : ex Lw T1 T2 0 = -Lw := by rw [ex_first h0 h1 h0.le]; simp
theorem ey_zero : ey W T1 T2 0 = W := by rw [ey_first h0 h1 h0.le]; simp
theorem ex_break : ex Lw T1 T2 T1 = -0.4 * Lw := by rw [ex_second h0 h1 le_rfl h1.le]; simp

include h2 in
theorem ex_one : ex Lw T1 T2 1 = -0.3 := ex_third h0 h1 h2.le

include h2 in
theorem ey_one : ey W T1 T2 1 = 0 := by rw [ey_third h0 h1 h2.le, div_self (by linarith)]; ring

include h2 hL in
theorem ex_rises : ∃ K, Rises K (ex Lw T1 T2) 0 1 := by
  have d1 : 0 < T2 - T1 := by linarith
  refine ⟨max (0.6 * Lw / T1) ((0.4 * Lw - 0.3) / (T2 - T1)), ?_⟩
  have r1 : Rises (0.6 * Lw / T1) (ex Lw T1 T2) 0 T1 := by
    intro t u ht htu hu
    rw [ex_first h0 h1 hu, ex_first h0 h1 (htu.trans hu)]
    have : -Lw + 0.6 * Lw * (u / T1) - (-Lw + 0.6 * Lw * (t / T1)) = 0.6 * Lw / T1 * (u - t) := by ring
    rw [this]
    exact ⟨mul_nonneg (div_nonneg (by linarith) h0.le) (by linarith), le_rfl⟩
  have r2 : Rises ((0.4 * Lw - 0.3) / (T2 - T1)) (ex Lw T1 T2) T1 T2 := by
    intro t u ht htu hu
    rw [ex_second h0 h1 (ht.trans htu) hu, ex_second h0 h1 ht (htu.trans hu)]
    have : -0.4 * Lw + (0.4 * Lw - 0.3) * ((u - T1) / (T2 - T1)) - (-0.4 * Lw + (0.4 * Lw - 0.3) * ((t - T1) / (T2 - T1))) =
        (0.4 * Lw - 0.3) / (T2 - T1) * (u - t) := by ring
    rw [this]
    exact ⟨mul_nonneg (div_nonneg (by linarith) d1.le) (by linarith), le_rfl⟩
  have r3 : Rises 0 (ex Lw T1 T2) T2 1 := by
    intro t u ht htu hu
    rw [ex_third h0 h1 ht, ex_third h0 h1 (ht.trans htu)]
    simp
  refine ((r1.mono (le_max_left _ _)).glue (r2.mono (le_max_right _ _))).glue (r3.mono ?_)
  exact le_max_of_le_left (div_nonneg (by linarith) h0.le)

include hL in
theorem ex_strict {t u : ℝ} (ht : 0 ≤ t) (htu : t < u) (ht2 : t < T2) : ex Lw T1 T2 t < ex Lw T1 T2 u := by
  have d1 : 0 < T2 - T1 := by linarith
  have s1 : ∀ {a b : ℝ}, a < b → b ≤ T1 → ex Lw T1 T2 a < ex Lw T1 T2 b := by
    intro a b hab hb
    rw [ex_first h0 h1 hb, ex_first h0 h1 (hab.le.trans hb)]
    have : a / T1 < b / T1 := by gcongr
    nlinarith
  have s2 : ∀ {a b : ℝ}, a < b → T1 ≤ a → b ≤ T2 → ex Lw T1 T2 a < ex Lw T1 T2 b := by
    intro a b hab ha hb
    rw [ex_second h0 h1 (ha.trans hab.le) hb, ex_second h0 h1 ha (hab.le.trans hb)]
    have : (a - T1) / (T2 - T1) < (b - T1) / (T2 - T1) := by gcongr
    nlinarith
  have s3 : ∀ {a : ℝ}, T2 ≤ a → ex Lw T1 T2 a = ex Lw T1 T2 T2 := by
    intro a ha
    rw [ex_third h0 h1 ha, ex_third h0 h1 le_rfl]
  have s12 : ∀ {b : ℝ}, t < b → b ≤ T2 → ex Lw T1 T2 t < ex Lw T1 T2 b := by
    intro b hb hb2
    rcases le_total b T1 with h | h
    · exact s1 hb h
    · rcases le_or_gt T1 t with h' | h'
      · exact s2 hb h' hb2
      · have k := s1 h' le_rfl
        rcases h.lt_or_eq with h | rfl
        · exact k.trans (s2 h le_rfl hb2)
        · exact k
  rcases le_total u T2 with h | h
  · exact s12 htu h
  · rw [s3 h]; exact s12 ht2 le_rfl

include hL in
/-- In front of the break across the nose, a point of the leading edge is known by its `x`. -/
theorem ex_inj {t u : ℝ} (ht : 0 ≤ t) (hu : 0 ≤ u) (ht2 : t < T2) (he : ex Lw T1 T2 u = ex Lw T1 T2 t) : u = t := by
  rcases lt_trichotomy t u with h | h | h
  · exact absurd he (ex_strict h0 h1 hL ht h ht2).ne'
  · exact h.symm
  · exact absurd he (ex_strict h0 h1 hL hu h (h.trans ht2)).ne

include h2 hW in
/-- The leading edge runs inwards, at most with a slope given by the lengths of its parts. -/
theorem ey_falls (K : ℝ) (k1 : 0.5 * W ≤ K * T1) (k2 : 0.7 * W ≤ K * (T2 - T1)) (k3 : 0.15 * W ≤ K * (1 - T2)) :
    Rises K (fun t => -ey W T1 T2 t) 0 1 := by
  have d1 : 0 < T2 - T1 := by linarith
  have d2 : 0 < 1 - T2 := by linarith
  have r1 : Rises K (fun t => -ey W T1 T2 t) 0 T1 := by
    intro t u ht htu hu
    simp only [ey_first h0 h1 hu, ey_first h0 h1 (htu.trans hu)]
    have : -(W - 0.5 * W * (u / T1)) - -(W - 0.5 * W * (t / T1)) = 0.5 * W / T1 * (u - t) := by ring
    rw [this]
    exact ⟨mul_nonneg (div_nonneg (by linarith) h0.le) (by linarith), mul_le_mul_of_nonneg_right ((div_le_iff₀ h0).2 k1) (by linarith)⟩
  have r2 : Rises K (fun t => -ey W T1 T2 t) T1 T2 := by
    intro t u ht htu hu
    simp only [ey_second h0 h1 (ht.trans htu) hu, ey_second h0 h1 ht (htu.trans hu)]
    have a0 : 0 ≤ (t - T1) / (T2 - T1) := div_nonneg (by linarith) d1.le
    have a1 : (u - T1) / (T2 - T1) ≤ 1 := (div_le_one d1).2 (by linarith)
    have a2 : (u - T1) / (T2 - T1) - (t - T1) / (T2 - T1) = (u - t) / (T2 - T1) := by ring
    have a3 : 0 ≤ (u - t) / (T2 - T1) := div_nonneg (by linarith) d1.le
    have a4 : 0.7 * W * ((u - t) / (T2 - T1)) ≤ K * (u - t) := by
      rw [show 0.7 * W * ((u - t) / (T2 - T1)) = 0.7 * W / (T2 - T1) * (u - t) by ring]
      exact mul_le_mul_of_nonneg_right ((div_le_iff₀ d1).2 k2) (by linarith)
    set a := (t - T1) / (T2 - T1)
    set b := (u - T1) / (T2 - T1)
    set c := (u - t) / (T2 - T1)
    have hb : b = a + c := by linarith
    constructor
    · have : 0 ≤ 0.35 * W * (b ^ 2 - a ^ 2) := by
        refine mul_nonneg (by linarith) ?_
        rw [hb]; nlinarith
      linarith
    · have : 0.35 * W * (b ^ 2 - a ^ 2) ≤ 0.7 * W * c := by
        have e : b ^ 2 - a ^ 2 = c * (a + b) := by rw [hb]; ring
        have : c * (a + b) ≤ c * 2 := mul_le_mul_of_nonneg_left (by linarith) a3
        rw [e]
        nlinarith
      linarith
  have r3 : Rises K (fun t => -ey W T1 T2 t) T2 1 := by
    intro t u ht htu hu
    simp only [ey_third h0 h1 ht, ey_third h0 h1 (ht.trans htu)]
    have : -(0.15 * W * (1 - (u - T2) / (1 - T2))) - -(0.15 * W * (1 - (t - T2) / (1 - T2))) = 0.15 * W / (1 - T2) * (u - t) := by ring
    rw [this]
    exact ⟨mul_nonneg (div_nonneg (by linarith) d2.le) (by linarith), mul_le_mul_of_nonneg_right ((div_le_iff₀ d2).2 k3) (by linarith)⟩
  exact (r1.glue r2).glue r3

end

end D21
end HV
