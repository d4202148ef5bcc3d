import Mathlib.Analysis.Calculus.Deriv.MeanValue
import Mathlib.Analysis.Calculus.Deriv.Slope
import Mathlib.Analysis.Calculus.Deriv.Pow
import Mathlib.Analysis.Calculus.Deriv.Add
import Mathlib.Analysis.Calculus.Deriv.Mul
import Mathlib.Analysis.Calculus.Deriv.Comp

/-!
# One-sided difference quotients
-/

namespace HV

/-- A function whose derivative grows at most at the rate `K` to the right of `v` lies below its parabola. -/
theorem below_parabola (f f' : ℝ → ℝ) (v w K : ℝ) (hw : v ≤ w) (hf : ∀ q ∈ Set.Icc v w, HasDerivAt f (f' q) q)
    (hK : ∀ q ∈ Set.Icc v w, f' q - f' v ≤ K * (q - v)) : f w - f v - f' v * (w - v) ≤ K * (w - v) ^ 2 / 2 := by
  have hg : ∀ q ∈ Set.Icc v w, HasDerivAt (fun q => f q - f' v * (q - v) - K * (q - v) ^ 2 / 2) (f' q - f' v - K * (q - v)) q := by
    intro q hq
    have h1 : HasDerivAt (fun q : ℝ => q - v) 1 q := (hasDerivAt_id q).sub_const v
    have h2 := ((hf q hq).sub (h1.const_mul (f' v))).sub (((h1.pow 2).const_mul K).div_const 2)
    refine h2.congr_deriv ?_
    simp only [Nat.cast_ofNat, Nat.add_one_sub_one, pow_one, mul_one]
    ring
  have hanti : AntitoneOn (fun q => f q - f' v * (q - v) - K * (q - v) ^ 2 / 2) (Set.Icc v w) := by
    apply antitoneOn_of_deriv_nonpos (convex_Icc v w)
    · exact fun q hq => (hg q hq).continuousAt.continuousWithinAt
    · intro q hq
      exact (hg q (interior_subset hq)).differentiableAt.differentiableWithinAt
    · intro q hq
      have hq' := interior_subset hq
      rw [(hg q hq').deriv]
      linarith [hK q hq']
  have := hanti (Set.left_mem_Icc.2 hw) (Set.right_mem_Icc.2 hw) hw
  simp only [sub_self, mul_zero, sub_zero, zero_pow two_ne_zero, zero_div] at this
  linarith

theorem quotient_error_right (f f' : ℝ → ℝ) (v w K : ℝ) (hw : v < w) (hf : ∀ q ∈ Set.Icc v w, HasDerivAt f (f' q) q)
    (hK : ∀ q ∈ Set.Icc v w, |f' q - f' v| ≤ K * |q - v|) : |(f w - f v) / (w - v) - f' v| ≤ K * |w - v| / 2 := by
  have hp : 0 < w - v := sub_pos.2 hw
  have h1 := below_parabola f f' v w K hw.le hf fun q hq => by
    have := (abs_le.1 (hK q hq)).2
    rwa [abs_of_nonneg (sub_nonneg.2 hq.1)] at this
  have h2 := below_parabola (fun q => -f q) (fun q => -f' q) v w K hw.le (fun q hq => (hf q hq).neg) fun q hq => by
    have := (abs_le.1 (hK q hq)).1
    rw [abs_of_nonneg (sub_nonneg.2 hq.1)] at this
    linarith
  have e : (f w - f v) / (w - v) - f' v = (f w - f v - f' v * (w - v)) / (w - v) := by field_simp
  rw [e, abs_div, abs_of_pos hp, div_le_iff₀ hp, abs_le]
  constructor <;> nlinarith

/-- The difference quotient of a function with a derivative of Lipschitz constant `K` at `v` misses the derivative by at most
half of `K` times the step. -/
theorem quotient_error (f f' : ℝ → ℝ) (v w K : ℝ) (hw : w ≠ v) (hf : ∀ q ∈ Set.uIcc v w, HasDerivAt f (f' q) q)
    (hK : ∀ q ∈ Set.uIcc v w, |f' q - f' v| ≤ K * |q - v|) : |(f w - f v) / (w - v) - f' v| ≤ K * |w - v| / 2 := by
  rcases lt_or_gt_of_ne hw with h | h
  · rw [Set.uIcc_of_ge h.le] at hf hK
    have := quotient_error_right (fun q => f (-q)) (fun q => -f' (-q)) (-v) (-w) K (by linarith) (fun q hq => by
      have h1 := hf (-q) ⟨by linarith [hq.2], by linarith [hq.1]⟩
      have := HasDerivAt.comp (h₂ := f) q h1 (hasDerivAt_neg q)
      rw [mul_neg, mul_one] at this
      exact this) (fun q hq => by
      have := hK (-q) ⟨by linarith [hq.2], by linarith [hq.1]⟩
      rw [show -f' (-q) - -f' (- -v) = -(f' (-q) - f' v) by rw [neg_neg]; ring, abs_neg, show q - -v = -(-q - v) by ring, abs_neg]
      exact this)
    simp only [neg_neg] at this
    rw [show -w - -v = -(w - v) by ring, abs_neg, div_neg, show -((f w - f v) / (w - v)) - -f' v = -((f w - f v) / (w - v) - f' v) by ring,
      abs_neg] at this
    exact this
  · rw [Set.uIcc_of_le h.le] at hf hK
    exact quotient_error_right f f' v w K h hf hK

/-- Difference quotients converge to the derivative. -/
theorem quotient_limit (f : ℝ → ℝ) (d v : ℝ) (hf : HasDerivAt f d v) (ε : ℝ) (hε : 0 < ε) :
    ∃ δ > 0, ∀ w, w ≠ v → |w - v| < δ → |(f w - f v) / (w - v) - d| < ε := by
  have h := hasDerivAt_iff_tendsto_slope.1 hf
  rw [Metric.tendsto_nhdsWithin_nhds] at h
  obtain ⟨δ, hδ, h⟩ := h ε hε
  refine ⟨δ, hδ, fun w hw hd => ?_⟩
  have := h (x := w) hw (by rw [Real.dist_eq]; exact hd)
  rw [Real.dist_eq, slope_def_field] at this
  exact this

end HV
