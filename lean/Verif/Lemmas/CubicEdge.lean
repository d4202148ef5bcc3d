import Mathlib.Tactic.Linarith
import Mathlib.Tactic.Ring
import Mathlib.Tactic.Positivity
import Mathlib.Data.Real.Basic
import Mathlib.Topology.Instances.Real.Lemmas

/-!
# Cubic curves that run forwards and inwards
-/

namespace HV.Cubic

/-- One coordinate of a cubic Bezier curve. -/
noncomputable def bez (a b c d t : ℝ) : ℝ := a * (1 - t) ^ 3 + 3 * b * t * (1 - t) ^ 2 + 3 * c * t ^ 2 * (1 - t) + d * t ^ 3

theorem bez_zero (a b c d : ℝ) : bez a b c d 0 = a := by unfold bez; ring
theorem bez_one (a b c d : ℝ) : bez a b c d 1 = d := by unfold bez; ring

theorem bez_continuous (a b c d : ℝ) : Continuous (bez a b c d) := by unfold bez; fun_prop

/-- The difference of two values, by the steps between the control points. -/
theorem bez_sub (a b c d t u : ℝ) : bez a b c d u - bez a b c d t =
    (u - t) * ((b - a) * ((1 - t) ^ 2 + (1 - t) * (1 - u) + (1 - u) ^ 2) + (c - b) * (3 * (u + t) - 2 * (u ^ 2 + u * t + t ^ 2)) +
      (d - c) * (u ^ 2 + u * t + t ^ 2)) := by
  unfold bez; ring

theorem weights {t u : ℝ} (ht : t ∈ Set.Icc (0 : ℝ) 1) (hu : u ∈ Set.Icc (0 : ℝ) 1) :
    0 ≤ (1 - t) ^ 2 + (1 - t) * (1 - u) + (1 - u) ^ 2 ∧ (1 - t) ^ 2 + (1 - t) * (1 - u) + (1 - u) ^ 2 ≤ 3 ∧
      0 ≤ 3 * (u + t) - 2 * (u ^ 2 + u * t + t ^ 2) ∧ 3 * (u + t) - 2 * (u ^ 2 + u * t + t ^ 2) ≤ 3 ∧
      0 ≤ u ^ 2 + u * t + t ^ 2 ∧ u ^ 2 + u * t + t ^ 2 ≤ 3 := by
  obtain ⟨a, b⟩ := ht
  obtain ⟨c, d⟩ := hu
  have e := mul_nonneg a c
  have e1 := mul_nonneg a (sub_nonneg.2 b)
  have e2 := mul_nonneg c (sub_nonneg.2 d)
  have e3 := mul_nonneg a (sub_nonneg.2 d)
  have e4 := mul_nonneg c (sub_nonneg.2 b)
  have e5 := mul_nonneg (sub_nonneg.2 b) (sub_nonneg.2 d)
  refine ⟨?_, ?_, ?_, ?_, ?_, ?_⟩ <;> nlinarith [sq_nonneg (t - u), sq_nonneg (t + u - 1), sq_nonneg t, sq_nonneg u, sq_nonneg (1 - t), sq_nonneg (1 - u)]

/-- Control points in increasing order: the curve does not go back, and not faster than three times the whole step. -/
theorem bez_incr {a b c d t u : ℝ} (h1 : a ≤ b) (h2 : b ≤ c) (h3 : c ≤ d) (ht : t ∈ Set.Icc (0 : ℝ) 1) (hu : u ∈ Set.Icc (0 : ℝ) 1) (h : t ≤ u) :
    0 ≤ bez a b c d u - bez a b c d t ∧ bez a b c d u - bez a b c d t ≤ 3 * (d - a) * (u - t) := by
  obtain ⟨w1, w2, w3, w4, w5, w6⟩ := weights ht hu
  rw [bez_sub]
  have e1 := sub_nonneg.2 h1
  have e2 := sub_nonneg.2 h2
  have e3 := sub_nonneg.2 h3
  have e := sub_nonneg.2 h
  constructor
  · positivity
  · rw [mul_comm (3 * (d - a))]
    refine mul_le_mul_of_nonneg_left ?_ e
    nlinarith [mul_le_mul_of_nonneg_left w2 e1, mul_le_mul_of_nonneg_left w4 e2, mul_le_mul_of_nonneg_left w6 e3]

theorem bez_neg (a b c d t : ℝ) : bez (-a) (-b) (-c) (-d) t = -bez a b c d t := by unfold bez; ring

/-- Control points in decreasing order. -/
theorem bez_decr {a b c d t u : ℝ} (h1 : b ≤ a) (h2 : c ≤ b) (h3 : d ≤ c) (ht : t ∈ Set.Icc (0 : ℝ) 1) (hu : u ∈ Set.Icc (0 : ℝ) 1) (h : t ≤ u) :
    0 ≤ bez a b c d t - bez a b c d u ∧ bez a b c d t - bez a b c d u ≤ 3 * (a - d) * (u - t) := by
  have := bez_incr (a := -a) (b := -b) (c := -c) (d := -d) (by linarith) (by linarith) (by linarith) ht hu h
  rw [bez_neg, bez_neg] at this
  constructor
  · linarith [this.1]
  · nlinarith [this.2]

/-- The first step positive: the curve goes forwards. -/
theorem bez_strict {a b c d t u : ℝ} (h1 : a < b) (h2 : b ≤ c) (h3 : c ≤ d) (ht : t ∈ Set.Icc (0 : ℝ) 1) (hu : u ∈ Set.Icc (0 : ℝ) 1) (h : t < u) :
    bez a b c d t < bez a b c d u := by
  obtain ⟨w1, w2, w3, w4, w5, w6⟩ := weights ht hu
  have := bez_sub a b c d t u
  have e2 := sub_nonneg.2 h2
  have e3 := sub_nonneg.2 h3
  have e1 : 0 < b - a := sub_pos.2 h1
  have e : 0 < u - t := sub_pos.2 h
  have ht1 : 0 < 1 - t := by linarith [hu.2]
  have hu1 : 0 ≤ 1 - u := by linarith [hu.2]
  have : 0 < (u - t) * ((b - a) * ((1 - t) ^ 2 + (1 - t) * (1 - u) + (1 - u) ^ 2) + (c - b) * (3 * (u + t) - 2 * (u ^ 2 + u * t + t ^ 2)) +
      (d - c) * (u ^ 2 + u * t + t ^ 2)) := by positivity
  linarith

/-- A curve that ends at zero keeps above the straight line from its last but one point. -/
theorem bez_low {a b c t : ℝ} (h1 : b ≤ a) (h2 : c ≤ b) (h3 : 0 ≤ c) (ht : t ∈ Set.Icc (0 : ℝ) 1) : c * (1 - t) ≤ bez a b c 0 t := by
  have e : bez a b c 0 t = (a - b) * (1 - t) ^ 3 + (b - c) * ((1 - t) ^ 2 * (1 + 2 * t)) + c * ((1 - t) * (1 + t + t ^ 2)) := by unfold bez; ring
  rw [e]
  obtain ⟨t0, t1⟩ := ht
  have e1 := sub_nonneg.2 h1
  have e2 := sub_nonneg.2 h2
  have e3 := sub_nonneg.2 t1
  have k1 : 0 ≤ (a - b) * (1 - t) ^ 3 := by positivity
  have k2 : 0 ≤ (b - c) * ((1 - t) ^ 2 * (1 + 2 * t)) := by positivity
  have k3 : 0 ≤ c * ((1 - t) * (t + t ^ 2)) := by positivity
  nlinarith

/-- The height of a section: the cubic with heights `a`, `a`, `b`, `0`, at parameters that may lie a little beyond the end. -/
theorem section_bounds {a b s : ℝ} (h0 : 0 ≤ b) (h1 : b ≤ a) (hs : 0 ≤ s) :
    (s ≤ 1 → 0 ≤ bez a a b 0 s ∧ bez a a b 0 s ≤ a) ∧
    (1 ≤ s → -(3 * a * s ^ 2 * (s - 1)) ≤ bez a a b 0 s ∧ bez a a b 0 s ≤ a * ((s - 1) ^ 2 * (2 * s + 1))) := by
  have ha := h0.trans h1
  constructor
  · intro h
    have hs1 := sub_nonneg.2 h
    have e : bez a a b 0 s = a * ((1 - s) ^ 2 * (1 + 2 * s)) + b * (3 * s ^ 2 * (1 - s)) := by unfold bez; ring
    have e' : a - bez a a b 0 s = (a - b) * (3 * s ^ 2 * (1 - s)) + a * s ^ 3 := by unfold bez; ring
    have e1 := sub_nonneg.2 h1
    constructor
    · rw [e]; positivity
    · have : 0 ≤ (a - b) * (3 * s ^ 2 * (1 - s)) + a * s ^ 3 := by positivity
      linarith
  · intro h
    have hs1 := sub_nonneg.2 h
    have e : bez a a b 0 s = a * ((s - 1) ^ 2 * (2 * s + 1)) - b * (3 * s ^ 2 * (s - 1)) := by unfold bez; ring
    have k1 : 0 ≤ a * ((s - 1) ^ 2 * (2 * s + 1)) := by positivity
    have k2 : 0 ≤ b * (3 * s ^ 2 * (s - 1)) := by positivity
    have k3 : 0 ≤ (a - b) * (3 * s ^ 2 * (s - 1)) := mul_nonneg (sub_nonneg.2 h1) (by positivity)
    rw [e]
    constructor <;> nlinarith

/-- The height of a section just beyond the end. -/
theorem section_small {a b s : ℝ} (h0 : 0 ≤ b) (h1 : b ≤ a) (hs : 0 ≤ s) (h : s ≤ 1.1) : |bez a a b 0 s| ≤ a := by
  have ha := h0.trans h1
  obtain ⟨l, u⟩ := section_bounds h0 h1 hs
  rcases le_total s 1 with h' | h'
  · rw [abs_of_nonneg (l h').1]; exact (l h').2
  · obtain ⟨u1, u2⟩ := u h'
    have k1 : s ^ 2 * (s - 1) ≤ 0.2 := by nlinarith
    have k2 : (s - 1) ^ 2 * (2 * s + 1) ≤ 1 := by nlinarith
    rw [abs_le]
    constructor
    · nlinarith [mul_le_mul_of_nonneg_left k1 ha]
    · nlinarith [mul_le_mul_of_nonneg_left k2 ha]

/-- The line of a body of revolution of five points, from the axis to the axis. -/
noncomputable def fuseX (f L t : ℝ) : ℝ := 4 * f * t * (1 - t) ^ 3 + 6 * (L / 2) * t ^ 2 * (1 - t) ^ 2 + 4 * (L - f) * t ^ 3 * (1 - t) + L * t ^ 4
noncomputable def fuseY (a b t : ℝ) : ℝ := 4 * a * t * (1 - t) ^ 3 + 6 * b * t ^ 2 * (1 - t) ^ 2 + 4 * a * t ^ 3 * (1 - t)

theorem fuseX_continuous (f L : ℝ) : Continuous (fuseX f L) := by unfold fuseX; fun_prop
theorem fuseX_zero (f L : ℝ) : fuseX f L 0 = 0 := by unfold fuseX; ring
theorem fuseX_one (f L : ℝ) : fuseX f L 1 = L := by unfold fuseX; ring

theorem fuseX_end {f L t : ℝ} (hL : 0 ≤ L) (h1 : L / 8 ≤ f) (h2 : f ≤ L) (ht : t ∈ Set.Icc (0 : ℝ) 1) : L / 2 * (1 - t) ≤ L - fuseX f L t := by
  have e : L - fuseX f L t = (1 - t) * (L + (L - 4 * f) * (t - 2 * t ^ 2)) := by unfold fuseX; ring
  rw [e, mul_comm]
  refine mul_le_mul_of_nonneg_left ?_ (by linarith [ht.2])
  obtain ⟨t0, t1⟩ := ht
  have k1 : -1 ≤ t - 2 * t ^ 2 := by nlinarith
  have k2 : t - 2 * t ^ 2 ≤ 1 / 8 := by nlinarith [sq_nonneg (4 * t - 1)]
  rcases le_total (t - 2 * t ^ 2) 0 with h | h
  · nlinarith
  · nlinarith

theorem fuseY_bounds {a b F t : ℝ} (ha : 0 ≤ a) (hb : 0 ≤ b) (aF : a ≤ F) (bF : b ≤ F) (ht : t ∈ Set.Icc (0 : ℝ) 1) :
    0 ≤ fuseY a b t ∧ fuseY a b t ≤ F ∧ fuseY a b t ≤ 4 * F * (1 - t) := by
  obtain ⟨t0, t1⟩ := ht
  have hF := ha.trans aF
  have s0 := sub_nonneg.2 t1
  have w1 : 0 ≤ t * (1 - t) ^ 3 := by positivity
  have w2 : 0 ≤ t ^ 2 * (1 - t) ^ 2 := by positivity
  have w3 : 0 ≤ t ^ 3 * (1 - t) := by positivity
  have hle : fuseY a b t ≤ F * (4 * (t * (1 - t) ^ 3) + 6 * (t ^ 2 * (1 - t) ^ 2) + 4 * (t ^ 3 * (1 - t))) := by
    unfold fuseY
    nlinarith [mul_le_mul_of_nonneg_right aF w1, mul_le_mul_of_nonneg_right bF w2, mul_le_mul_of_nonneg_right aF w3]
  refine ⟨by unfold fuseY; positivity, hle.trans ?_, hle.trans ?_⟩
  · have e : 4 * (t * (1 - t) ^ 3) + 6 * (t ^ 2 * (1 - t) ^ 2) + 4 * (t ^ 3 * (1 - t)) = 1 - (1 - t) ^ 4 - t ^ 4 := by ring
    rw [e]
    have : 0 ≤ (1 - t) ^ 4 + t ^ 4 := by positivity
    nlinarith
  · have e : 4 * (t * (1 - t) ^ 3) + 6 * (t ^ 2 * (1 - t) ^ 2) + 4 * (t ^ 3 * (1 - t)) = (1 - t) * (4 * t - 2 * t ^ 2 * (1 - t)) := by ring
    rw [e]
    have k : 4 * t - 2 * t ^ 2 * (1 - t) ≤ 4 := by nlinarith [mul_nonneg (sq_nonneg t) s0]
    nlinarith [mul_le_mul_of_nonneg_left k (mul_nonneg hF s0)]

end HV.Cubic
