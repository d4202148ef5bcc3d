import Verif.Lemmas.PolylineRun
import Verif.Lemmas.Panels
import Mathlib.Topology.MetricSpace.Lipschitz

/-!
# The broken line through three points
-/

namespace HV
open Spec

/-- The length of the broken line `p1 p2 p3`. -/
noncomputable def Spec.brokenLength (p1 p2 p3 : V) : ℝ := vdist p1 p2 + vdist p2 p3

/-- The fraction of the length of the broken line `p1 p2 p3` that lies before `p2`. -/
noncomputable def Spec.breakAt (p1 p2 p3 : V) : ℝ := vdist p1 p2 / brokenLength p1 p2 p3

theorem vdist_pos {u v : V} (h : u ≠ v) : 0 < vdist u v := dist_pos.2 fun e => h (Vec.toE_injective e)

theorem vdist_lineAt (p q : V) (s t : ℝ) : vdist (lineAt p q s) (lineAt p q t) = |s - t| * vdist p q := by
  unfold vdist lineAt
  rw [dist_eq_norm, Vec.toE_add, Vec.toE_add, Vec.toE_mul, Vec.toE_mul, Vec.toE_mul, Vec.toE_mul]
  have : (1 - s) • toE p + s • toE q - ((1 - t) • toE p + t • toE q) = (t - s) • (toE p - toE q) := by
    module
  rw [this, norm_smul, dist_eq_norm, Real.norm_eq_abs, abs_sub_comm]

theorem breakAt_mem (p1 p2 p3 : V) (h12 : p1 ≠ p2) (h23 : p2 ≠ p3) : 0 < breakAt p1 p2 p3 ∧ breakAt p1 p2 p3 < 1 := by
  have h1 := vdist_pos h12
  have h2 := vdist_pos h23
  unfold breakAt brokenLength
  exact ⟨by positivity, (div_lt_one (by positivity)).2 (by linarith)⟩

/-- A function that runs along the broken line with constant speed. -/
structure Broken (p1 p2 p3 : V) (PL : ℝ → V) : Prop where
  first : ∀ s, 0 ≤ s → s ≤ 1 → PL (breakAt p1 p2 p3 * s) = lineAt p1 p2 s
  second : ∀ s, 0 ≤ s → s ≤ 1 → PL (1 - (1 - breakAt p1 p2 p3) * s) = lineAt p3 p2 s

/-- The polyline of two lines. -/
theorem polyline_broken (p1 p2 p3 : V) (h12 : p1 ≠ p2) (h23 : p2 ≠ p3) :
    ∃ line PL, Polyline [Line p1 p2, Line p2 p3] = .ok line ∧ (∀ t, line.call t = .ok (PL t)) ∧ Broken p1 p2 p3 PL := by
  have hg : ∀ s ∈ [Line p1 p2, Line p2 p3], GoodSeg s := by
    intro s hs
    simp only [List.mem_cons, List.not_mem_nil, or_false] at hs
    rcases hs with rfl | rfl
    · exact goodLine _ _ h12
    · exact goodLine _ _ h23
  obtain ⟨line, hl, good, h0, h1, hact⟩ := goodPolyline [Line p1 p2, Line p2 p3] (by simp) hg
  refine ⟨line, fnOf line, hl, good.call, ?_⟩
  have hp1 := vdist_pos h12
  have hp2 := vdist_pos h23
  have len1 : lenOf (Line p1 p2) = vdist p1 p2 := by
    unfold lenOf Line; simp only [Vec.abs_sub_eq_vdist]; rw [vdist_comm]
  have len2 : lenOf (Line p2 p3) = vdist p2 p3 := by
    unfold lenOf Line; simp only [Vec.abs_sub_eq_vdist]; rw [vdist_comm]
  have b0 : bp lenOf [Line p1 p2, Line p2 p3] 0 = 0 := by simp [bp]
  have b1 : bp lenOf [Line p1 p2, Line p2 p3] 1 = breakAt p1 p2 p3 := by simp [bp, breakAt, brokenLength, len1, len2]
  have b2 : bp lenOf [Line p1 p2, Line p2 p3] 2 = 1 := by
    simp [bp, len1, len2]
    intro hz; linarith
  obtain ⟨hτ0, hτ1⟩ := breakAt_mem p1 p2 p3 h12 h23
  set τ := breakAt p1 p2 p3 with hτ
  have fl : ∀ (p q : V) (t : ℝ), fnOf (Line p q) t = lineAt p q t := fun p q t => rfl
  constructor
  · intro s s0 s1
    obtain ⟨i, hi, u, hu, -, ha, he, hv⟩ := hact (τ * s) ⟨by positivity, by nlinarith⟩
    have hi0 : i = 0 := by
      rcases ha.2.1 with h | h
      · exact h
      · have hi' : i < 2 := hi
        by_contra hne
        obtain rfl : i = 1 := by omega
        rw [b1] at h
        nlinarith
    subst hi0
    rw [hv, he, b0, b1, sub_zero, sub_zero, mul_div_cancel_left₀ _ hτ0.ne']
    exact fl _ _ _
  · intro s s0 s1
    obtain ⟨i, hi, u, hu, -, ha, he, hv⟩ := hact (1 - (1 - τ) * s) ⟨by nlinarith, by nlinarith⟩
    have hi' : i < 2 := hi
    rcases (by omega : i = 0 ∨ i = 1) with rfl | rfl
    · have h : 1 - (1 - τ) * s ≤ τ := by
        rcases ha.2.2 with h | h
        · simp at h
        · rwa [b1] at h
      have hs1 : s = 1 := by nlinarith
      subst hs1
      rw [hv, he, b0, b1]
      have : (1 - (1 - τ) * 1 - 0) / (τ - 0) = 1 := by
        rw [sub_zero, sub_zero]
        have : 1 - (1 - τ) * 1 = τ := by ring
        rw [this, div_self hτ0.ne']
      rw [this]
      show lineAt p1 p2 1 = lineAt p3 p2 1
      ext <;> simp [lineAt]
    · rw [hv, he, b1, b2]
      show lineAt p2 p3 _ = lineAt p3 p2 s
      have : (1 - (1 - τ) * s - τ) / (1 - τ) = 1 - s := by
        have : 1 - τ ≠ 0 := by linarith
        field_simp
        ring
      rw [this]
      ext <;> simp [lineAt] <;> ring

namespace Broken
variable {p1 p2 p3 : V} {PL : ℝ → V} (h : Broken p1 p2 p3 PL) (h12 : p1 ≠ p2) (h23 : p2 ≠ p3)
include h

theorem at_zero : PL 0 = p1 := by
  have := h.first 0 le_rfl zero_le_one
  rw [mul_zero] at this
  rw [this]; ext <;> simp [lineAt]

theorem at_one : PL 1 = p3 := by
  have := h.second 0 le_rfl zero_le_one
  rw [mul_zero, sub_zero] at this
  rw [this]; ext <;> simp [lineAt]

theorem at_break : PL (breakAt p1 p2 p3) = p2 := by
  have := h.first 1 zero_le_one le_rfl
  rw [mul_one] at this
  rw [this]; ext <;> simp [lineAt]

include h12 h23

/-- The speed is the length. -/
theorem lipschitz (s t : ℝ) (hs : s ∈ Set.Icc (0 : ℝ) 1) (ht : t ∈ Set.Icc (0 : ℝ) 1) :
    vdist (PL s) (PL t) ≤ brokenLength p1 p2 p3 * |s - t| := by
  obtain ⟨hτ0, hτ1⟩ := breakAt_mem p1 p2 p3 h12 h23
  have hL : 0 < brokenLength p1 p2 p3 := by
    unfold brokenLength; linarith [vdist_pos h12, vdist_pos h23]
  set τ := breakAt p1 p2 p3 with hτ
  have e1 : vdist p1 p2 = brokenLength p1 p2 p3 * τ := by
    rw [hτ]; unfold breakAt; field_simp
  have e2 : vdist p3 p2 = brokenLength p1 p2 p3 * (1 - τ) := by
    have : brokenLength p1 p2 p3 = vdist p1 p2 + vdist p2 p3 := rfl
    rw [vdist_comm]; linarith
  have low : ∀ s t, 0 ≤ s → s ≤ τ → 0 ≤ t → t ≤ τ → vdist (PL s) (PL t) ≤ brokenLength p1 p2 p3 * |s - t| := by
    intro s t s0 s1 t0 t1
    have hs := h.first (s / τ) (by positivity) ((div_le_one hτ0).2 s1)
    have ht := h.first (t / τ) (by positivity) ((div_le_one hτ0).2 t1)
    rw [← hτ, mul_div_cancel₀ _ hτ0.ne'] at hs ht
    rw [hs, ht, vdist_lineAt, e1, ← sub_div, abs_div, abs_of_pos hτ0]
    apply le_of_eq
    field_simp
  have high : ∀ s t, τ ≤ s → s ≤ 1 → τ ≤ t → t ≤ 1 → vdist (PL s) (PL t) ≤ brokenLength p1 p2 p3 * |s - t| := by
    intro s t s0 s1 t0 t1
    have hp : 0 < 1 - τ := by linarith
    have hs := h.second ((1 - s) / (1 - τ)) (div_nonneg (by linarith) hp.le) ((div_le_one hp).2 (by linarith))
    have ht := h.second ((1 - t) / (1 - τ)) (div_nonneg (by linarith) hp.le) ((div_le_one hp).2 (by linarith))
    rw [← hτ, mul_div_cancel₀ _ hp.ne', sub_sub_cancel] at hs ht
    rw [hs, ht, vdist_lineAt, e2, ← sub_div, abs_div, abs_of_pos hp]
    have : |1 - s - (1 - t)| = |s - t| := by rw [abs_sub_comm s t]; congr 1; ring
    rw [this]
    apply le_of_eq
    field_simp
  have mid : ∀ s t, 0 ≤ s → s ≤ τ → τ ≤ t → t ≤ 1 → vdist (PL s) (PL t) ≤ brokenLength p1 p2 p3 * |s - t| := by
    intro s t s0 s1 t0 t1
    have a := low s τ s0 s1 hτ0.le le_rfl
    have b := high τ t le_rfl hτ1.le t0 t1
    have c := vdist_triangle (PL s) (PL τ) (PL t)
    rw [abs_of_nonpos (by linarith)] at a b ⊢
    nlinarith
  rcases le_total s τ with h1 | h1 <;> rcases le_total t τ with h2 | h2
  · exact low s t hs.1 h1 ht.1 h2
  · exact mid s t hs.1 h1 h2 ht.2
  · rw [vdist_comm, abs_sub_comm]; exact mid t s ht.1 h2 h1 hs.2
  · exact high s t h1 hs.2 h2 ht.2

/-- The `x` coordinate reaches the value at `p2` only there, if it is strictly between the values at the ends. -/
theorem root_unique (hx : (p1.x - p2.x) * (p3.x - p2.x) < 0) (t : ℝ) (ht : t ∈ Set.Icc (0 : ℝ) 1) (hr : (PL t).x = p2.x) :
    t = breakAt p1 p2 p3 := by
  obtain ⟨hτ0, hτ1⟩ := breakAt_mem p1 p2 p3 h12 h23
  have n1 : p1.x - p2.x ≠ 0 := by intro h; rw [h] at hx; simp at hx
  have n3 : p3.x - p2.x ≠ 0 := by intro h; rw [h] at hx; simp at hx
  set τ := breakAt p1 p2 p3 with hτ
  rcases le_total t τ with h1 | h1
  · have hs := h.first (t / τ) (div_nonneg ht.1 hτ0.le) ((div_le_one hτ0).2 h1)
    rw [← hτ, mul_div_cancel₀ _ hτ0.ne'] at hs
    rw [hs] at hr
    simp only [lineAt, Vec.add_x, Vec.mul_x] at hr
    have : (1 - t / τ) * (p1.x - p2.x) = 0 := by linarith
    rcases mul_eq_zero.1 this with h | h
    · field_simp at h; linarith
    · exact absurd h n1
  · have hp : 0 < 1 - τ := by linarith
    have hs := h.second ((1 - t) / (1 - τ)) (div_nonneg (by linarith [ht.2]) hp.le) ((div_le_one hp).2 (by linarith))
    rw [← hτ, mul_div_cancel₀ _ hp.ne', sub_sub_cancel] at hs
    rw [hs] at hr
    simp only [lineAt, Vec.add_x, Vec.mul_x] at hr
    have : (1 - (1 - t) / (1 - τ)) * (p3.x - p2.x) = 0 := by linarith
    rcases mul_eq_zero.1 this with h | h
    · field_simp at h; linarith
    · exact absurd h n3

theorem continuous_x : ContinuousOn (fun t => (PL t).x) (Set.Icc 0 1) := by
  have hL : 0 ≤ brokenLength p1 p2 p3 := by
    unfold brokenLength; linarith [vdist_pos h12, vdist_pos h23]
  have : LipschitzOnWith (brokenLength p1 p2 p3).toNNReal (fun t => (PL t).x) (Set.Icc 0 1) := by
    apply LipschitzOnWith.of_dist_le_mul
    intro s hs t ht
    rw [Real.coe_toNNReal _ hL, Real.dist_eq, Real.dist_eq]
    refine le_trans ?_ (h.lipschitz h12 h23 s t hs ht)
    apply abs_le_of_sq_le_sq _ (vdist_nonneg _ _)
    rw [vdist_sq]
    nlinarith [sq_nonneg ((PL s).y - (PL t).y), sq_nonneg ((PL s).z - (PL t).z)]
  exact this.continuousOn

end Broken

end HV
