import Verif.Model.Bisect
import Mathlib.Topology.Order.IntermediateValue
import Mathlib.Topology.Instances.Real.Lemmas
import Mathlib.Topology.Algebra.Order.Field

/-!
# Bisection finds a root
-/

namespace HV

theorem round6_near (x : ℝ) : |round6 x - x| ≤ 5e-7 := by
  have h := abs_sub_round (x * 10 ^ 6)
  unfold round6
  rw [abs_le] at h ⊢
  constructor
  · have : x - (round (x * 10 ^ 6) : ℝ) / 10 ^ 6 ≤ 5e-7 := by
      rw [sub_le_iff_le_add, ← sub_le_iff_le_add', le_div_iff₀ (by norm_num)]
      linarith [h.2]
    linarith
  · rw [sub_le_iff_le_add, div_le_iff₀ (by norm_num)]
    linarith [h.1]

theorem round6_mem {x : ℝ} (h : x ∈ Set.Icc (0 : ℝ) 1) : round6 x ∈ Set.Icc (0 : ℝ) 1 := by
  have h0 : 0 ≤ x * 10 ^ 6 := by have := h.1; positivity
  have h1 : x * 10 ^ 6 ≤ ((10 ^ 6 : ℤ) : ℝ) := by push_cast; nlinarith [h.2]
  have r0 : (0 : ℤ) ≤ round (x * 10 ^ 6) := by
    rw [round_eq]; exact Int.floor_nonneg.2 (by linarith)
  have r1 : round (x * 10 ^ 6) ≤ (10 ^ 6 : ℤ) := by
    rw [round_eq, ← Int.lt_add_one_iff, Int.floor_lt]
    push_cast at h1 ⊢
    linarith
  unfold round6
  constructor
  · have : (0 : ℝ) ≤ round (x * 10 ^ 6) := by exact_mod_cast r0
    positivity
  · rw [div_le_one (by norm_num)]
    have : ((round (x * 10 ^ 6) : ℤ) : ℝ) ≤ ((10 ^ 6 : ℤ) : ℝ) := by exact_mod_cast r1
    exact this.trans (by norm_num)

/-- The loop, from an interval with a change of sign: it returns a point within the tolerance of a root.  `k` iterations suffice once
`d / 2 ^ k` is below the tolerance. -/
theorem bisectLoop_root (f : ℝ → Res ℝ) (g : ℝ → ℝ) (hf : ∀ t ∈ Set.Icc (0 : ℝ) 1, f t = .ok (g t))
    (hc : ContinuousOn g (Set.Icc 0 1)) (fa : ℝ) (k : ℕ) : ∀ (xa d : ℝ), 0 ≤ xa → 0 < d → xa + d ≤ 1 → (g xa < 0 ↔ fa < 0) →
    g xa ≠ 0 → g (xa + d) ≠ 0 → ¬ (g (xa + d) < 0 ↔ fa < 0) → d * (1 / 2) ^ k < 2e-12 → 0 < k →
    ∃ t ∈ Set.Icc (0 : ℝ) 1, bisectLoop f fa k xa d = .ok t ∧ ∃ r ∈ Set.Icc (0 : ℝ) 1, g r = 0 ∧ |t - r| ≤ 3e-12 := by
  induction k with
  | zero => intro _ _ _ _ _ _ _ _ _ _ h; omega
  | succ k ih =>
    intro xa d h0 hd h1 hs hna hnb hsb hk _
    have hm : xa + d * 0.5 ∈ Set.Icc (0 : ℝ) 1 := ⟨by positivity, by linarith⟩
    have root : ∃ r ∈ Set.Icc xa (xa + d), g r = 0 := by
      have hsub : Set.Icc xa (xa + d) ⊆ Set.Icc 0 1 := Set.Icc_subset_Icc h0 h1
      by_cases hneg : g xa < 0
      · have hp : 0 ≤ g (xa + d) := by
          by_contra h
          exact hsb ⟨fun _ => hs.1 hneg, fun _ => not_le.1 h⟩
        exact intermediate_value_Icc (by linarith) (hc.mono hsub) ⟨hneg.le, hp⟩
      · have hp : g (xa + d) ≤ 0 := by
          by_contra h
          refine hsb ⟨fun h' => absurd h' (by linarith [not_le.1 h]), fun h' => absurd (hs.2 h') hneg⟩
        exact intermediate_value_Icc' (by linarith) (hc.mono hsub) ⟨hp, not_lt.1 hneg⟩
    unfold bisectLoop
    simp only [hf _ hm, bind, Except.bind, pure, Except.pure]
    by_cases hz : g (xa + d * 0.5) = 0
    · rw [if_pos (.inl hz)]
      exact ⟨_, hm, rfl, _, hm, hz, by rw [sub_self, abs_zero]; norm_num⟩
    by_cases ht : |d * 0.5| < 2e-12 + 4 * 2 ^ (-52 : ℤ) * |xa + d * 0.5|
    · rw [if_pos (.inr ht)]
      obtain ⟨r, hr, hg⟩ := root
      refine ⟨_, hm, rfl, r, ⟨h0.trans hr.1, hr.2.trans h1⟩, hg, ?_⟩
      rw [abs_of_pos (by positivity), abs_of_nonneg hm.1] at ht
      have hp : (2 : ℝ) ^ (-52 : ℤ) ≤ 1e-13 := by norm_num [zpow_neg]
      have : |xa + d * 0.5 - r| ≤ d * 0.5 := abs_le.2 ⟨by linarith [hr.2], by linarith [hr.1]⟩
      nlinarith [hm.2, hm.1]
    rw [if_neg (by tauto)]
    have hk0 : 0 < k := by
      rcases Nat.eq_zero_or_pos k with rfl | h
      · exfalso
        apply ht
        rw [abs_of_pos (by positivity)]
        have : 0 ≤ 4 * (2 : ℝ) ^ (-52 : ℤ) * |xa + d * 0.5| := by positivity
        have : d * (1 / 2) ^ (0 + 1) = d * 0.5 := by norm_num
        linarith
      · exact h
    have hk' : d * 0.5 * (1 / 2) ^ k < 2e-12 := by
      have : d * 0.5 * (1 / 2) ^ k = d * (1 / 2) ^ (k + 1) := by rw [pow_succ]; ring
      rwa [this]
    by_cases hsm : (g (xa + d * 0.5) < 0 ↔ fa < 0)
    · rw [if_pos hsm]
      have he : xa + d * 0.5 + d * 0.5 = xa + d := by ring
      exact ih _ _ hm.1 (by positivity) (by linarith) hsm hz (by rw [he]; exact hnb) (by rw [he]; exact hsb) hk' hk0
    · rw [if_neg hsm]
      exact ih _ _ h0 (by positivity) hm.2 hs hna hz hsm hk' hk0

/-- Bisection on the unit interval. -/
theorem scipyBisect_root (f : ℝ → Res ℝ) (g : ℝ → ℝ) (hf : ∀ t ∈ Set.Icc (0 : ℝ) 1, f t = .ok (g t))
    (hc : ContinuousOn g (Set.Icc 0 1)) (hs : g 0 * g 1 ≤ 0) :
    ∃ t ∈ Set.Icc (0 : ℝ) 1, scipyBisect f 0 1 = .ok t ∧ ∃ r ∈ Set.Icc (0 : ℝ) 1, g r = 0 ∧ |t - r| ≤ 3e-12 := by
  have z0 : (0 : ℝ) ∈ Set.Icc (0 : ℝ) 1 := ⟨le_rfl, zero_le_one⟩
  have z1 : (1 : ℝ) ∈ Set.Icc (0 : ℝ) 1 := ⟨zero_le_one, le_rfl⟩
  unfold scipyBisect
  simp only [hf _ z0, hf _ z1, bind, Except.bind, pure, Except.pure]
  by_cases h0 : g 0 = 0
  · rw [if_pos h0]
    exact ⟨0, z0, rfl, 0, z0, h0, by norm_num⟩
  rw [if_neg h0]
  by_cases h1 : g 1 = 0
  · rw [if_pos h1]
    exact ⟨1, z1, rfl, 1, z1, h1, by norm_num⟩
  rw [if_neg h1]
  have hsign : ¬ (g 1 < 0 ↔ g 0 < 0) := by
    intro h
    rcases lt_or_gt_of_ne h0 with hn | hp
    · nlinarith [h.2 hn]
    · rcases lt_or_gt_of_ne h1 with hn' | hp'
      · linarith [h.1 hn']
      · nlinarith
  rw [if_neg (by tauto)]
  exact bisectLoop_root f g hf hc (g 0) 100 0 (1 - 0) le_rfl (by norm_num) (by norm_num) Iff.rfl h0 (by simpa using h1)
    (by simpa using hsign) (by norm_num) (by norm_num)

theorem scipyBisect_right (f : ℝ → Res ℝ) (y : ℝ) (h0 : f 0 = .ok y) (hy : y ≠ 0) (h1 : f 1 = .ok 0) : scipyBisect f 0 1 = .ok 1 := by
  unfold scipyBisect
  simp only [h0, h1, bind, Except.bind, pure, Except.pure, if_neg hy, if_true]

end HV
