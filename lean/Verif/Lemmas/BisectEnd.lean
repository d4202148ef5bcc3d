import Verif.Lemmas.Planform
import Verif.Props.X43

/-!
# Bisection near the right end, and Bezier curves of degree three and four
-/

namespace HV
open Spec

/-- The loop started from an interval of at least the tolerance stays away from its right end by half the tolerance. -/
theorem bisectLoop_end (f : ℝ → Res ℝ) (g : ℝ → ℝ) (hf : ∀ t ∈ Set.Icc (0 : ℝ) 1, f t = .ok (g t)) (fa : ℝ) (k : ℕ) :
    ∀ (xa d : ℝ), 0 ≤ xa → 2e-12 ≤ d → xa + d ≤ 1 → ∀ t, bisectLoop f fa k xa d = .ok t → 1e-12 ≤ 1 - t := by
  induction k with
  | zero => intro xa d _ _ _ t h; simp [bisectLoop] at h
  | succ k ih =>
    intro xa d h0 hd h1 t h
    have hm : xa + d * 0.5 ∈ Set.Icc (0 : ℝ) 1 := ⟨by linarith, by linarith⟩
    unfold bisectLoop at h
    simp only [hf _ hm, bind, Except.bind, pure, Except.pure] at h
    split_ifs at h with hc hs
    · obtain rfl := Except.ok.inj h
      linarith
    all_goals
      have hn : ¬ |d * 0.5| < 2e-12 + 4 * 2 ^ (-52 : ℤ) * |xa + d * 0.5| := fun h => hc (.inr h)
      rw [abs_of_pos (by linarith)] at hn
      have hp : 0 ≤ 4 * (2 : ℝ) ^ (-52 : ℤ) * |xa + d * 0.5| := by positivity
      have hd' : 2e-12 ≤ d * 0.5 := by linarith
    · exact ih _ _ hm.1 hd' (by linarith) t h
    · exact ih _ _ h0 hd' hm.2 t h

/-- Bisection on the unit interval: besides being within the tolerance of a root, the result is the right end only if that is a root, and
otherwise keeps away from it. -/
theorem scipyBisect_end (f : ℝ → Res ℝ) (g : ℝ → ℝ) (hf : ∀ t ∈ Set.Icc (0 : ℝ) 1, f t = .ok (g t))
    (hc : ContinuousOn g (Set.Icc 0 1)) (hs : g 0 * g 1 ≤ 0) :
    ∃ t ∈ Set.Icc (0 : ℝ) 1, scipyBisect f 0 1 = .ok t ∧ (∃ r ∈ Set.Icc (0 : ℝ) 1, g r = 0 ∧ |t - r| ≤ 3e-12) ∧
      (g 0 = 0 → t = 0) ∧ (t = 1 ∧ g 1 = 0 ∨ 1e-12 ≤ 1 - t) := by
  obtain ⟨t, ht, he, hr⟩ := scipyBisect_root f g hf hc hs
  refine ⟨t, ht, he, hr, ?_⟩
  have z0 : (0 : ℝ) ∈ Set.Icc (0 : ℝ) 1 := ⟨le_rfl, zero_le_one⟩
  have z1 : (1 : ℝ) ∈ Set.Icc (0 : ℝ) 1 := ⟨zero_le_one, le_rfl⟩
  unfold scipyBisect at he
  simp only [hf _ z0, hf _ z1, bind, Except.bind, pure, Except.pure, throw, throwThe, MonadExceptOf.throw] at he
  by_cases h0 : g 0 = 0
  · rw [if_pos h0] at he
    obtain rfl := Except.ok.inj he
    exact ⟨fun _ => rfl, .inr (by norm_num)⟩
  refine ⟨fun h => absurd h h0, ?_⟩
  rw [if_neg h0] at he
  by_cases h1 : g 1 = 0
  · rw [if_pos h1] at he
    obtain rfl := Except.ok.inj he
    exact .inl ⟨rfl, h1⟩
  rw [if_neg h1] at he
  split_ifs at he
  exact .inr (bisectLoop_end f g hf _ 100 0 (1 - 0) le_rfl (by norm_num) (by norm_num) t he)

/-- Bezier curves of degree three. -/
theorem bezier4 (a b c d : V) (t : ℝ) : (Bezier [a, b, c, d]).call t =
    .ok ⟨a.x * (1 - t) ^ 3 + 3 * b.x * t * (1 - t) ^ 2 + 3 * c.x * t ^ 2 * (1 - t) + d.x * t ^ 3,
      a.y * (1 - t) ^ 3 + 3 * b.y * t * (1 - t) ^ 2 + 3 * c.y * t ^ 2 * (1 - t) + d.y * t ^ 3,
      a.z * (1 - t) ^ 3 + 3 * b.z * t * (1 - t) ^ 2 + 3 * c.z * t ^ 2 * (1 - t) + d.z * t ^ 3⟩ := by
  simp only [Bezier, Bezier.call, Bezier.work, Bezier.inner, bind, Except.bind, pure, Except.pure, Except.ok.injEq]
  simp [List.range_succ, Function.update]
  ext <;> simp <;> ring

/-- Bezier curves of degree four. -/
theorem bezier5 (a b c d e : V) (t : ℝ) : (Bezier [a, b, c, d, e]).call t =
    .ok ⟨a.x * (1 - t) ^ 4 + 4 * b.x * t * (1 - t) ^ 3 + 6 * c.x * t ^ 2 * (1 - t) ^ 2 + 4 * d.x * t ^ 3 * (1 - t) + e.x * t ^ 4,
      a.y * (1 - t) ^ 4 + 4 * b.y * t * (1 - t) ^ 3 + 6 * c.y * t ^ 2 * (1 - t) ^ 2 + 4 * d.y * t ^ 3 * (1 - t) + e.y * t ^ 4,
      a.z * (1 - t) ^ 4 + 4 * b.z * t * (1 - t) ^ 3 + 6 * c.z * t ^ 2 * (1 - t) ^ 2 + 4 * d.z * t ^ 3 * (1 - t) + e.z * t ^ 4⟩ := by
  simp only [Bezier, Bezier.call, Bezier.work, Bezier.inner, bind, Except.bind, pure, Except.pure, Except.ok.injEq]
  simp [List.range_succ, Function.update]
  ext <;> simp <;> ring

end HV
