import Verif.Model.Path
import Mathlib.Analysis.SpecialFunctions.Pow.Continuity
import Mathlib.Analysis.SpecialFunctions.Pow.Deriv
import Mathlib.Analysis.Convex.Deriv
import Mathlib.Topology.Order.IntermediateValue
import Mathlib.Tactic.Linarith
import Mathlib.Tactic.LinearCombination
import Mathlib.Tactic.FieldSimp
import Mathlib.Tactic.Positivity

/-!
# Properties C18, C19: Roberts clustering and point distributions
-/

namespace HV

namespace Roberts

/-- The base `(β+1)/(β-1)`. -/
noncomputable def K (β : ℝ) : ℝ := (β + 1) / (β - 1)

theorem one_lt_K {β : ℝ} (h : 1 < β) : 1 < K β := by
  unfold K; rw [lt_div_iff₀ (by linarith)]; linarith

/-- The one-sided stretching. -/
noncomputable def r (β x : ℝ) : ℝ := β * ((K β ^ x - 1) / (K β ^ x + 1))

theorem K_mul {β : ℝ} (h : 1 < β) : K β * (β - 1) = β + 1 := by
  unfold K; rw [div_mul_cancel₀]; linarith

theorem r_zero (β : ℝ) : r β 0 = 0 := by simp [r]

theorem r_one {β : ℝ} (h : 1 < β) : r β 1 = 1 := by
  have hK := one_lt_K h
  have := K_mul h
  unfold r
  rw [Real.rpow_one, ← mul_div_assoc, div_eq_one_iff_eq (by linarith)]
  linarith

theorem r_neg {β : ℝ} (h : 1 < β) (x : ℝ) : r β (-x) = - r β x := by
  have hK := one_lt_K h
  have hp : 0 < K β ^ x := Real.rpow_pos_of_pos (by linarith) x
  unfold r
  rw [Real.rpow_neg (by linarith)]
  have e : ((K β ^ x)⁻¹ - 1) / ((K β ^ x)⁻¹ + 1) = - ((K β ^ x - 1) / (K β ^ x + 1)) := by
    field_simp
    ring
  rw [e]; ring

theorem r_strictMono {β : ℝ} (h : 1 < β) : StrictMono (r β) := by
  intro x y hxy
  have hK := one_lt_K h
  have hp : 0 < K β ^ x := Real.rpow_pos_of_pos (by linarith) x
  have hlt : K β ^ x < K β ^ y := Real.rpow_lt_rpow_of_exponent_lt hK hxy
  unfold r
  apply mul_lt_mul_of_pos_left _ (by linarith)
  rw [div_lt_div_iff₀ (by linarith) (by linarith)]
  nlinarith

theorem r_continuous {β : ℝ} (h : 1 < β) : Continuous (r β) := by
  have hK := one_lt_K h
  have hc : Continuous fun x : ℝ => K β ^ x := by
    apply Continuous.rpow continuous_const continuous_id
    intro x; left; show K β ≠ 0; linarith
  unfold r
  refine continuous_const.mul (Continuous.div (hc.sub continuous_const) (hc.add continuous_const) ?_)
  intro x
  have : 0 < K β ^ x := Real.rpow_pos_of_pos (by linarith) x
  linarith

/-- The one-sided stretching is strictly concave, so it lies above the diagonal. -/
theorem r_gt {β : ℝ} (h : 1 < β) {x : ℝ} (h0 : 0 < x) (h1 : x < 1) : x < r β x := by
  have hK := one_lt_K h
  have hlog : 0 < Real.log (K β) := Real.log_pos hK
  have hp : ∀ x : ℝ, 0 < K β ^ x := fun x => Real.rpow_pos_of_pos (by linarith) x
  have hd : ∀ x : ℝ, HasDerivAt (fun x : ℝ => (K β ^ x - 1) / (K β ^ x + 1))
      (2 * Real.log (K β) * (K β ^ x / (K β ^ x + 1) ^ 2)) x := by
    intro x
    have e : HasDerivAt (fun x : ℝ => K β ^ x) (Real.log (K β) * 1 * K β ^ x) x :=
      HasDerivAt.const_rpow (by linarith) (hasDerivAt_id x)
    have := (e.sub_const 1).fun_div (e.add_const 1) (by have := hp x; linarith)
    refine this.congr_deriv ?_
    have := hp x
    field_simp
    ring
  have hconc : StrictConcaveOn ℝ (Set.Ici (0 : ℝ)) (fun x : ℝ => (K β ^ x - 1) / (K β ^ x + 1)) := by
    apply StrictAntiOn.strictConcaveOn_of_deriv (convex_Ici 0)
    · exact fun x _ => (hd x).continuousAt.continuousWithinAt
    · rw [interior_Ici]
      intro a ha b hb hab
      rw [(hd a).deriv, (hd b).deriv]
      apply mul_lt_mul_of_pos_left _ (by positivity)
      have h1a : 1 < K β ^ a := Real.one_lt_rpow hK ha
      have hlt : K β ^ a < K β ^ b := Real.rpow_lt_rpow_of_exponent_lt hK hab
      rw [div_lt_div_iff₀ (by positivity) (by positivity)]
      nlinarith [mul_pos (sub_pos.2 hlt) (show 0 < K β ^ a * K β ^ b - 1 by nlinarith)]
  have h01 : (0 : ℝ) ≠ 1 := by norm_num
  have := hconc.2 (show (0 : ℝ) ∈ Set.Ici (0 : ℝ) by simp) (show (1 : ℝ) ∈ Set.Ici (0 : ℝ) by simp) h01
    (show 0 < 1 - x by linarith) h0 (by ring)
  have r1 := r_one h
  unfold r at r1 ⊢
  simp only [smul_eq_mul, Real.rpow_zero, sub_self, zero_div, mul_zero, zero_add, mul_one] at this
  calc x = β * (x * ((K β ^ (1 : ℝ) - 1) / (K β ^ (1 : ℝ) + 1))) := by
        linear_combination (-x) * r1
    _ < _ := mul_lt_mul_of_pos_left this (by linarith)

theorem roberts_zero {β : ℝ} (h : 1 < β) (η : ℝ) : roberts η 0 β = .ok (r β η) := by
  have hK := one_lt_K h
  have hp : 0 < K β ^ η := Real.rpow_pos_of_pos (by linarith) η
  have h1 : β - 1 ≠ 0 := by linarith
  have h2 : (1 : ℝ) + K β ^ η ≠ 0 := by linarith
  unfold roberts pdiv
  simp only [h1, bind, Except.bind, sub_zero, one_ne_zero, if_false, div_one, mul_zero, add_zero,
    zero_add, one_mul]
  rw [show (β + 1) / (β - 1) = K β from rfl, if_neg h2]
  congr 1
  unfold r
  rw [add_comm (1 : ℝ)]
  ring

theorem roberts_half {β : ℝ} (h : 1 < β) (η : ℝ) :
    roberts η 0.5 β = .ok (1 / 2 + r β (2 * η - 1) / 2) := by
  have hK := one_lt_K h
  have h1 : β - 1 ≠ 0 := by linarith
  have e : (η - 0.5) / (1 - 0.5) = 2 * η - 1 := by norm_num; ring
  have hp : 0 < K β ^ (2 * η - 1) := Real.rpow_pos_of_pos (by linarith) _
  have h2 : (2 * 0.5 + 1) * (1 + K β ^ (2 * η - 1)) ≠ 0 := by
    have : 0 < (2 * 0.5 + 1) * (1 + K β ^ (2 * η - 1)) := by norm_num; linarith
    exact this.ne'
  unfold roberts pdiv
  simp only [h1, bind, Except.bind, if_false, e]
  rw [if_neg (by norm_num)]
  simp only []
  rw [show (β + 1) / (β - 1) = K β from rfl, if_neg h2]
  congr 1
  unfold r
  have h3 : 1 + K β ^ (2 * η - 1) ≠ 0 := by linarith
  rw [add_comm (K β ^ (2 * η - 1)) 1]
  norm_num
  field_simp
  ring

/-- The stretching function for each flag combination. -/
noncomputable def f (end1 end2 : Bool) (β η : ℝ) : ℝ :=
  match end1, end2 with
  | false, false => η
  | true, true => 1 / 2 + r β (2 * η - 1) / 2
  | true, false => 1 - r β (1 - η)
  | false, true => r β η

theorem clustered_eq {β : ℝ} (h : 1 < β) (end1 end2 : Bool) (η : ℝ) :
    clusteredRoberts η end1 end2 β = .ok (f end1 end2 β η) := by
  have hb : ¬ β < 1 := by linarith
  cases end1 <;> cases end2 <;>
    simp [clusteredRoberts, f, hb, roberts_zero h, roberts_half h, bind, Except.bind, pure, Except.pure]

theorem f_strictMono {β : ℝ} (h : 1 < β) (e1 e2 : Bool) : StrictMono (f e1 e2 β) := by
  have hr := r_strictMono h
  intro x y hxy
  cases e1 <;> cases e2 <;> simp only [f]
  · exact hxy
  · exact hr hxy
  · have := hr (show 1 - y < 1 - x by linarith); linarith
  · have := hr (show 2 * x - 1 < 2 * y - 1 by linarith); linarith

theorem f_continuous {β : ℝ} (h : 1 < β) (e1 e2 : Bool) : Continuous (f e1 e2 β) := by
  have hr := r_continuous h
  cases e1 <;> cases e2 <;> unfold f <;> simp only []
  · exact continuous_id
  · exact hr
  · exact continuous_const.sub (hr.comp (continuous_const.sub continuous_id))
  · exact continuous_const.add
      ((hr.comp ((continuous_const.mul continuous_id).sub continuous_const)).div_const 2)

theorem f_zero {β : ℝ} (h : 1 < β) (e1 e2 : Bool) : f e1 e2 β 0 = 0 := by
  have h1 := r_one h
  have h2 := r_neg h 1
  cases e1 <;> cases e2 <;> simp [f, r_zero, h1, h2]
  norm_num

theorem f_one {β : ℝ} (h : 1 < β) (e1 e2 : Bool) : f e1 e2 β 1 = 1 := by
  have h1 := r_one h
  cases e1 <;> cases e2 <;> simp [f, r_zero, h1] <;> norm_num [h1]

end Roberts

open Roberts

/-- C18: for `β > 1` the clustering function is defined everywhere, is strictly increasing, fixes 0
and 1 and is a bijection of `[0,1]`, for every combination of end flags. -/
theorem C18_roberts (β : ℝ) (h : 1 < β) (end1 end2 : Bool) :
    ∃ g : ℝ → ℝ, (∀ η, clusteredRoberts η end1 end2 β = .ok (g η)) ∧ g 0 = 0 ∧ g 1 = 1 ∧
      StrictMono g ∧ Set.BijOn g (Set.Icc 0 1) (Set.Icc 0 1) := by
  refine ⟨f end1 end2 β, clustered_eq h end1 end2, f_zero h _ _, f_one h _ _, f_strictMono h _ _, ?_⟩
  have hm := f_strictMono h end1 end2
  have hs := intermediate_value_Icc (f := f end1 end2 β) (zero_le_one' ℝ)
    (f_continuous h end1 end2).continuousOn
  rw [f_zero h, f_one h] at hs
  refine ⟨?_, hm.injective.injOn, hs⟩
  intro x hx
  constructor
  · rw [← f_zero h end1 end2]; exact hm.monotone hx.1
  · rw [← f_one h end1 end2]; exact hm.monotone hx.2

/-- C18: points are moved towards the selected end (towards 0 for the first end, towards 1 for the
second, outwards from the middle for both, symmetrically). -/
theorem C18_direction (β : ℝ) (h : 1 < β) (η : ℝ) (h0 : 0 < η) (h1 : η < 1) :
    (∃ a, clusteredRoberts η true false β = .ok a ∧ a < η) ∧
    (∃ a, clusteredRoberts η false true β = .ok a ∧ η < a) ∧
    (∃ a, clusteredRoberts η true true β = .ok a ∧ (η < 1 / 2 → a < η) ∧ (1 / 2 < η → η < a) ∧
      clusteredRoberts (1 - η) true true β = .ok (1 - a)) := by
  refine ⟨⟨_, clustered_eq h _ _ _, ?_⟩, ⟨_, clustered_eq h _ _ _, ?_⟩, ⟨_, clustered_eq h _ _ _, ?_, ?_, ?_⟩⟩
  · have := r_gt h (x := 1 - η) (by linarith) (by linarith)
    simp only [f]; linarith
  · exact r_gt h h0 h1
  · intro hh
    have := r_gt h (x := 1 - 2 * η) (by linarith) (by linarith)
    have h2 := r_neg h (1 - 2 * η)
    simp only [f]
    rw [show 2 * η - 1 = -(1 - 2 * η) by ring, h2]; linarith
  · intro hh
    have := r_gt h (x := 2 * η - 1) (by linarith) (by linarith)
    simp only [f]; linarith
  · rw [clustered_eq h]
    simp only [f, Except.ok.injEq]
    rw [show 2 * (1 - η) - 1 = -(2 * η - 1) by ring, r_neg h]
    ring

/-- C18: without a selected end, or with `β < 1`, clustering is the identity. -/
theorem C18_identity (β η : ℝ) (end1 end2 : Bool) (h : (end1 = false ∧ end2 = false) ∨ β < 1) :
    clusteredRoberts η end1 end2 β = .ok η := by
  unfold clusteredRoberts
  rcases h with ⟨rfl, rfl⟩ | h
  · simp
  · simp [h]

example : (1 : ℝ) < 1.05 := by norm_num

/-! ## C19 -/

theorem mapM_ok {α β : Type} (l : List α) (g : α → Res β) (h : α → β) (hg : ∀ x ∈ l, g x = .ok (h x)) :
    l.mapM g = .ok (l.map h) := by
  induction l with
  | nil => rfl
  | cons a l ih =>
    rw [List.mapM_cons, hg a (by simp), ih fun x hx => hg x (by simp [hx])]
    rfl

theorem linspace01_length (n : ℕ) : (linspace01 n).length = n := by simp [linspace01]

theorem linspace01_get (n i : ℕ) (h : i < (linspace01 (n + 1)).length) :
    (linspace01 (n + 1))[i] = (i : ℝ) / n := by
  simp [linspace01]

/-- The list runs from `a` to `b` in `n` strictly increasing steps (`n+1` values). -/
def Spec.RunsFromTo (l : List ℝ) (a b : ℝ) (n : ℕ) : Prop :=
  l.length = n + 1 ∧ l.head? = some a ∧ l.getLast? = some b ∧ l.Pairwise (· < ·)

theorem runs_map (g : ℝ → ℝ) (n : ℕ) (hn : 1 ≤ n) (hg : StrictMono g) :
    Spec.RunsFromTo ((linspace01 (n + 1)).map g) (g 0) (g 1) n := by
  have hn0 : (0 : ℝ) < n := by exact_mod_cast hn
  refine ⟨by simp [linspace01], ?_, ?_, ?_⟩
  · rw [List.head?_eq_getElem?, List.getElem?_eq_getElem (by simp [linspace01])]
    simp [linspace01]
  · rw [List.getLast?_eq_getElem?, List.getElem?_eq_getElem (by simp [linspace01])]
    simp [linspace01, hn0.ne']
  · rw [List.pairwise_map]
    unfold linspace01
    rw [List.pairwise_map]
    refine List.Pairwise.imp ?_ List.pairwise_lt_range
    intro a b hab
    apply hg
    push_cast
    rw [add_sub_cancel_right]
    apply div_lt_div_of_pos_right _ hn0
    exact_mod_cast hab

/-- C19: `distribute_points` gives `n+1` strictly increasing values from `t1` to `t2`, for every
interval, flag combination and admissible `β` (clustered `β > 1`, or not clustered). -/
theorem C19_distribute (t1 t2 β : ℝ) (n : ℕ) (end1 end2 : Bool) (hn : 1 ≤ n) (ht : t1 < t2)
    (hβ : 1 < β ∨ β < 1) :
    ∃ l, distributePoints t1 t2 n end1 end2 β = .ok l ∧ Spec.RunsFromTo l t1 t2 n := by
  have key : ∀ g : ℝ → ℝ, (∀ η, clusteredRoberts η end1 end2 β = .ok (g η)) → g 0 = 0 → g 1 = 1 →
      StrictMono g → ∃ l, distributePoints t1 t2 n end1 end2 β = .ok l ∧ Spec.RunsFromTo l t1 t2 n := by
    intro g hg g0 g1 hm
    have hm' : StrictMono fun η => (1 - g η) * t1 + g η * t2 := by
      intro a b hab
      have := hm hab
      simp only []
      nlinarith
    have := runs_map _ n hn hm'
    simp only [g0, g1] at this
    refine ⟨(linspace01 (n + 1)).map fun η => (1 - g η) * t1 + g η * t2, ?_, by simpa using this⟩
    apply mapM_ok
    intro x _
    simp [hg, bind, Except.bind, pure, Except.pure]
  rcases hβ with h | h
  · obtain ⟨g, h1, h2, h3, h4, -⟩ := C18_roberts β h end1 end2
    exact key g h1 h2 h3 h4
  · exact key id (fun η => C18_identity β η end1 end2 (.inr h)) rfl rfl strictMono_id

/-- C19: the cluster functions distribute `nv` values from 0 to 1. -/
theorem C19_cluster_functions (β : ℝ) (nv : ℕ) (end0 end1 : Bool) (hn : 2 ≤ nv) (hβ : 1 < β ∨ β < 1) :
    (∃ l, RobertsFunction.distribute end0 end1 β nv = .ok l ∧ Spec.RunsFromTo l 0 1 (nv - 1)) ∧
    Spec.RunsFromTo (LinearFunction.distribute nv) 0 1 (nv - 1) ∧
    ∃ l, RobertsFunction.distribute end0 end1 β nv = .ok l ∧
      (LinearFunction.distribute nv).mapM (RobertsFunction.call end0 end1 β) = .ok l := by
  obtain ⟨m, rfl⟩ : ∃ m, nv = m + 1 := ⟨nv - 1, by omega⟩
  have hm : 1 ≤ m := by omega
  refine ⟨C19_distribute 0 1 β m end0 end1 hm (by norm_num) hβ, ?_, ?_⟩
  · have := runs_map id m hm strictMono_id
    simpa [LinearFunction.distribute] using this
  · obtain ⟨l, hl, -⟩ := C19_distribute 0 1 β m end0 end1 hm (by norm_num) hβ
    refine ⟨l, hl, ?_⟩
    rw [← hl]
    unfold distributePoints LinearFunction.distribute RobertsFunction.call
    congr 1
    funext η
    cases clusteredRoberts η end0 end1 β <;> simp [bind, Except.bind, pure, Except.pure]

example : ∃ l, distributePoints 2 5 3 true false 1.1 = .ok l ∧ Spec.RunsFromTo l 2 5 3 :=
  C19_distribute 2 5 1.1 3 true false (by norm_num) (by norm_num) (.inl (by norm_num))

end HV
