import Verif.Lemmas.PolylineRun
import Verif.Lemmas.GenerateTotal

/-!
# C102: the parametric Falcon 9
-/

namespace HV
open Spec Veh

/-- The dimensions of the generator for which the drawing makes sense: the nose radius is less than the fairing radius,
which is less than the ogive radius. -/
structure Spec.FalconDims (D L_b h r_n r_o f_L : ℝ) : Prop where
  body : 0 < D ∧ 0 < L_b
  fairing : 0 < f_L
  nose : 0 < r_n ∧ r_n < h
  ogive : h < r_o

/-- A line that can be revolved: evaluates everywhere, begins at `(x0, 0, 0)`, ends at `(x1, 0, 0)`, never runs towards larger
`x`, and lies strictly above the axis in between. -/
structure BackLine (P : PathObj) (x0 x1 : ℝ) : Prop where
  good : GoodSeg P
  first : fnOf P 0 = ⟨x0, 0, 0⟩
  last : fnOf P 1 = ⟨x1, 0, 0⟩
  back : RunsBack P
  above : ∀ t, 0 < t → t < 1 → 0 < (fnOf P t).y

theorem fnOf_line_zero (p q : V) : fnOf (Line p q) 0 = p := by rw [fnOf_line]; ext <;> simp
theorem fnOf_line_one (p q : V) : fnOf (Line p q) 1 = q := by rw [fnOf_line]; ext <;> simp

theorem body_backLine (D L_b h f_L : ℝ) (hD : 0 < D) (hL : 0 < L_b) :
    ∃ P, Falcon9.bodyLine D L_b h f_L = .ok P ∧ BackLine P (-f_L) (-f_L - L_b) ∧
      ∀ t ∈ Set.Icc (0 : ℝ) 1, (fnOf P t).x = -f_L - L_b * max 0 (min 1 ((t * (D + L_b) - D / 2) / L_b)) ∧
        (fnOf P t).y = min (D / 2) (min (t * (D + L_b)) ((1 - t) * (D + L_b))) ∧ (fnOf P t).z = 0 := by
  unfold Falcon9.bodyLine
  simp only
  have e1 : ((⟨0, h, 0⟩ : V) - ⟨f_L, 0, 0⟩) = ⟨-f_L, h, 0⟩ := by ext <;> simp
  rw [e1]
  have e2 : ((⟨-f_L, D / 2, 0⟩ : V) - ⟨L_b, 0, 0⟩) = ⟨-f_L - L_b, D / 2, 0⟩ := by ext <;> simp
  simp only [e2]
  set s0 : PathObj := Line ⟨-f_L, 0, 0⟩ ⟨-f_L, D / 2, 0⟩ with hs0
  set s1 : PathObj := Line ⟨-f_L, D / 2, 0⟩ ⟨-f_L - L_b, D / 2, 0⟩ with hs1
  set s2 : PathObj := Line ⟨-f_L - L_b, D / 2, 0⟩ ⟨-f_L - L_b, 0, 0⟩ with hs2
  have g0 : GoodSeg s0 := goodLine _ _ (by intro e; have := congrArg Vec.y e; simp at this; linarith)
  have g1 : GoodSeg s1 := goodLine _ _ (by intro e; have := congrArg Vec.x e; simp at this; linarith)
  have g2 : GoodSeg s2 := goodLine _ _ (by intro e; have := congrArg Vec.y e; simp at this; linarith)
  have hgood : ∀ s ∈ [s0, s1, s2], GoodSeg s := by
    intro s hs
    simp only [List.mem_cons, List.not_mem_nil, or_false] at hs
    rcases hs with rfl | rfl | rfl <;> assumption
  obtain ⟨P, hP, hG, h0, h1, hact⟩ := goodPolyline [s0, s1, s2] (by simp) hgood
  have l0 : lenOf s0 = D / 2 := by
    show ((⟨-f_L, D / 2, 0⟩ : V) - ⟨-f_L, 0, 0⟩).abs = _
    rw [Vec.abs_eq_sqrt_dot, show Vec.dot ((⟨-f_L, D / 2, 0⟩ : V) - ⟨-f_L, 0, 0⟩) ((⟨-f_L, D / 2, 0⟩ : V) - ⟨-f_L, 0, 0⟩) = (D / 2) ^ 2 by
      simp [Vec.dot]; ring, Real.sqrt_sq (by positivity)]
  have l1 : lenOf s1 = L_b := by
    show ((⟨-f_L - L_b, D / 2, 0⟩ : V) - ⟨-f_L, D / 2, 0⟩).abs = _
    rw [Vec.abs_eq_sqrt_dot, show Vec.dot ((⟨-f_L - L_b, D / 2, 0⟩ : V) - ⟨-f_L, D / 2, 0⟩) ((⟨-f_L - L_b, D / 2, 0⟩ : V) - ⟨-f_L, D / 2, 0⟩) = L_b ^ 2 by
      simp [Vec.dot]; ring, Real.sqrt_sq hL.le]
  have l2 : lenOf s2 = D / 2 := by
    show ((⟨-f_L - L_b, 0, 0⟩ : V) - ⟨-f_L - L_b, D / 2, 0⟩).abs = _
    rw [Vec.abs_eq_sqrt_dot, show Vec.dot ((⟨-f_L - L_b, 0, 0⟩ : V) - ⟨-f_L - L_b, D / 2, 0⟩) ((⟨-f_L - L_b, 0, 0⟩ : V) - ⟨-f_L - L_b, D / 2, 0⟩) = (D / 2) ^ 2 by
      simp [Vec.dot]; ring, Real.sqrt_sq (by positivity)]
  have hT : 0 < D + L_b := by linarith
  have b0 : bp lenOf [s0, s1, s2] 0 = 0 := by simp [bp]
  have b1 : bp lenOf [s0, s1, s2] 1 = (D / 2) / (D + L_b) := by
    simp only [bp, List.take_succ_cons, List.take_zero, List.map_cons, List.map_nil, List.sum_cons, List.sum_nil, l0, l1, l2]
    congr 1 <;> ring
  have b2 : bp lenOf [s0, s1, s2] 2 = (D / 2 + L_b) / (D + L_b) := by
    simp only [bp, List.take_succ_cons, List.take_zero, List.map_cons, List.map_nil, List.sum_cons, List.sum_nil, l0, l1, l2]
    congr 1 <;> ring
  have b3 : bp lenOf [s0, s1, s2] 3 = 1 := by
    simp only [bp, List.take_succ_cons, List.take_zero, List.map_cons, List.map_nil, List.sum_cons, List.sum_nil, l0, l1, l2]
    exact div_self (by linarith)
  refine ⟨P, hP, ⟨hG, ?_, ?_, ?_, ?_⟩, ?_⟩
  · rw [h0]; exact fnOf_line_zero _ _
  · rw [h1]; exact fnOf_line_one _ _
  · refine polyline_runsBack [s0, s1, s2] (by simp) hgood ?_ ?_ P hP
    · intro s hs
      simp only [List.mem_cons, List.not_mem_nil, or_false] at hs
      rcases hs with rfl | rfl | rfl
      · exact runsBack_line _ _ le_rfl
      · exact runsBack_line _ _ (by show -f_L - L_b ≤ -f_L; linarith)
      · exact runsBack_line _ _ le_rfl
    · intro i hi
      simp only [List.length_cons, List.length_nil] at hi
      obtain rfl | rfl : i = 0 ∨ i = 1 := by omega
      · show (fnOf s0 1).x = (fnOf s1 0).x
        rw [hs0, hs1, fnOf_line_one, fnOf_line_zero]
      · show (fnOf s1 1).x = (fnOf s2 0).x
        rw [hs1, hs2, fnOf_line_one, fnOf_line_zero]
  · refine polyline_inside [s0, s1, s2] (by simp) hgood (fun v => 0 < v.y) ?_ P hP
    intro i hi t h0 h1
    simp only [List.length_cons, List.length_nil] at hi h1
    obtain rfl | rfl | rfl : i = 0 ∨ i = 1 ∨ i = 2 := by omega
    · show 0 < (fnOf s0 t).y
      rw [hs0, fnOf_line]
      show 0 < 0 * (1 - t) + D / 2 * t
      have : 0 < D * t := mul_pos hD h0
      linarith
    · show 0 < (fnOf s1 t).y
      rw [hs1, fnOf_line]
      show 0 < D / 2 * (1 - t) + D / 2 * t
      linarith
    · show 0 < (fnOf s2 t).y
      rw [hs2, fnOf_line]
      show 0 < D / 2 * (1 - t) + 0 * t
      have ht : t < 1 := by
        rcases h1 with h1 | h1
        · exact h1
        · exact absurd rfl h1.2
      have : 0 < D * (1 - t) := mul_pos hD (by linarith)
      linarith
  · intro t ht
    obtain ⟨i, hi, u, hu, -, ha, hue, hit⟩ := hact t ht
    rw [hit]
    simp only [List.length_cons, List.length_nil] at hi
    obtain rfl | rfl | rfl : i = 0 ∨ i = 1 ∨ i = 2 := by omega
    · rw [b0, zero_add, b1] at hue
      have hu' : t * (D + L_b) = D / 2 * u := by
        have := hD.ne'
        rw [hue, sub_zero, sub_zero]; field_simp
      show (fnOf s0 u).x = _ ∧ (fnOf s0 u).y = _ ∧ (fnOf s0 u).z = 0
      rw [hs0, fnOf_line, hu']
      have k1 : D / 2 * u ≤ D / 2 := by nlinarith [hu.2]
      refine ⟨?_, ?_, by simp⟩
      · rw [max_eq_left]
        · simp only; ring
        · exact (min_le_right _ _).trans (div_nonpos_of_nonpos_of_nonneg (by linarith) hL.le)
      · have : (1 - t) * (D + L_b) = D + L_b - D / 2 * u := by rw [← hu']; ring
        rw [this, min_eq_left (by linarith : D / 2 * u ≤ D + L_b - D / 2 * u), min_eq_right k1]
        simp only; ring
    · rw [b1, b2] at hue
      have hu' : t * (D + L_b) = D / 2 + L_b * u := by rw [hue]; field_simp; ring
      show (fnOf s1 u).x = _ ∧ (fnOf s1 u).y = _ ∧ (fnOf s1 u).z = 0
      rw [hs1, fnOf_line, hu']
      refine ⟨?_, ?_, by simp⟩
      · have : (D / 2 + L_b * u - D / 2) / L_b = u := by field_simp; ring
        rw [this, min_eq_right hu.2, max_eq_right hu.1]
        simp only; ring
      · have : (1 - t) * (D + L_b) = D / 2 + L_b * (1 - u) := by
          have : (1 - t) * (D + L_b) = D + L_b - t * (D + L_b) := by ring
          rw [this, hu']; ring
        rw [this, min_eq_left]
        · simp only; ring
        · rw [le_min_iff]
          have := mul_nonneg hL.le hu.1
          have := mul_nonneg hL.le (sub_nonneg.2 hu.2)
          constructor <;> linarith
    · rw [b2, b3] at hue
      have hu' : t * (D + L_b) = D / 2 + L_b + D / 2 * u := by
        have : (1 : ℝ) - (D / 2 + L_b) / (D + L_b) = (D / 2) / (D + L_b) := by field_simp; ring
        rw [hue, this]; field_simp; ring
      show (fnOf s2 u).x = _ ∧ (fnOf s2 u).y = _ ∧ (fnOf s2 u).z = 0
      rw [hs2, fnOf_line, hu']
      have k1 : 0 ≤ D / 2 * u := mul_nonneg (by linarith) hu.1
      refine ⟨?_, ?_, by simp⟩
      · rw [min_eq_left, max_eq_right (by norm_num)]
        · simp only; ring
        · rw [le_div_iff₀ hL]; linarith
      · have : (1 - t) * (D + L_b) = D / 2 * (1 - u) := by
          have : (1 - t) * (D + L_b) = D + L_b - t * (D + L_b) := by ring
          rw [this, hu']; ring
        rw [this, min_eq_right (by nlinarith : D / 2 * (1 - u) ≤ D / 2 + L_b + D / 2 * u), min_eq_right (by nlinarith)]
        simp only; ring

/-- The arc between two polar angles as a segment. -/
theorem goodArc (a b c : V) (R α β : ℝ) (hR : 0 < R) (hlt : α < β) (hpi : β - α < Real.pi) (hz : c.z = 0)
    (ha : a = ⟨c.x + R * Real.cos α, c.y + R * Real.sin α, 0⟩) (hb : b = ⟨c.x + R * Real.cos β, c.y + R * Real.sin β, 0⟩) :
    GoodSeg (Arc a b c) ∧ ∀ t, fnOf (Arc a b c) t =
      ⟨c.x + R * Real.cos (α + (β - α) * t), c.y + R * Real.sin (α + (β - α) * t), 0⟩ := by
  obtain ⟨h1, h2⟩ := arc_polar c R α β hR hlt hpi hz
  rw [← ha, ← hb] at h1 h2
  refine ⟨⟨⟨_, h1, mul_pos (by linarith) hR⟩, fun t => ⟨_, h2 t⟩⟩, fun t => ?_⟩
  unfold fnOf
  rw [h2]
  rfl

theorem runsBack_arc (a b c : V) (R α β : ℝ) (hR : 0 < R) (h0 : 0 ≤ α) (hlt : α < β) (hb : β ≤ Real.pi)
    (hf : ∀ t, fnOf (Arc a b c) t = ⟨c.x + R * Real.cos (α + (β - α) * t), c.y + R * Real.sin (α + (β - α) * t), 0⟩) :
    RunsBack (Arc a b c) := by
  intro t ht u hu htu
  rw [hf, hf]
  show c.x + R * Real.cos (α + (β - α) * u) ≤ c.x + R * Real.cos (α + (β - α) * t)
  have h1 : Real.cos (α + (β - α) * u) ≤ Real.cos (α + (β - α) * t) := by
    apply Real.cos_le_cos_of_nonneg_of_le_pi
    · nlinarith [ht.1]
    · nlinarith [hu.2]
    · nlinarith
  nlinarith

theorem fairing_backLine (D L_b h r_n r_o f_L : ℝ) (hd : FalconDims D L_b h r_n r_o f_L) :
    ∃ P, Falcon9.fairingLine D h r_n r_o f_L = .ok P ∧
      BackLine P (Real.sqrt ((r_o - r_n) ^ 2 - (r_o - h) ^ 2) + r_n) (-1.3 * f_L) := by
  obtain ⟨⟨hD, hL⟩, hf, ⟨hn, hnh⟩, hho⟩ := hd
  set ρ := r_o - r_n with hρ
  have hρ0 : 0 < ρ := by linarith
  have hlt : r_o - h < ρ := by linarith
  have hX2 : 0 < ρ ^ 2 - (r_o - h) ^ 2 := by nlinarith
  set X := Real.sqrt (ρ ^ 2 - (r_o - h) ^ 2) with hX
  have hX0 : 0 < X := Real.sqrt_pos.2 hX2
  have hXX : X ^ 2 = ρ ^ 2 - (r_o - h) ^ 2 := Real.sq_sqrt hX2.le
  set α := Real.arcsin ((r_o - h) / ρ) with hα
  have hq0 : 0 < (r_o - h) / ρ := div_pos (by linarith) hρ0
  have hq1 : (r_o - h) / ρ < 1 := (div_lt_one hρ0).2 hlt
  have hα0 : 0 < α := Real.arcsin_pos.2 hq0
  have hα1 : α < Real.pi / 2 := Real.arcsin_lt_pi_div_two.2 hq1
  have hsin : Real.sin α = (r_o - h) / ρ := Real.sin_arcsin (by linarith) hq1.le
  have hcos : Real.cos α = X / ρ := by
    rw [hα, Real.cos_arcsin]
    rw [show 1 - ((r_o - h) / ρ) ^ 2 = (X / ρ) ^ 2 by rw [div_pow, div_pow, hXX]; field_simp]
    exact Real.sqrt_sq (by positivity)
  have hsq := Real.sin_sq_add_cos_sq α
  have hcp : 0 < Real.cos α := Real.cos_pos_of_mem_Ioo ⟨by linarith [Real.pi_pos], hα1⟩
  have hpi := Real.pi_pos
  have s1 : Falcon9.npSqrt (ρ ^ 2 - (r_o - h) ^ 2) = .ok X := by
    unfold Falcon9.npSqrt; rw [if_neg (by linarith)]
  have s2 : pdiv (r_n * (r_o - h)) ρ = .ok (r_n * Real.sin α) := by
    unfold pdiv
    rw [if_neg hρ0.ne', hsin]
    congr 1
    field_simp
  have s3 : Falcon9.npSqrt (r_n ^ 2 - (r_n * Real.sin α) ^ 2) = .ok (r_n * Real.cos α) := by
    have : r_n ^ 2 - (r_n * Real.sin α) ^ 2 = (r_n * Real.cos α) ^ 2 := by linear_combination (-r_n ^ 2) * hsq
    unfold Falcon9.npSqrt
    rw [this, if_neg (by nlinarith [sq_nonneg (r_n * Real.cos α)]), Real.sqrt_sq (by positivity)]
  unfold Falcon9.fairingLine
  simp only [← hρ, s1, s2, s3, ok_bind]
  have e1 : ((⟨0, h, 0⟩ : V) - ⟨f_L, 0, 0⟩) = ⟨-f_L, h, 0⟩ := by ext <;> simp
  simp only [e1]
  set a_o : V := ⟨-(-X - r_n * Real.cos α), r_n * Real.sin α, 0⟩ with ha_o
  set nose : PathObj := Arc ⟨-(-X - r_n), 0, 0⟩ a_o ⟨- -X, 0, 0⟩ with hnose
  set ogive : PathObj := Arc a_o ⟨0, h, 0⟩ ⟨0, -r_o + h, 0⟩ with hogive
  set l3 : PathObj := Line ⟨0, h, 0⟩ ⟨-f_L, h, 0⟩ with hl3
  set l4 : PathObj := Line ⟨-f_L, h, 0⟩ ⟨-f_L - 0.1 * f_L, D / 2, 0⟩ with hl4
  set l5 : PathObj := Line ⟨-f_L - 0.1 * f_L, D / 2, 0⟩ ⟨-f_L - 0.3 * f_L, 0, 0⟩ with hl5
  obtain ⟨gn, fn⟩ := goodArc ⟨-(-X - r_n), 0, 0⟩ a_o ⟨- -X, 0, 0⟩ r_n 0 α hn hα0 (by linarith) rfl
    (by rw [Real.cos_zero, Real.sin_zero]; ext <;> simp <;> ring) (by ext <;> simp [a_o] <;> ring)
  obtain ⟨go, fo⟩ := goodArc a_o ⟨0, h, 0⟩ ⟨0, -r_o + h, 0⟩ r_o α (Real.pi / 2) (by linarith) hα1 (by linarith) rfl
    (by
      have h1 : ρ * Real.cos α = X := by rw [hcos]; field_simp
      have h2 : ρ * Real.sin α = r_o - h := by rw [hsin]; field_simp
      have h3 : r_o = ρ + r_n := by rw [hρ]; ring
      ext
      · simp [a_o]; linear_combination (-1 : ℝ) * h1 + Real.cos α * (-1) * h3
      · simp [a_o]; linear_combination (-1 : ℝ) * h2 - Real.sin α * h3
      · rfl)
    (by rw [Real.cos_pi_div_two, Real.sin_pi_div_two]; ext <;> simp)
  rw [← hnose] at gn fn
  rw [← hogive] at go fo
  have g3 : GoodSeg l3 := goodLine _ _ (by intro e; have := congrArg Vec.x e; simp at this; linarith)
  have g4 : GoodSeg l4 := goodLine _ _ (by intro e; have := congrArg Vec.x e; simp at this; linarith)
  have g5 : GoodSeg l5 := goodLine _ _ (by intro e; have := congrArg Vec.y e; simp at this; linarith)
  have hgood5 : ∀ s ∈ [l4, l5], GoodSeg s := by
    intro s hs
    simp only [List.mem_cons, List.not_mem_nil, or_false] at hs
    rcases hs with rfl | rfl <;> assumption
  obtain ⟨B, hB, gB, B0, B1, -⟩ := goodPolyline [l4, l5] (by simp) hgood5
  have B0' : fnOf B 0 = ⟨-f_L, h, 0⟩ := by rw [B0]; exact fnOf_line_zero _ _
  have B1' : fnOf B 1 = ⟨-f_L - 0.3 * f_L, 0, 0⟩ := by rw [B1]; exact fnOf_line_one _ _
  have rB : RunsBack B := by
    refine polyline_runsBack [l4, l5] (by simp) hgood5 ?_ ?_ B hB
    · intro s hs
      simp only [List.mem_cons, List.not_mem_nil, or_false] at hs
      rcases hs with rfl | rfl
      · exact runsBack_line _ _ (by show -f_L - 0.1 * f_L ≤ -f_L; linarith)
      · exact runsBack_line _ _ (by show -f_L - 0.3 * f_L ≤ -f_L - 0.1 * f_L; linarith)
    · intro i hi
      simp only [List.length_cons, List.length_nil] at hi
      obtain rfl : i = 0 := by omega
      show (fnOf l4 1).x = (fnOf l5 0).x
      rw [hl4, hl5, fnOf_line_one, fnOf_line_zero]
  have aB : ∀ t, 0 < t → t < 1 → 0 < (fnOf B t).y := by
    refine polyline_inside [l4, l5] (by simp) hgood5 (fun v => 0 < v.y) ?_ B hB
    intro i hi t h0 h1
    simp only [List.length_cons, List.length_nil] at hi h1
    have ht1 : t ≤ 1 := by rcases h1 with h1 | h1 <;> linarith [h1]
    obtain rfl | rfl : i = 0 ∨ i = 1 := by omega
    · show 0 < (fnOf l4 t).y
      rw [hl4, fnOf_line]
      show 0 < h * (1 - t) + D / 2 * t
      have : 0 < D / 2 * t := by positivity
      nlinarith
    · show 0 < (fnOf l5 t).y
      rw [hl5, fnOf_line]
      show 0 < D / 2 * (1 - t) + 0 * t
      have ht : t < 1 := by
        rcases h1 with h1 | h1
        · exact h1
        · exact absurd rfl h1.2
      have : 0 < D * (1 - t) := mul_pos hD (by linarith)
      linarith
  rw [hB, ok_bind]
  have hgood : ∀ s ∈ [nose, ogive, l3, B], GoodSeg s := by
    intro s hs
    simp only [List.mem_cons, List.not_mem_nil, or_false] at hs
    rcases hs with rfl | rfl | rfl | rfl <;> assumption
  obtain ⟨P, hP, hG, h0, h1, -⟩ := goodPolyline [nose, ogive, l3, B] (by simp) hgood
  refine ⟨P, hP, hG, ?_, ?_, ?_, ?_⟩
  · rw [h0]
    show fnOf nose 0 = _
    rw [fn]
    simp
  · rw [h1]
    show fnOf B 1 = _
    rw [B1']
    ext <;> simp
    ring
  · refine polyline_runsBack _ (by simp) hgood ?_ ?_ P hP
    · intro s hs
      simp only [List.mem_cons, List.not_mem_nil, or_false] at hs
      rcases hs with rfl | rfl | rfl | rfl
      · exact runsBack_arc _ _ _ r_n 0 α hn le_rfl hα0 (by linarith) fn
      · exact runsBack_arc _ _ _ r_o α (Real.pi / 2) (by linarith) hα0.le hα1 (by linarith) fo
      · exact runsBack_line _ _ (by show -f_L ≤ 0; linarith)
      · exact rB
    · intro i hi
      simp only [List.length_cons, List.length_nil] at hi
      obtain rfl | rfl | rfl : i = 0 ∨ i = 1 ∨ i = 2 := by omega
      · show (fnOf nose 1).x = (fnOf ogive 0).x
        rw [fn, fo]
        simp only [mul_one, mul_zero, sub_zero, zero_add, add_zero]
        have h1 : ρ * Real.cos α = X := by rw [hcos]; field_simp
        have h3 : r_o = ρ + r_n := by rw [hρ]; ring
        linear_combination (-1 : ℝ) * h1 - Real.cos α * h3
      · show (fnOf ogive 1).x = (fnOf l3 0).x
        rw [fo, hl3, fnOf_line_zero]
        simp
      · show (fnOf l3 1).x = (fnOf B 0).x
        rw [hl3, fnOf_line_one, B0']
  · refine polyline_inside _ (by simp) hgood (fun v => 0 < v.y) ?_ P hP
    intro i hi t h0 h1
    simp only [List.length_cons, List.length_nil] at hi h1
    have ht1 : t ≤ 1 := by rcases h1 with h1 | h1 <;> linarith [h1]
    obtain rfl | rfl | rfl | rfl : i = 0 ∨ i = 1 ∨ i = 2 ∨ i = 3 := by omega
    · show 0 < (fnOf nose t).y
      rw [fn]
      show 0 < 0 + r_n * Real.sin (0 + (α - 0) * t)
      have : 0 < Real.sin (0 + (α - 0) * t) := by
        apply Real.sin_pos_of_pos_of_lt_pi
        · have := mul_pos hα0 h0; linarith
        · nlinarith
      have := mul_pos hn this
      linarith
    · show 0 < (fnOf ogive t).y
      rw [fo]
      show 0 < -r_o + h + r_o * Real.sin (α + (Real.pi / 2 - α) * t)
      have h2 : Real.sin α ≤ Real.sin (α + (Real.pi / 2 - α) * t) := by
        apply Real.sin_le_sin_of_le_of_le_pi_div_two
        · linarith
        · nlinarith
        · nlinarith
      have h3 : r_o - h < r_o * Real.sin α := by
        rw [hsin]
        rw [← mul_div_assoc, lt_div_iff₀ hρ0]
        nlinarith
      nlinarith
    · show 0 < (fnOf l3 t).y
      rw [hl3, fnOf_line]
      show 0 < h * (1 - t) + h * t
      linarith
    · show 0 < (fnOf B t).y
      refine aB t h0 ?_
      rcases h1 with h1 | h1
      · exact h1
      · exact absurd rfl h1.2

theorem given_get' {dflts kwargs : Dict String ℝ} (hk : kwargs.keys.Nodup) {k : String} {d v : ℝ} (h : given kwargs k d v)
    (hd : dflts.get? k = some d) : attrOf (Generator.init dflts kwargs) k = .ok v := by
  unfold attrOf
  rcases h with h | ⟨h, rfl⟩
  · rw [(C89_override _ _ hk k).1 v h]
  · rw [(C89_override _ _ hk k).2 h, hd]

/-- The Falcon 9 vehicle. -/
def falconVeh (id1 id2 : ℕ) : Veh :=
  { name := "SpaceX Falcon 9", verbosity := 1, components := [id1, id2], counts := [("revolved", 2)],
    enumerated := [("revolved_1", id1), ("revolved_2", id2)], named := [("revolved_1", id1), ("revolved_2", id2)] }

theorem falcon_instance (hp : Heap) (id1 id2 : ℕ) (hid : id1 ≠ id2) (kwargs : Dict String ℝ) (hk : kwargs.keys.Nodup)
    (D L_b h r_n r_o f_L : ℝ) (k1 : given kwargs "D" 3.75 D) (k2 : given kwargs "L_b" 60 L_b) (k3 : given kwargs "h" (5 / 2) h)
    (k4 : given kwargs "r_n" 0.75 r_n) (k5 : given kwargs "r_o" 7 r_o) (k6 : given kwargs "f_L" 6 f_L)
    (P Q : PathObj) (hP : Falcon9.fairingLine D h r_n r_o f_L = .ok P) (hQ : Falcon9.bodyLine D L_b h f_L = .ok Q) :
    ∃ st, Falcon9.instanceOf hp id1 id2 kwargs = .ok st ∧ st.veh = falconVeh id1 id2 ∧
      st.heap id1 = RevolvedComponent P 100 ∧ st.heap id2 = RevolvedComponent Q 50 := by
  unfold Falcon9.instanceOf Falcon9.createInstance
  simp only [given_get' (dflts := Falcon9.defaults) hk k1 rfl, given_get' (dflts := Falcon9.defaults) hk k2 rfl, given_get' (dflts := Falcon9.defaults) hk k3 rfl, given_get' (dflts := Falcon9.defaults) hk k4 rfl, given_get' (dflts := Falcon9.defaults) hk k5 rfl,
    given_get' (dflts := Falcon9.defaults) hk k6 rfl, ok_bind, hP, hQ]
  unfold addAll addAll addAll Veh.addComponent
  have hty : ∀ L n, (RevolvedComponent L n).componenttype ∈ Veh.allowable := fun L n => by simp [RevolvedComponent, Veh.allowable]
  simp only [upd_ne _ _ _ _ hid, upd_self, hty, if_true, upd_ne _ _ _ _ hid.symm]
  refine ⟨_, rfl, ?_, by simp only [upd_ne _ _ _ _ hid, upd_self]; rfl, by simp only [upd_self]; rfl⟩
  simp only [Veh.record, Veh.nextCount, Veh.nameFor, RevolvedComponent, Veh.configure, Veh.truthy]
  have r1 : Nat.repr 1 = "1" := by decide
  have r2 : Nat.repr 2 = "2" := by decide
  have r3 : "revolved_" ++ "1" = "revolved_1" := by decide
  have r4 : "revolved_" ++ "2" = "revolved_2" := by decide
  simp [Dict.get?, Dict.set, falconVeh, r1, r2, r3, r4]

/-- A vehicle in which the resolution of component `id` has been changed. -/
def Spec.withResolution (st : VState) (id n : ℕ) : VState :=
  ⟨st.heap.upd id { st.heap id with stl_resolution := .int n }, st.veh⟩

/-- The vehicle made of two bodies of revolution generates, and its meshes are those of the bodies. -/
theorem falcon_generate (st : VState) (id1 id2 : ℕ) (hid : id1 ≠ id2) (hv : st.veh = falconVeh id1 id2) (P Q : PathObj) (m1 m2 : ℕ)
    (h1 : st.heap id1 = RevolvedComponent P m1) (h2 : st.heap id2 = RevolvedComponent Q m2) (x0 x1 y0 y1 : ℝ) (hP : BackLine P x0 x1)
    (hQ : BackLine Q y0 y1) (n1 n2 : ℕ) (hn1 : 1 ≤ n1) (hn2 : 1 ≤ n2) (lib : Lib) (depth : ℕ) :
    ∃ st' M1 M2 c1 c2, generate lib depth (withResolution (withResolution st id1 n1) id2 n2) = (.ok (), st') ∧
      (st'.heap id1).mesh = (.ok M1, c1) ∧ (st'.heap id2).mesh = (.ok M2, c2) ∧ Closed M1.tris ∧ Closed M2.tris ∧
      signedVolume M1.tris = polygonalVolume (4 * n1) n1 (fun i => (fnOf P ((i : ℝ) / n1)).x)
        (fun i => ((fnOf P ((i : ℝ) / n1)).y, (fnOf P ((i : ℝ) / n1)).z)) ∧
      signedVolume M2.tris = polygonalVolume (4 * n2) n2 (fun i => (fnOf Q ((i : ℝ) / n2)).x)
        (fun i => ((fnOf Q ((i : ℝ) / n2)).y, (fnOf Q ((i : ℝ) / n2)).z)) := by
  set w := withResolution (withResolution st id1 n1) id2 n2 with hw
  have w1 : w.heap id1 = RevolvedComponent P n1 := by
    show ((st.heap.upd id1 _).upd id2 _) id1 = _
    rw [upd_ne _ _ _ _ hid, upd_self, h1]; rfl
  have w2 : w.heap id2 = RevolvedComponent Q n2 := by
    show ((st.heap.upd id1 _).upd id2 { (st.heap.upd id1 _) id2 with stl_resolution := .int n2 }) id2 = _
    rw [upd_self, upd_ne _ _ _ _ hid.symm, h2]; rfl
  have wv : w.veh = falconVeh id1 id2 := hv
  have key : ∀ (k : ℕ) (L : PathObj) (n : ℕ) (z0 z1 : ℝ), 1 ≤ n → BackLine L z0 z1 → w.heap k = RevolvedComponent L n →
      ∃ g M c, generatePatches w.heap k = (.ok (), g) ∧ pipeline 0 (g k) = (.ok (), g k) ∧ (g k).mesh = (.ok M, c) ∧ Closed M.tris ∧
        signedVolume M.tris = polygonalVolume (4 * n) n (fun i => (fnOf L ((i : ℝ) / n)).x)
          (fun i => ((fnOf L ((i : ℝ) / n)).y, (fnOf L ((i : ℝ) / n)).z)) := by
    intro k L n z0 z1 hn hL hk
    obtain ⟨g, M, c, g1, g2, g3, g4⟩ := C97_volume L (fnOf L) (fun t _ _ => hL.good.call t) (by rw [hL.first]; exact ⟨rfl, rfl⟩)
      (by rw [hL.last]; exact ⟨rfl, rfl⟩) n hn none w.heap k hk
    obtain ⟨A, B, C, e⟩ := generatePatches_opts w.heap k (by
      unfold Comp.children; rw [hk]; simp [RevolvedComponent])
    rw [g1] at e
    simp only [hk] at e
    refine ⟨g, M, c, g1, ?_, g2, g3, g4⟩
    apply pipeline_plain <;> rw [e] <;> rfl
  obtain ⟨g1, M1, c1, a1, a2, a3, a4, a5⟩ := key id1 P n1 x0 x1 hn1 hP w1
  obtain ⟨g2, M2, c2, b1, b2, b3, b4, b5⟩ := key id2 Q n2 y0 y1 hn2 hQ w2
  have hcs : w.veh.components = [id1, id2] := by rw [wv]; rfl
  obtain ⟨st', s1, s2, s3⟩ := generate_plain lib depth w (by rw [wv]; rfl) (by rw [wv]; rfl) (by rw [wv]; rfl)
    (by
      rw [hcs]
      refine unshared_leaves _ _ (by simp [hid]) ?_
      intro k hk
      simp only [List.mem_cons, List.not_mem_nil, or_false] at hk
      rcases hk with rfl | rfl
      · unfold Comp.children; rw [w1]; rfl
      · unfold Comp.children; rw [w2]; rfl)
    (by
      rw [hcs]
      intro k hk
      simp only [List.mem_cons, List.not_mem_nil, or_false] at hk
      rcases hk with rfl | rfl
      · exact ⟨_, _, a1, a2⟩
      · exact ⟨_, _, b1, b2⟩)
  obtain ⟨g1', t1, t2⟩ := s3 id1 (by rw [hcs]; simp)
  obtain ⟨g2', t3, t4⟩ := s3 id2 (by rw [hcs]; simp)
  rw [a1] at t1
  obtain rfl : g1 = g1' := congrArg Prod.snd t1
  rw [b1] at t3
  obtain rfl : g2 = g2' := congrArg Prod.snd t3
  rw [a2] at t2
  rw [b2] at t4
  have e1 : st'.heap id1 = g1 id1 := (congrArg Prod.snd t2).symm
  have e2 : st'.heap id2 = g2 id2 := (congrArg Prod.snd t4).symm
  exact ⟨st', M1, M2, c1, c2, s1, by rw [e1]; exact a3, by rw [e2]; exact b3, a4, b4, a5, b5⟩

/-- The keyword arguments of the generator mean these dimensions. -/
structure Spec.FalconArgs (kwargs : Dict String ℝ) (D L_b h r_n r_o f_L : ℝ) : Prop where
  keys : kwargs.keys.Nodup
  D : given kwargs "D" 3.75 D
  L_b : given kwargs "L_b" 60 L_b
  h' : given kwargs "h" (5 / 2) h
  nose : given kwargs "r_n" 0.75 r_n
  ogive : given kwargs "r_o" 7 r_o
  fairing : given kwargs "f_L" 6 f_L

theorem falcon_core (hp : Heap) (id1 id2 : ℕ) (hid : id1 ≠ id2) (kwargs : Dict String ℝ) (D L_b h r_n r_o f_L : ℝ)
    (ha : FalconArgs kwargs D L_b h r_n r_o f_L) (hd : FalconDims D L_b h r_n r_o f_L) :
    ∃ st P Q, Falcon9.instanceOf hp id1 id2 kwargs = .ok st ∧ st.veh = falconVeh id1 id2 ∧
      st.heap id1 = RevolvedComponent P 100 ∧ st.heap id2 = RevolvedComponent Q 50 ∧
      BackLine P (Real.sqrt ((r_o - r_n) ^ 2 - (r_o - h) ^ 2) + r_n) (-1.3 * f_L) ∧ BackLine Q (-f_L) (-f_L - L_b) ∧
      ∀ t ∈ Set.Icc (0 : ℝ) 1, (fnOf Q t).x = -f_L - L_b * max 0 (min 1 ((t * (D + L_b) - D / 2) / L_b)) ∧
        (fnOf Q t).y = min (D / 2) (min (t * (D + L_b)) ((1 - t) * (D + L_b))) ∧ (fnOf Q t).z = 0 := by
  obtain ⟨P, hP, bP⟩ := fairing_backLine D L_b h r_n r_o f_L hd
  obtain ⟨Q, hQ, bQ, fQ⟩ := body_backLine D L_b h f_L hd.body.1 hd.body.2
  obtain ⟨st, h1, h2, h3, h4⟩ := falcon_instance hp id1 id2 hid kwargs ha.keys D L_b h r_n r_o f_L ha.D ha.L_b ha.h' ha.nose ha.ogive
    ha.fairing P Q hP hQ
  exact ⟨st, P, Q, h1, h2, h3, h4, bP, bQ, fQ⟩

/-- C102 except for the sign of the volume: for all keyword arguments that describe sensible dimensions and all resolutions the
parametric Falcon 9 can be built, generated and meshed, and both meshes are closed.  Missing: the meshes are inside out, see
`C102_violated`. -/
theorem C102_partial (hp : Heap) (id1 id2 : ℕ) (hid : id1 ≠ id2) (kwargs : Dict String ℝ) (D L_b h r_n r_o f_L : ℝ)
    (ha : FalconArgs kwargs D L_b h r_n r_o f_L) (hd : FalconDims D L_b h r_n r_o f_L) :
    ∃ st, Falcon9.instanceOf hp id1 id2 kwargs = .ok st ∧ st.veh.name = "SpaceX Falcon 9" ∧ st.veh.components = [id1, id2] ∧
      st.veh.named = [("revolved_1", id1), ("revolved_2", id2)] ∧ (st.heap id1).stl_resolution = .int 100 ∧
      (st.heap id2).stl_resolution = .int 50 ∧
    ∀ n1 n2 : ℕ, 1 ≤ n1 → 1 ≤ n2 → ∀ (lib : Lib) (depth : ℕ), ∃ st' M1 M2 c1 c2,
      generate lib depth (withResolution (withResolution st id1 n1) id2 n2) = (.ok (), st') ∧
      (st'.heap id1).mesh = (.ok M1, c1) ∧ (st'.heap id2).mesh = (.ok M2, c2) ∧ Closed M1.tris ∧ Closed M2.tris := by
  obtain ⟨st, P, Q, h1, h2, h3, h4, bP, bQ, -⟩ := falcon_core hp id1 id2 hid kwargs D L_b h r_n r_o f_L ha hd
  refine ⟨st, h1, by rw [h2]; rfl, by rw [h2]; rfl, by rw [h2]; rfl, by rw [h3]; rfl, by rw [h4]; rfl, ?_⟩
  intro n1 n2 hn1 hn2 lib depth
  obtain ⟨st', M1, M2, c1, c2, s1, s2, s3, s4, s5, -⟩ :=
    falcon_generate st id1 id2 hid h2 P Q 100 50 h3 h4 _ _ _ _ bP bQ n1 n2 hn1 hn2 lib depth
  exact ⟨st', M1, M2, c1, c2, s1, s2, s3, s4, s5⟩

/-- C102 fails in the sign, for all dimensions and all resolutions from 2: both lines run towards negative `x`, so the
surfaces are inside out and enclose negative volumes.  With the resolutions of the generator this is the vehicle as built. -/
theorem C102_violated (hp : Heap) (id1 id2 : ℕ) (hid : id1 ≠ id2) (kwargs : Dict String ℝ) (D L_b h r_n r_o f_L : ℝ)
    (ha : FalconArgs kwargs D L_b h r_n r_o f_L) (hd : FalconDims D L_b h r_n r_o f_L) :
    ∃ st, Falcon9.instanceOf hp id1 id2 kwargs = .ok st ∧ withResolution (withResolution st id1 100) id2 50 = st ∧
    ∀ n1 n2 : ℕ, 2 ≤ n1 → 2 ≤ n2 → ∀ (lib : Lib) (depth : ℕ), ∃ st' M1 M2 c1 c2,
      generate lib depth (withResolution (withResolution st id1 n1) id2 n2) = (.ok (), st') ∧
      (st'.heap id1).mesh = (.ok M1, c1) ∧ (st'.heap id2).mesh = (.ok M2, c2) ∧
      signedVolume M1.tris < 0 ∧ signedVolume M2.tris < 0 := by
  obtain ⟨st, P, Q, h1, h2, h3, h4, bP, bQ, -⟩ := falcon_core hp id1 id2 hid kwargs D L_b h r_n r_o f_L ha hd
  refine ⟨st, h1, ?_, ?_⟩
  · have e1 : withResolution st id1 100 = st := by
      unfold withResolution
      rw [show ({ st.heap id1 with stl_resolution := .int 100 } : Comp) = st.heap id1 by rw [h3]; rfl, upd_eq_self]
    rw [e1]
    unfold withResolution
    rw [show ({ st.heap id2 with stl_resolution := .int 50 } : Comp) = st.heap id2 by rw [h4]; rfl, upd_eq_self]
  intro n1 n2 hn1 hn2 lib depth
  obtain ⟨st', M1, M2, c1, c2, s1, s2, s3, -, -, s6, s7⟩ :=
    falcon_generate st id1 id2 hid h2 P Q 100 50 h3 h4 _ _ _ _ bP bQ n1 n2 (by omega) (by omega) lib depth
  refine ⟨st', M1, M2, c1, c2, s1, s2, s3, ?_, ?_⟩
  · rw [s6]
    refine polygonalVolume_neg (fnOf P) bP.back ?_ bP.above n1 hn1
    rw [bP.first, bP.last]
    show -1.3 * f_L < Real.sqrt _ + r_n
    have := Real.sqrt_nonneg ((r_o - r_n) ^ 2 - (r_o - h) ^ 2)
    have := hd.fairing
    have := hd.nose.1
    linarith
  · rw [s7]
    refine polygonalVolume_neg (fnOf Q) bQ.back ?_ bQ.above n2 hn2
    rw [bQ.first, bQ.last]
    show -f_L - L_b < -f_L
    linarith [hd.body.2]

/-- The volumes of the meshes of the body tend to minus the volume of the cylinder of diameter `D` and length `L_b`. -/
theorem C102_body_partial (hp : Heap) (id1 id2 : ℕ) (hid : id1 ≠ id2) (kwargs : Dict String ℝ) (D L_b h r_n r_o f_L : ℝ)
    (ha : FalconArgs kwargs D L_b h r_n r_o f_L) (hd : FalconDims D L_b h r_n r_o f_L) (ε : ℝ) (hε : 0 < ε) :
    ∃ st, Falcon9.instanceOf hp id1 id2 kwargs = .ok st ∧
    ∃ N : ℕ, ∀ n ≥ N, ∀ (lib : Lib) (depth : ℕ), ∃ st' M c, generate lib depth (withResolution st id2 n) = (.ok (), st') ∧
      (st'.heap id2).mesh = (.ok M, c) ∧ |signedVolume M.tris + Real.pi * (D / 2) ^ 2 * L_b| < ε := by
  obtain ⟨st, P, Q, h1, h2, h3, h4, bP, bQ, fQ⟩ := falcon_core hp id1 id2 hid kwargs D L_b h r_n r_o f_L ha hd
  have hD := hd.body.1
  have hL := hd.body.2
  have hT : 0 < D + L_b := by linarith
  refine ⟨st, h1, ?_⟩
  have fx : Set.EqOn (fun t => (fnOf Q t).x) (fun t => -f_L - L_b * max 0 (min 1 ((t * (D + L_b) - D / 2) / L_b))) (Set.Icc 0 1) :=
    fun t ht => (fQ t ht).1
  have fy : Set.EqOn (fun t => (fnOf Q t).y) (fun t => min (D / 2) (min (t * (D + L_b)) ((1 - t) * (D + L_b)))) (Set.Icc 0 1) :=
    fun t ht => (fQ t ht).2.1
  have fz : Set.EqOn (fun t => (fnOf Q t).z) (fun _ => 0) (Set.Icc 0 1) := fun t ht => (fQ t ht).2.2
  set a := (D / 2) / (D + L_b) with ha'
  set b := (D / 2 + L_b) / (D + L_b) with hb'
  have hab : a < b := by rw [ha', hb']; exact div_lt_div_of_pos_right (by linarith) hT
  have ha0 : 0 < a := by positivity
  have hb1 : b < 1 := by rw [hb', div_lt_one hT]; linarith
  set x' : ℝ → ℝ := Set.indicator (Set.Ioc a b) (fun _ => -(D + L_b)) with hx'
  have hd1 : ∀ t ∈ Set.Ioo (0 : ℝ) 1 \ {a, b}, HasDerivAt (fun t => (fnOf Q t).x) (x' t) t := by
    intro t ht
    have htne : t ≠ a ∧ t ≠ b := by simpa [not_or] using ht.2
    have hn : Set.Ioo (0 : ℝ) 1 ∈ nhds t := Ioo_mem_nhds ht.1.1 ht.1.2
    by_cases h1 : t < a
    · have e : (fun t => (fnOf Q t).x) =ᶠ[nhds t] fun _ => -f_L := by
        filter_upwards [hn, Iio_mem_nhds h1] with u hu hua
        rw [(fQ u ⟨hu.1.le, hu.2.le⟩).1]
        have : u * (D + L_b) < D / 2 := by rw [ha', Set.mem_Iio, lt_div_iff₀ hT] at hua; exact hua
        show -f_L - L_b * max 0 (min 1 ((u * (D + L_b) - D / 2) / L_b)) = -f_L
        rw [max_eq_left ((min_le_right _ _).trans (div_nonpos_of_nonpos_of_nonneg (by linarith) hL.le))]
        ring
      have : x' t = 0 := Set.indicator_of_notMem (fun h => by have := h.1; linarith) _
      rw [this]
      exact (hasDerivAt_const t (-f_L)).congr_of_eventuallyEq e
    · by_cases h2 : t < b
      · have h1' : a < t := lt_of_le_of_ne (not_lt.1 h1) htne.1.symm
        have e : (fun t => (fnOf Q t).x) =ᶠ[nhds t] fun u => (-f_L + D / 2) + -(D + L_b) * u := by
          filter_upwards [hn, Iio_mem_nhds h2, Ioi_mem_nhds h1'] with u hu hub hua
          rw [(fQ u ⟨hu.1.le, hu.2.le⟩).1]
          have k1 : D / 2 < u * (D + L_b) := by rw [ha', Set.mem_Ioi, div_lt_iff₀ hT] at hua; exact hua
          have k2 : u * (D + L_b) < D / 2 + L_b := by rw [hb', Set.mem_Iio, lt_div_iff₀ hT] at hub; exact hub
          show -f_L - L_b * max 0 (min 1 ((u * (D + L_b) - D / 2) / L_b)) = _
          rw [min_eq_right ((div_le_one hL).2 (by linarith)), max_eq_right (div_nonneg (by linarith) hL.le)]
          field_simp
          ring
        have : x' t = -(D + L_b) := Set.indicator_of_mem (show t ∈ Set.Ioc a b from ⟨h1', h2.le⟩) _
        rw [this]
        have hder : HasDerivAt (fun u : ℝ => (-f_L + D / 2) + -(D + L_b) * u) (-(D + L_b)) t := by
          simpa using ((hasDerivAt_id t).const_mul (-(D + L_b))).const_add (-f_L + D / 2)
        exact hder.congr_of_eventuallyEq e
      · have h2' : b < t := lt_of_le_of_ne (not_lt.1 h2) htne.2.symm
        have e : (fun t => (fnOf Q t).x) =ᶠ[nhds t] fun _ => -f_L - L_b := by
          filter_upwards [hn, Ioi_mem_nhds h2'] with u hu hub
          rw [(fQ u ⟨hu.1.le, hu.2.le⟩).1]
          have k2 : D / 2 + L_b < u * (D + L_b) := by rw [hb', Set.mem_Ioi, div_lt_iff₀ hT] at hub; exact hub
          show -f_L - L_b * max 0 (min 1 ((u * (D + L_b) - D / 2) / L_b)) = _
          rw [min_eq_left ((one_le_div hL).2 (by linarith)), max_eq_right (by norm_num)]
          ring
        have : x' t = 0 := Set.indicator_of_notMem (fun h => by have := h.2; linarith) _
        rw [this]
        exact (hasDerivAt_const t _).congr_of_eventuallyEq e
  have hi : IntervalIntegrable x' MeasureTheory.volume 0 1 := by
    rw [intervalIntegrable_iff]
    refine MeasureTheory.IntegrableOn.indicator ?_ measurableSet_Ioc
    exact MeasureTheory.integrableOn_const (by simp)
  have hint : ∫ t in (0 : ℝ)..1, x' t * ((fnOf Q t).y ^ 2 + (fnOf Q t).z ^ 2) = -((D / 2) ^ 2 * L_b) := by
    have e : Set.EqOn (fun t => x' t * ((fnOf Q t).y ^ 2 + (fnOf Q t).z ^ 2))
        (Set.indicator (Set.Ioc a b) fun _ => -(D + L_b) * (D / 2) ^ 2) (Set.uIcc 0 1) := by
      intro t ht
      rw [Set.uIcc_of_le zero_le_one] at ht
      by_cases hm : t ∈ Set.Ioc a b
      · simp only [hx', Set.indicator_of_mem hm]
        have y1 := fy ht
        have z1 := fz ht
        simp only at y1 z1
        have k1 : D / 2 < t * (D + L_b) := by have := hm.1; rw [ha', div_lt_iff₀ hT] at this; exact this
        have k2 : t * (D + L_b) ≤ D / 2 + L_b := by have := hm.2; rw [hb', le_div_iff₀ hT] at this; exact this
        rw [y1, z1, min_eq_left (le_min k1.le (by linarith))]
        ring
      · simp only [hx', Set.indicator_of_notMem hm, zero_mul]
    rw [intervalIntegral.integral_congr e, intervalIntegral.integral_of_le zero_le_one,
      MeasureTheory.setIntegral_indicator measurableSet_Ioc]
    have : Set.Ioc (0 : ℝ) 1 ∩ Set.Ioc a b = Set.Ioc a b := by
      apply Set.inter_eq_right.2
      intro t ht
      exact ⟨ha0.trans ht.1, ht.2.trans hb1.le⟩
    rw [this, ← intervalIntegral.integral_of_le hab.le, intervalIntegral.integral_const, smul_eq_mul, ha', hb']
    field_simp
    ring
  obtain ⟨N, hN⟩ := C97_converges Q (fnOf Q) (fun t _ _ => bQ.good.call t) (by rw [bQ.first]; exact ⟨rfl, rfl⟩)
    (by rw [bQ.last]; exact ⟨rfl, rfl⟩) (ContinuousOn.congr (by fun_prop) fx) (ContinuousOn.congr (by fun_prop) fy)
    (ContinuousOn.congr (by fun_prop) fz) x' {a, b} (by simp) (D + L_b) hd1 (by
      intro t _
      rw [hx']
      by_cases hm : t ∈ Set.Ioc a b
      · rw [Set.indicator_of_mem hm, abs_neg, abs_of_pos hT]
      · rw [Set.indicator_of_notMem hm, abs_zero]; exact hT.le) hi ε hε
  refine ⟨max N 1, fun n hn lib depth => ?_⟩
  have e1 : withResolution st id1 100 = st := by
    unfold withResolution
    rw [show ({ st.heap id1 with stl_resolution := .int 100 } : Comp) = st.heap id1 by rw [h3]; rfl, upd_eq_self]
  obtain ⟨st', M1, M2, c1, c2, s1, s2, s3, -, -, -, s7⟩ := falcon_generate st id1 id2 hid h2 P Q 100 50 h3 h4 _ _ _ _ bP bQ 100 n
    (by norm_num) (le_trans (le_max_right _ _) hn) lib depth
  rw [e1] at s1
  refine ⟨st', M2, c2, s1, s3, ?_⟩
  obtain ⟨g, M, c, q1, q2, -, q4⟩ := hN n (le_trans (le_max_left _ _) hn) none (Heap.upd hp id2 (RevolvedComponent Q n)) id2 (upd_self _ _ _)
  obtain ⟨g', M', c', r1, r2, -, r4⟩ := C97_volume Q (fnOf Q) (fun t _ _ => bQ.good.call t) (by rw [bQ.first]; exact ⟨rfl, rfl⟩)
    (by rw [bQ.last]; exact ⟨rfl, rfl⟩) n (le_trans (le_max_right _ _) hn) none (Heap.upd hp id2 (RevolvedComponent Q n)) id2 (upd_self _ _ _)
  rw [q1] at r1
  obtain rfl : g = g' := congrArg Prod.snd r1
  rw [q2] at r2
  obtain rfl : M = M' := Except.ok.inj (congrArg Prod.fst r2)
  rw [hint, r4, ← s7] at q4
  rw [show signedVolume M2.tris + Real.pi * (D / 2) ^ 2 * L_b = signedVolume M2.tris - Real.pi * -((D / 2) ^ 2 * L_b) by ring]
  exact q4

/-- An arc that ends where it begins has no plane. -/
theorem arc_degenerate (a c : V) : ∃ e, (Arc a a c).length = .error e := by
  show ∃ e, (Arc.eval a a c 1 >>= fun r => pure r.2) = .error e
  have : ∃ e, Arc.eval a a c 1 = .error e := by
    unfold Arc.eval
    have hc : Vec.cross (a - c) (a - c) = ⟨0, 0, 0⟩ := by ext <;> simp [Vec.cross] <;> ring
    have h0 : ¬ (⟨0, 0, 0⟩ : V).abs > 0 := by rw [Vec.abs_eq_sqrt_dot]; simp [Vec.dot]
    simp only [hc, if_neg h0]
    split
    · exact ⟨_, rfl⟩
    · simp only [bind, Except.bind, pure, Except.pure]
      cases (a - c).normalize
      · exact ⟨_, rfl⟩
      · exact ⟨_, rfl⟩
  obtain ⟨e, he⟩ := this
  rw [he]
  exact ⟨e, rfl⟩

/-- The fairing cannot be built when the ogive radius equals the fairing radius: the tangent point is then the tip, the arc of
the nose ends where it begins, and the polyline asks for its length. -/
theorem C102_hemisphere_violated (hp : Heap) (id1 id2 : ℕ) (kwargs : Dict String ℝ) (D L_b h r_n f_L : ℝ)
    (ha : FalconArgs kwargs D L_b h r_n h f_L) (hn : 0 < r_n ∧ r_n < h) :
    ∃ e, Falcon9.instanceOf hp id1 id2 kwargs = .error e := by
  have s1 : Falcon9.npSqrt ((h - r_n) ^ 2 - (h - h) ^ 2) = .ok (h - r_n) := by
    unfold Falcon9.npSqrt
    rw [sub_self, if_neg (by nlinarith [sq_nonneg (h - r_n)]), show (h - r_n) ^ 2 - (0 : ℝ) ^ 2 = (h - r_n) ^ 2 by ring,
      Real.sqrt_sq (by linarith)]
  have s2 : pdiv (r_n * (h - h)) (h - r_n) = .ok 0 := by
    unfold pdiv
    rw [if_neg (by linarith), sub_self, mul_zero, zero_div]
  have s3 : Falcon9.npSqrt (r_n ^ 2 - 0 ^ 2) = .ok r_n := by
    unfold Falcon9.npSqrt
    rw [if_neg (by nlinarith [sq_nonneg r_n]), show r_n ^ 2 - (0 : ℝ) ^ 2 = r_n ^ 2 by ring, Real.sqrt_sq hn.1.le]
  have hline : ∃ e, Falcon9.fairingLine D h r_n h f_L = .error e := by
    unfold Falcon9.fairingLine
    simp only [s1, s2, s3, ok_bind]
    obtain ⟨e, he⟩ := arc_degenerate ⟨-(-(h - r_n) - r_n), 0, 0⟩ ⟨- -(h - r_n), 0, 0⟩
    cases Polyline [Line ((⟨0, h, 0⟩ : V) - ⟨f_L, 0, 0⟩) ⟨((⟨0, h, 0⟩ : V) - ⟨f_L, 0, 0⟩).x - 0.1 * f_L, D / 2, 0⟩,
        Line ⟨((⟨0, h, 0⟩ : V) - ⟨f_L, 0, 0⟩).x - 0.1 * f_L, D / 2, 0⟩ ⟨((⟨0, h, 0⟩ : V) - ⟨f_L, 0, 0⟩).x - 0.3 * f_L, 0, 0⟩] with
    | error e => exact ⟨e, rfl⟩
    | ok B =>
      rw [ok_bind]
      refine ⟨e, ?_⟩
      unfold Polyline Polyline.init Polyline.breakpoints Polyline.cumLengths Polyline.cumLengths.go
      simp only [Bool.false_eq_true, if_false, bind, Except.bind, pure, Except.pure, he]
  obtain ⟨e, he⟩ := hline
  refine ⟨e, ?_⟩
  unfold Falcon9.instanceOf Falcon9.createInstance
  simp only [given_get' (dflts := Falcon9.defaults) ha.keys ha.D rfl, given_get' (dflts := Falcon9.defaults) ha.keys ha.h' rfl,
    given_get' (dflts := Falcon9.defaults) ha.keys ha.nose rfl, given_get' (dflts := Falcon9.defaults) ha.keys ha.ogive rfl,
    given_get' (dflts := Falcon9.defaults) ha.keys ha.fairing rfl, ok_bind, he, error_bind]

/-- The default dimensions meet the hypotheses of the theorems on C102, and so do others. -/
example : FalconArgs [] 3.75 60 (5 / 2) 0.75 7 6 ∧ FalconDims 3.75 60 (5 / 2) 0.75 7 6 ∧
    FalconArgs [("r_n", 1), ("L_b", 40)] 3.75 40 (5 / 2) 1 7 6 ∧ FalconDims 3.75 40 (5 / 2) 1 7 6 ∧
    FalconArgs [("r_o", 5 / 2)] 3.75 60 (5 / 2) 0.75 (5 / 2) 6 := by
  refine ⟨⟨by simp [Dict.keys], ?_, ?_, ?_, ?_, ?_, ?_⟩, ⟨by norm_num, by norm_num, by norm_num, by norm_num⟩,
    ⟨by simp [Dict.keys], ?_, ?_, ?_, ?_, ?_, ?_⟩, ⟨by norm_num, by norm_num, by norm_num, by norm_num⟩,
    ⟨by simp [Dict.keys], ?_, ?_, ?_, ?_, ?_, ?_⟩⟩ <;> simp [given]

end HV
