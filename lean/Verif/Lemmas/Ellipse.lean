import Verif.Props.Edges

/-!
# The arc-length parameterised quarter ellipse with a numerical tangent
-/

namespace HV
open Spec

/-- The numerical tangent at the two poles is so large that the quarter ellipse with semi-axes `w` and `th` ends within `1e-5` of
the `z` axis vertex. -/
def Spec.PoleFits (ptan : ℝ → ℝ) (th w : ℝ) : Prop :=
  (0 < ptan (Real.pi / 2) ∧ |th| ≤ 1 / 100000 * ptan (Real.pi / 2) ∧
    |th| ^ 3 ≤ 1 / 100000 * (w * ptan (Real.pi / 2)) ^ 2) ∧ ptan (-(Real.pi / 2)) = -ptan (Real.pi / 2)

theorem ellipse_pole {th w T : ℝ} (hth : th ≠ 0) (hw : 0 < w) (hT : 0 < T) :
    0 ≤ w * |th| / Real.sqrt (th ^ 2 + (w * T) ^ 2) ∧ w * |th| / Real.sqrt (th ^ 2 + (w * T) ^ 2) ≤ |th| / T ∧
    |(|th| - w * |th| / Real.sqrt (th ^ 2 + (w * T) ^ 2) * T)| ≤ |th| ^ 3 / (w * T) ^ 2 := by
  have hwT : 0 < w * T := mul_pos hw hT
  have ha : 0 < |th| := abs_pos.2 hth
  have hD : 0 < th ^ 2 + (w * T) ^ 2 := by positivity
  have hS := Real.sqrt_pos.2 hD
  have hSS := Real.sq_sqrt hD.le
  set S := Real.sqrt (th ^ 2 + (w * T) ^ 2)
  have hSw : w * T ≤ S := by
    apply Real.le_sqrt_of_sq_le
    nlinarith [sq_nonneg th]
  refine ⟨by positivity, ?_, ?_⟩
  · rw [div_le_div_iff₀ hS hT]
    nlinarith
  · have e : |th| - w * |th| / S * T = |th| * (S - w * T) / S := by field_simp
    have e2 : (S - w * T) * (S + w * T) = |th| ^ 2 := by
      rw [sq_abs]; nlinarith
    have hnn : 0 ≤ |th| * (S - w * T) / S := div_nonneg (mul_nonneg ha.le (by linarith)) hS.le
    rw [e, abs_of_nonneg hnn, div_le_div_iff₀ hS (by positivity)]
    have h1 : S - w * T ≤ |th| ^ 2 / (w * T) := by
      rw [le_div_iff₀ hwT, ← e2]
      apply mul_le_mul_of_nonneg_left (by linarith) (by linarith)
    calc |th| * (S - w * T) * (w * T) ^ 2 ≤ |th| * (|th| ^ 2 / (w * T)) * (w * T) ^ 2 := by gcongr
      _ = |th| ^ 3 * (w * T) := by field_simp
      _ ≤ |th| ^ 3 * S := by gcongr

/-- The quarter ellipse reparameterised by arc length: it is total, its nose end is exact and its other end is within `1e-5` of
the vertex. -/
theorem elipse_arc (ptan : ℝ → ℝ) (hT : TanLike ptan) (c : V) (th w : ℝ) (hth : th ≠ 0) (hw : 0 < w)
    (hp : PoleFits ptan th w) :
    (∃ q, ArcLengthParameterizedPath (ElipsePath ptan c th w "bot") = .ok q ∧ (∀ t, ∃ p, q.call t = .ok p) ∧
      q.call 0 = .ok (c + ⟨0, w, 0⟩) ∧ ∃ p, q.call 1 = .ok p ∧ p.x = c.x ∧ |p.y - c.y| ≤ 1 / 100000 ∧
        |p.z - (c.z + |th|)| ≤ 1 / 100000) ∧
    (∃ q, ArcLengthParameterizedPath (ElipsePath ptan c th w "top") = .ok q ∧ (∀ t, ∃ p, q.call t = .ok p) ∧
      q.call 1 = .ok (c + ⟨0, w, 0⟩) ∧ ∃ p, q.call 0 = .ok p ∧ p.x = c.x ∧ |p.y - c.y| ≤ 1 / 100000 ∧
        |p.z - (c.z - |th|)| ≤ 1 / 100000) := by
  obtain ⟨⟨hpos, hb1, hb2⟩, hneg⟩ := hp
  obtain ⟨-, -, n0, n1⟩ := C20_sides ptan hT c th w hth hw
  obtain ⟨k0, k1, k2⟩ := ellipse_pole hth hw hpos
  set T := ptan (Real.pi / 2) with hTd
  have hwT : 0 < w * T := mul_pos hw hpos
  have k1' : w * |th| / Real.sqrt (th ^ 2 + (w * T) ^ 2) ≤ 1 / 100000 := k1.trans ((div_le_iff₀ hpos).2 hb1)
  have k2' : |(|th| - w * |th| / Real.sqrt (th ^ 2 + (w * T) ^ 2) * T)| ≤ 1 / 100000 :=
    k2.trans ((div_le_iff₀ (by positivity)).2 hb2)
  have arc : ∀ top : Bool, ∃ q, ArcLengthParameterizedPath (ElipsePath ptan c th w (if top then "top" else "bot")) = .ok q ∧
      (∀ t, ∃ p, q.call t = .ok p) ∧
      q.call 0 = (ElipsePath ptan c th w (if top then "top" else "bot")).call 0 ∧
      q.call 1 = (ElipsePath ptan c th w (if top then "top" else "bot")).call 1 := by
    intro top
    have tot : ∀ r, ∃ p, (ElipsePath ptan c th w (if top then "top" else "bot")).call r = .ok p :=
      fun r => ⟨_, Elipse.at_eq ptan c th w top r hth⟩
    choose P hP using tot
    have hne : P 0 ≠ P 1 := by
      intro h
      have a0 := hP 0
      have a1 := hP 1
      rw [h] at a0
      cases top
      · rw [if_neg (by simp)] at a0 a1
        rw [n0] at a0
        have e := Elipse.at_eq ptan c th w false 1 hth
        rw [if_neg (by simp)] at e
        have a1 : elipseAt ptan c th w "bot" 1 = .ok (P 1) := a1
        rw [e, ← Except.ok.inj a0] at a1
        have hz := congrArg Vec.z (Except.ok.inj a1)
        simp [Elipse.angle, ← hTd, hth, hw.ne', hpos.ne'] at hz
        have : 0 < th ^ 2 + (w * T) ^ 2 := by positivity
        linarith [hz ▸ Real.sqrt_pos.2 this]
      · rw [if_pos rfl] at a0 a1
        rw [n1] at a1
        have e := Elipse.at_eq ptan c th w true 0 hth
        rw [if_pos rfl] at e
        have a0 : elipseAt ptan c th w "top" 0 = .ok (P 1) := a0
        rw [e, ← Except.ok.inj a1] at a0
        have hz := congrArg Vec.z (Except.ok.inj a0)
        have e2 : -Real.pi / 2 = -(Real.pi / 2) := by ring
        simp [Elipse.angle, e2, hneg, ← hTd, hth, hw.ne', hpos.ne'] at hz
        have : 0 < th ^ 2 + (w * T) ^ 2 := by positivity
        linarith [hz ▸ Real.sqrt_pos.2 this]
    have hch : 0 < chordSum (fun i : ℕ => P ((i : ℝ) / (1000 : ℕ))) 1000 := by
      refine lt_of_le_of_ne (chordSum_zero (fun i : ℕ => P ((i : ℝ) / (1000 : ℕ))) ▸ chordSum_mono _ (Nat.zero_le _)) ?_
      intro h
      have := chordSum_eq_imp (fun i : ℕ => P ((i : ℝ) / (1000 : ℕ))) (Nat.zero_le 1000) (by rw [chordSum_zero]; exact h)
      apply hne
      simpa using this
    obtain ⟨q, u, h1, -, h2, -, -, h3, h4, -⟩ := C15_reparameterisation (ElipsePath ptan c th w (if top then "top" else "bot"))
      (fun i : ℕ => P ((i : ℝ) / (1000 : ℕ))) 1000 (by norm_num) (fun i _ => hP _) hch
    exact ⟨q, h1, fun t => ⟨_, (h2 t).trans (hP _)⟩, h3, h4⟩
  constructor
  · obtain ⟨q, h1, h2, h3, h4⟩ := arc false
    rw [if_neg (by simp)] at h1 h3 h4
    refine ⟨q, h1, h2, by rw [h3, n0],
      c + (⟨0, w * |th| / Real.sqrt (th ^ 2 + (w * T) ^ 2), w * |th| / Real.sqrt (th ^ 2 + (w * T) ^ 2) * T⟩ : V), h4.trans ?_, ?_, ?_, ?_⟩
    · have := Elipse.at_eq ptan c th w false 1 hth
      show elipseAt ptan c th w "bot" 1 = _
      simpa [Elipse.angle, ← hTd] using this
    · simp
    · simpa [abs_of_nonneg k0] using k1'
    · rw [abs_sub_comm]
      have e : c.z + |th| - (c + (⟨0, w * |th| / Real.sqrt (th ^ 2 + (w * T) ^ 2),
        w * |th| / Real.sqrt (th ^ 2 + (w * T) ^ 2) * T⟩ : V)).z = |th| - w * |th| / Real.sqrt (th ^ 2 + (w * T) ^ 2) * T := by
        simp
      rw [e]; exact k2'
  · obtain ⟨q, h1, h2, h3, h4⟩ := arc true
    rw [if_pos rfl] at h1 h3 h4
    refine ⟨q, h1, h2, by rw [h4, n1],
      c + (⟨0, w * |th| / Real.sqrt (th ^ 2 + (w * T) ^ 2), -(w * |th| / Real.sqrt (th ^ 2 + (w * T) ^ 2) * T)⟩ : V), h3.trans ?_, ?_, ?_, ?_⟩
    · have := Elipse.at_eq ptan c th w true 0 hth
      have e2 : -Real.pi / 2 = -(Real.pi / 2) := by ring
      show elipseAt ptan c th w "top" 0 = _
      simpa [Elipse.angle, e2, hneg, ← hTd] using this
    · simp
    · simpa [abs_of_nonneg k0] using k1'
    · have e : (c + (⟨0, w * |th| / Real.sqrt (th ^ 2 + (w * T) ^ 2),
        -(w * |th| / Real.sqrt (th ^ 2 + (w * T) ^ 2) * T)⟩ : V)).z - (c.z - |th|) =
        |th| - w * |th| / Real.sqrt (th ^ 2 + (w * T) ^ 2) * T := by
        simp; ring
      rw [e]; exact k2'

/-- IEEE-like tangent. -/
noncomputable def ieeeTan (θ : ℝ) : ℝ :=
  if θ = Real.pi / 2 then 10 ^ 16 else if θ = -(Real.pi / 2) then -10 ^ 16 else Real.tan θ

theorem ieeeTan_like : TanLike ieeeTan := by
  have hpi := Real.pi_pos
  refine ⟨?_, by norm_num [ieeeTan], ?_⟩
  · intro θ h
    have := abs_lt.1 h
    unfold ieeeTan
    rw [if_neg (by linarith), if_neg (by linarith)]
  · unfold ieeeTan
    rw [if_neg (by linarith)]
    norm_num

theorem ieeeTan_fits (th w : ℝ) (h1 : |th| ≤ 1) (hw : 1 / 100 ≤ w) : PoleFits ieeeTan th w := by
  have hpi := Real.pi_pos
  have e : ieeeTan (Real.pi / 2) = 10 ^ 16 := by norm_num [ieeeTan]
  refine ⟨⟨by rw [e]; positivity, by rw [e]; linarith, ?_⟩, ?_⟩
  · rw [e]
    have h3 : |th| ^ 3 ≤ 1 := pow_le_one₀ (abs_nonneg _) h1
    nlinarith
  · rw [e]
    unfold ieeeTan
    rw [if_neg (by linarith)]
    norm_num

end HV
