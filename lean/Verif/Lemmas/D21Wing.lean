import Verif.Lemmas.D21Line
import Verif.Props.Flaps

/-!
# The wing of the D-21
-/

namespace HV
open Spec Veh

namespace Spec

/-- Sensible dimensions of a D-21. -/
structure D21Ok (p : D21.Params) : Prop where
  radius : 1 / 1000 ≤ p.R_b
  radius' : p.R_b ≤ 1000
  wing : 0.75 < p.L_w
  body : p.L_w < p.L_b
  span : 0 < p.W_w
  slender : p.L_w ≤ 100000 * p.W_w

/-- The resolution is so low that the mesh has no point strictly within the last part of the leading edge, which runs across the nose. -/
def D21Coarse (p : D21.Params) (n : ℕ) : Prop :=
  (2 * n - 1) * (0.15 * p.W_w) + 1e-6 * (p.L_w + p.W_w) < √((0.4 * p.L_w - 0.3) ^ 2 + (0.35 * p.W_w) ^ 2)

end Spec

namespace D21
variable {p : Params} {P : PathObj} {l1 l2 T1 T2 : ℝ}

/-- The leading edge as a function. -/
noncomputable def L (p : Params) (T1 T2 t : ℝ) : V := ⟨ex p.L_w T1 T2 t, ey p.W_w T1 T2 t, 0⟩

/-- The parameters in front of the nose, and the end. -/
def S (T2 : ℝ) : Set ℝ := {t | 0 ≤ t ∧ t < T2 ∨ t = 1}

/-- Half the local span the bisection finds. -/
noncomputable def lw (P : PathObj) (x : ℝ) : ℝ := ((localWs bisect01 P x).toOption).getD 0

/-- Height of the top. -/
noncomputable def topH (p : Params) (P : PathObj) (x y : ℝ) : ℝ := -(wing_thickness p) / 2 - 0.5 * (1 - y / usedWs (lw P x))

theorem usedWs_ne (l : ℝ) : usedWs l ≠ 0 := by
  unfold usedWs
  split_ifs with h
  · norm_num
  · exact h

section
variable (h : EdgeOf p P l1 l2 T1 T2) (hp : D21Ok p)
include h hp

theorem mono : MonoEdge (L p T1 T2) := by
  obtain ⟨K, hK⟩ := ex_rises (h.T1_pos hp.span) (h.T12 hp.span) (h.T2_lt hp.span) hp.wing
  have hf := h.falls hp.span
  refine ⟨fun t ht u hu htu => ?_, fun t ht u hu htu => ?_⟩
  · have := (hK t u ht.1 htu hu.2).1
    show ex _ _ _ _ ≤ ex _ _ _ _
    linarith
  · have := (hf t u ht.1 htu hu.2).1
    show ey _ _ _ _ ≤ ey _ _ _ _
    linarith

theorem exCont : ContinuousOn (ex p.L_w T1 T2) (Set.Icc 0 1) := by
  obtain ⟨K, hK⟩ := ex_rises (h.T1_pos hp.span) (h.T12 hp.span) (h.T2_lt hp.span) hp.wing
  exact hK.continuousOn

theorem L_zero : L p T1 T2 0 = B0 p := by
  unfold L
  rw [ex_zero (h.T1_pos hp.span) (h.T12 hp.span), ey_zero (h.T1_pos hp.span) (h.T12 hp.span)]
  ext <;> simp [B0, A0]

theorem L_one : L p T1 T2 1 = TT p := by
  unfold L
  rw [ex_one (h.T1_pos hp.span) (h.T12 hp.span) (h.T2_lt hp.span), ey_one (h.T1_pos hp.span) (h.T12 hp.span) (h.T2_lt hp.span)]
  ext <;> simp [TT, A0]

theorem lw_total (x : ℝ) (h0 : -p.L_w ≤ x) (h1 : x ≤ -0.3) : localWs bisect01 P x = .ok (lw P x) := by
  have e0 : ex p.L_w T1 T2 0 = -p.L_w := ex_zero (h.T1_pos hp.span) (h.T12 hp.span)
  have e1 : ex p.L_w T1 T2 1 = -0.3 := ex_one (h.T1_pos hp.span) (h.T12 hp.span) (h.T2_lt hp.span)
  obtain ⟨t, -, he⟩ := scipyBisect_total (fun t => do let q ← P.call t; return q.x - x) (fun t => ex p.L_w T1 T2 t - x)
    (fun t _ => by simp only [h.call, ok_bind]; rfl)
    (mul_nonpos_of_nonpos_of_nonneg (by rw [e0]; linarith) (by rw [e1]; linarith))
  have : localWs bisect01 P x = .ok (ey p.W_w T1 T2 t) := by
    unfold localWs bisect01
    rw [he, ok_bind, h.call, ok_bind]
    rfl
  rw [lw, this]
  rfl

/-- In front of the nose the bisection finds the span to a millionth. -/
theorem lw_near (t : ℝ) (h0 : 0 ≤ t) (h2 : t < T2) : ∃ l, lw P (ex p.L_w T1 T2 t) = l ∧ |l - ey p.W_w T1 T2 t| ≤ 1e-6 * p.W_w := by
  have q1 := h.T1_pos hp.span
  have q2 := h.T12 hp.span
  have q3 := h.T2_lt hp.span
  have hm := mono h hp
  have tm : t ∈ Set.Icc (0 : ℝ) 1 := ⟨h0, by linarith⟩
  have k0 := hm.fwd 0 ⟨le_rfl, zero_le_one⟩ t tm h0
  have k1 := hm.fwd t tm 1 ⟨zero_le_one, le_rfl⟩ tm.2
  simp only [L] at k0 k1
  obtain ⟨t', ht', he, r, hr, hg, hd⟩ := scipyBisect_root (fun s => do let q ← P.call s; return q.x - ex p.L_w T1 T2 t)
    (fun s => ex p.L_w T1 T2 s - ex p.L_w T1 T2 t)
    (fun s _ => by simp only [h.call, ok_bind]; rfl) ((exCont h hp).sub continuousOn_const)
    (mul_nonpos_of_nonpos_of_nonneg (by linarith) (by linarith))
  have hrt : r = t := ex_inj q1 q2 hp.wing h0 hr.1 h2 (by linarith)
  subst hrt
  have hl : localWs bisect01 P (ex p.L_w T1 T2 r) = .ok (ey p.W_w T1 T2 t') := by
    unfold localWs bisect01
    rw [he, ok_bind, h.call, ok_bind]
    rfl
  refine ⟨ey p.W_w T1 T2 t', by rw [lw, hl]; rfl, ?_⟩
  have := (h.falls hp.span).abs hr ht'
  rw [neg_sub_neg, abs_sub_comm] at this
  refine this.trans ?_
  have b1 := h.total
  have b2 := hp.slender
  have b3 := hp.span
  have b4 := h.lenPos hp.span
  calc 2 * (l1 + l2 + 0.15 * p.W_w) * |t' - r| ≤ 2 * (l1 + l2 + 0.15 * p.W_w) * 3e-12 := by gcongr
    _ ≤ 1e-6 * p.W_w := by linarith

/-- At the tip of the nose the span used is a millimetre. -/
theorem lw_tip : usedWs (lw P (ex p.L_w T1 T2 1)) = 1e-3 := by
  have e0 : ex p.L_w T1 T2 0 = -p.L_w := ex_zero (h.T1_pos hp.span) (h.T12 hp.span)
  have e1 : ex p.L_w T1 T2 1 = -0.3 := ex_one (h.T1_pos hp.span) (h.T12 hp.span) (h.T2_lt hp.span)
  have he := scipyBisect_right (fun s => do let q ← P.call s; return q.x - ex p.L_w T1 T2 1) (ex p.L_w T1 T2 0 - ex p.L_w T1 T2 1)
    (by simp only [h.call, ok_bind]; rfl) (by rw [e0, e1]; have := hp.wing; linarith) (by simp only [h.call, ok_bind, sub_self]; rfl)
  have hl : localWs bisect01 P (ex p.L_w T1 T2 1) = .ok 0 := by
    unfold localWs bisect01
    rw [he, ok_bind, h.call, ok_bind, ey_one (h.T1_pos hp.span) (h.T12 hp.span) (h.T2_lt hp.span)]
    rfl
  rw [lw, hl]
  show usedWs 0 = _
  rw [usedWs, if_pos rfl]

theorem wingTop_eq : HeightFn (fun x y => -p.L_w ≤ x ∧ x ≤ -0.3 ∧ 0 ≤ y) (wingTop bisect01 P p) (topH p P) := by
  intro x y z hD
  unfold wingTop
  rw [lw_total h hp x hD.1 hD.2.1, ok_bind, pdiv_ok _ _ (usedWs_ne _), ok_bind]
  rfl

theorem over : LiesOver (fun x y => -p.L_w ≤ x ∧ x ≤ -0.3 ∧ 0 ≤ y) (A0 p) (A1 p) (L p T1 T2) := by
  have hw := hp.wing
  refine liesOver_box (mono h hp) _ _ ?_ ?_ ⟨?_, ?_⟩ ⟨?_, ?_⟩ ?_ ?_ ?_
  · rw [L_zero h hp]; simp [B0, A0]
  · rw [L_one h hp]; simp [TT, A0]
  · simp [A0]
  · simp [A0]; linarith
  · simp [A1, A0]; linarith
  · simp [A1, A0]; linarith
  · simp [A0]
  · simp [A1]
  · rw [L_one h hp]; simp [TT]

/-- Where the mesh evaluates it, the leading edge is neither thin nor thick. -/
theorem thickness (t : ℝ) (ht : t ∈ S T2) : 0 < wing_thickness p / 2 - topH p P (L p T1 T2 t).x (L p T1 T2 t).y ∧
    wing_thickness p / 2 - topH p P (L p T1 T2 t).x (L p T1 T2 t).y ≤ 200 := by
  have q1 := h.T1_pos hp.span
  have q2 := h.T12 hp.span
  have q3 := h.T2_lt hp.span
  have r1 := hp.radius
  have r2 := hp.radius'
  have hW := hp.span
  rcases ht with ⟨h0, h2⟩ | rfl
  · obtain ⟨l, e, hl⟩ := lw_near h hp t h0 h2
    have hy : 0.15 * p.W_w ≤ ey p.W_w T1 T2 t := by
      have := (mono h hp).inw t ⟨h0, by linarith⟩ T2 ⟨by linarith, q3.le⟩ h2.le
      simp only [L] at this
      rw [ey_third q1 q2 (le_refl T2), sub_self, zero_div] at this
      linarith
    obtain ⟨a1, a2⟩ := abs_le.1 hl
    have lpos : 0 < l := by linarith
    have hu : usedWs l = l := if_neg lpos.ne'
    simp only [L, topH, e, hu, wing_thickness]
    set y := ey p.W_w T1 T2 t
    have d0 : 0 ≤ y / l := div_nonneg (by linarith) lpos.le
    have d1 : y / l ≤ 1 + 1e-5 := by
      rw [div_le_iff₀ lpos]; linarith
    constructor <;> linarith
  · simp only [L, topH, lw_tip h hp, ey_one q1 q2 q3, wing_thickness]
    constructor <;> linarith

/-- The wing object: its first break is that of the leading edge. -/
theorem wing_init : ∃ w, Wing.init (rounded bisect01) (wingArgs bisect01 P p) = .ok w ∧ w.t_B1 ∈ Set.Icc (0 : ℝ) 1 ∧ |w.t_B1 - T1| ≤ 6e-7 := by
  have q1 := h.T1_pos hp.span
  have q2 := h.T12 hp.span
  have q3 := h.T2_lt hp.span
  have hw := hp.wing
  have hA : (A1 p).x = -0.4 * p.L_w := by simp [A1, A0]; ring
  have e0 : ex p.L_w T1 T2 0 = -p.L_w := ex_zero q1 q2
  have e1 : ex p.L_w T1 T2 1 = -0.3 := ex_one q1 q2 q3
  obtain ⟨t, ht, he, r, hr, hg, hd⟩ := roundedBisect_finds (fun t => do let q ← P.call t; return q.x - (A1 p).x)
    (fun t => ex p.L_w T1 T2 t - (A1 p).x) (fun t _ => by simp only [h.call, ok_bind]; rfl)
    ((exCont h hp).sub continuousOn_const)
    (mul_nonpos_of_nonpos_of_nonneg (by rw [e0, hA]; linarith) (by rw [e1, hA]; linarith))
  have hrT : r = T1 := ex_inj q1 q2 hp.wing q1.le hr.1 q2 (by rw [ex_break q1 q2]; linarith)
  subst hrT
  have hbr : Wing.breakB1 (rounded bisect01) (wingArgs bisect01 P p) = .ok t := by
    unfold Wing.breakB1
    exact he
  refine ⟨⟨wingArgs bisect01 P p, some leadingEdgeWidth, ("custom" : String).toUpper, t, some (0.5 * (1 + t))⟩, ?_, ht, hd⟩
  unfold Wing.init
  rw [hbr, ok_bind]
  simp [wingArgs, Wing.breakB2]
  rfl

theorem wing_on {ptan : ℝ → ℝ} (hT : FloatTan ptan) (w : Wing.State) (hw : Wing.init (rounded bisect01) (wingArgs bisect01 P p) = .ok w)
    (h1 : w.t_B1 ∈ Set.Icc (0 : ℝ) 1) : w.args = wingArgs bisect01 P p ∧
    WingOn ptan (fun x y => -p.L_w ≤ x ∧ x ≤ -0.3 ∧ 0 ≤ y) (S T2) w
      ⟨L p T1 T2, topH p P, fun _ _ => wing_thickness p / 2, fun t => 0.01 + 0.18 * t * (1 - t)⟩ (0.5 * (1 + w.t_B1)) 1e-12 := by
  obtain ⟨ha, hLT, -, i2, -⟩ := Wing.init_ok hw
  have q1 := h.T1_pos hp.span
  have q2 := h.T12 hp.span
  have q3 := h.T2_lt hp.span
  have hwf : widthFn w.LE_wf = leadingEdgeWidth := by
    unfold Wing.init at hw
    obtain ⟨t, -, hw⟩ := bind_ok.1 hw
    rw [← pure_ok.1 hw]
    simp [wingArgs, widthFn]
  have hsub : S T2 ⊆ Set.Icc 0 1 := by
    rintro t (⟨a, b⟩ | rfl)
    · exact ⟨a, by linarith⟩
    · exact ⟨zero_le_one, le_rfl⟩
  have hwd : ∀ t ∈ S T2, (0.01 : ℝ) ≤ 0.01 + 0.18 * t * (1 - t) := by
    intro t ht
    have := mul_nonneg (hsub ht).1 (sub_nonneg.2 (hsub ht).2)
    linarith
  have hth : ∀ t ∈ S T2, 0 < WingShape.half ⟨L p T1 T2, topH p P, fun _ _ => wing_thickness p / 2, fun t => 0.01 + 0.18 * t * (1 - t)⟩ t ∧
      WingShape.half ⟨L p T1 T2, topH p P, fun _ _ => wing_thickness p / 2, fun t => 0.01 + 0.18 * t * (1 - t)⟩ t ≤ 100 := by
    intro t ht
    have := thickness h hp t ht
    simp only [WingShape.half, halfH]
    constructor <;> linarith
  refine ⟨ha, ⟨⟨?_, ?_, h1, i2 rfl, ⟨by linarith [h1.1], by linarith [h1.2]⟩, by linarith [h1.2], ?_, ?_, ?_, ?_, ?_, ?_⟩,
    ⟨.inl ⟨le_rfl, by linarith⟩, .inr rfl, hT.like, fun t ht => (hth t ht).1, fun t ht => ?_, fun t ht => ?_, fun t ht => ?_⟩, hsub, ?_, ?_⟩⟩
  · rw [ha]; exact lower_bezier
  · rw [ha]; rfl
  · rw [ha]; exact h.call
  · rw [ha]; exact L_zero h hp
  · rw [ha]; exact L_one h hp
  · rw [ha]; exact wingTop_eq h hp
  · rw [ha]; exact fun x y z _ => rfl
  · rw [ha]; exact over h hp
  · show (0 : ℝ) < 0.01 + 0.18 * t * (1 - t)
    linarith [hwd t ht]
  · exact hT.fits _ _ (by rw [abs_of_pos (hth t ht).1]; exact (hth t ht).2) (by linarith [hwd t ht])
  · exact hT.gap _ _ (hth t ht).1.le (hth t ht).2 (by linarith [hwd t ht])
  · rw [hLT]; exact X43.up_custom
  · intro t _
    rw [hwf, leadingEdgeWidth_eq]

/-- At a low resolution no point of the mesh lies within the part of the leading edge that runs across the nose. -/
theorem sampled (n : ℕ) (hn : 1 ≤ n) (hc : D21Coarse p n) (t : ℝ) (h1 : t ∈ Set.Icc (0 : ℝ) 1) (hd : |t - T1| ≤ 6e-7) :
    SampledIn (S T2) n t (0.5 * (1 + t)) := by
  have hn0 : (0 : ℝ) < n := by exact_mod_cast hn
  have hn1 : (1 : ℝ) ≤ n := by exact_mod_cast hn
  have hl := h.lenPos hp.span
  have e1 := h.T1
  have e2 := h.T2
  have e3 := h.total
  have e4 := h.bend
  have hW := hp.span
  have hLw := hp.wing
  unfold D21Coarse at hc
  unfold chord at e4
  obtain ⟨d1, d2⟩ := abs_le.1 hd
  -- the nearest point to the tip
  have key : 1 - 1 / n * (1 - 0.5 * (1 + t)) < T2 := by
    set l := l1 + l2 + 0.15 * p.W_w
    have a1 : 2 * n * (0.15 * p.W_w) < l2 + 0.15 * p.W_w - 6e-7 * l := by linarith
    have a2 : (1 - T1 - 6e-7) * l = l2 + 0.15 * p.W_w - 6e-7 * l := by simp only [l] at e1 ⊢; linarith
    have a3 : (1 - T2) * l = 0.15 * p.W_w := by simp only [l] at e2 ⊢; linarith
    have a4 : 2 * n * (1 - T2) < 1 - T1 - 6e-7 := by
      by_contra hcon
      have := mul_le_mul_of_nonneg_right (not_lt.1 hcon) hl.le
      have : 2 * n * (1 - T2) * l = 2 * n * (0.15 * p.W_w) := by rw [mul_assoc, a3]
      linarith
    have a5 : 1 - T2 < 1 / n * (1 - 0.5 * (1 + t)) := by
      rw [one_div, inv_mul_eq_div, lt_div_iff₀ hn0]
      linarith
    linarith
  have t2n : 0.5 * (1 + t) < T2 := by
    have : 1 / (n : ℝ) * (1 - 0.5 * (1 + t)) ≤ 1 * (1 - 0.5 * (1 + t)) :=
      mul_le_mul_of_nonneg_right ((div_le_one hn0).2 hn1) (by linarith [h1.2])
    linarith
  have frac : ∀ i ≤ n, 0 ≤ (i : ℝ) / n ∧ (i : ℝ) / n ≤ 1 := fun i hi => ⟨by positivity, (div_le_one hn0).2 (by exact_mod_cast hi)⟩
  refine ⟨fun i hi => .inl ?_, fun i hi => .inl ?_, fun i hi => ?_⟩
  · obtain ⟨f0, f1⟩ := frac i hi
    have u1 := mul_nonneg f0 h1.1
    have u2 := mul_nonneg (sub_nonneg.2 f1) h1.1
    constructor
    · linarith
    · linarith [h1.2]
  · obtain ⟨f0, f1⟩ := frac i hi
    have u0 : 0 ≤ 0.5 * (1 + t) - t := by linarith [h1.2]
    have u1 := mul_nonneg f0 u0
    have u2 := mul_nonneg (sub_nonneg.2 f1) u0
    constructor
    · linarith [h1.1]
    · linarith
  · rcases Nat.eq_zero_or_pos i with rfl | hi0
    · right; simp
    · left
      obtain ⟨f0, f1⟩ := frac i hi
      have u0 : 0 ≤ 1 - 0.5 * (1 + t) := by linarith [h1.2]
      have f2 : 1 / (n : ℝ) ≤ i / n := by
        have : (1 : ℝ) ≤ i := by exact_mod_cast hi0
        gcongr
      have u1 := mul_le_mul_of_nonneg_right f2 u0
      have u2 := mul_nonneg (sub_nonneg.2 f1) u0
      constructor
      · linarith [h1.1]
      · linarith

end
end D21
end HV
