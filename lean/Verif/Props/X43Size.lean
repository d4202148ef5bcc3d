import Verif.Props.HtvSize
import Verif.Props.Flaps

/-!
# C147: the X-43 as assembled has the dimensions given
-/

namespace HV
open Spec Veh

namespace Spec

/-- Dimensions for which the planform of the X-43 keeps its shape: besides `X43Ok`, wings no longer than the body that reach outwards and back, flaps of at
most 0.4 times the wing, and no negative lengths. -/
structure X43Sized (p : X43.Params) : Prop extends X43Ok p where
  out : 0 < p.wing_span
  back : 0 ≤ p.wing_TE_back
  flapPos : 0 ≤ p.flap_length
  flapShort : p.flap_length ≤ 0.4 * p.wing_length
  wingShort : p.wing_length ≤ p.body_length
  engine : 0 ≤ p.engine_h
  height : 0 < p.fin_height
  rudderPos : 0 ≤ p.rudder_length

end Spec

namespace X43
variable {p : Params}

/-- The slope of the vehicle. -/
noncomputable def slope (p : Params) : ℝ := Real.tan (p.body_angle * Real.pi / 180)

theorem slope_eq : Real.tan (beta p) = slope p := by
  unfold slope beta deg2rad
  congr 1; ring

theorem botH_eq (hp : X43Ok p) (x y : ℝ) : botH p x y = (x - p.body_length) * (slope p - 0.075 / 3.7) + 0.025 * p.body_length / 3.7 := by
  have := hp.length.ne'
  simp only [botH, slope_eq, TE_height, LE_height, L_nom]
  field_simp
  ring

theorem topH_eq (hp : X43Ok p) (x y : ℝ) : topH p x y = (x - p.body_length) * (slope p + 0.075 / 3.7) - 0.025 * p.body_length / 3.7 -
    (p.body_length - x) * (0.025 * (1 - (y / ly p x) ^ 2)) := by
  have := hp.length.ne'
  simp only [topH, slope_eq, TE_height, LE_height, L_nom]
  field_simp
  ring

theorem ly_rear (hp : X43Ok p) {x : ℝ} (hx : x < (B1 p).x) : ly p x = p.body_width / 2 := by
  unfold ly; rw [if_pos hx]; rfl

/-- The half width in front of the break. -/
theorem ly_front (hp : X43Ok p) {x : ℝ} (hx : (B1 p).x ≤ x) :
    ly p x = p.body_width / 2 * (1 - 0.6 * ((x - (B1 p).x) / (p.body_length - (B1 p).x))) := by
  have h := b1_pos hp
  have hd : 0 < p.body_length - (B1 p).x := by linarith
  have := ly_mid hp ((x - (B1 p).x) / (p.body_length - (B1 p).x)) (div_nonneg (by linarith) hd.le)
  rw [div_mul_cancel₀ _ hd.ne', add_sub_cancel] at this
  exact this

theorem ly_anti (hp : X43Ok p) {x y : ℝ} (hxy : x ≤ y) : ly p y ≤ ly p x := by
  have h := b1_pos hp
  have hw := hp.width
  have hd : 0 < p.body_length - (B1 p).x := by linarith
  rcases lt_or_ge y (B1 p).x with h1 | h1
  · rw [ly_rear hp h1, ly_rear hp (hxy.trans_lt h1)]
  · rw [ly_front hp h1]
    rcases lt_or_ge x (B1 p).x with h2 | h2
    · rw [ly_rear hp h2]
      have : 0 ≤ (y - (B1 p).x) / (p.body_length - (B1 p).x) := div_nonneg (by linarith) hd.le
      nlinarith
    · rw [ly_front hp h2]
      have : (x - (B1 p).x) / (p.body_length - (B1 p).x) ≤ (y - (B1 p).x) / (p.body_length - (B1 p).x) :=
        div_le_div_of_nonneg_right (by linarith) hd.le
      nlinarith

theorem ly_le (hp : X43Ok p) {x : ℝ} (hx : 0 ≤ x) : ly p x ≤ p.body_width / 2 := by
  have := ly_anti hp hx
  rwa [ly_rear hp (b1_pos hp).1] at this

/-- Within the width of the body the upper side is above the lower side. -/
theorem top_above (hp : X43Ok p) {x y : ℝ} (h0 : 0 ≤ x) (h1 : x ≤ p.body_length) (h2 : 0 ≤ y) (h3 : y ≤ p.body_width / 2) :
    topH p x y ≤ botH p x y := by
  have hb := b1_pos hp
  have hw := hp.width
  have hl := hp.length
  rw [← sub_nonneg, body_thick hp]
  have hly := ly_pos hp h1
  rcases lt_or_ge x (B1 p).x with k | k
  · have e := ly_rear hp k
    have r0 : 0 ≤ y / ly p x := by positivity
    have r1 : y / ly p x ≤ 1 := (div_le_one hly).2 (by rw [e]; exact h3)
    have r2 : 0 ≤ 1 - (y / ly p x) ^ 2 := by nlinarith
    have r3 : 0 ≤ p.body_length - x := by linarith
    positivity
  · have hd : 0 < p.body_length - (B1 p).x := by linarith
    obtain ⟨s, hs⟩ : ∃ s, s = (x - (B1 p).x) / (p.body_length - (B1 p).x) := ⟨_, rfl⟩
    have s0 : 0 ≤ s := by rw [hs]; exact div_nonneg (by linarith) hd.le
    have s1 : s ≤ 1 := by rw [hs]; exact (div_le_one hd).2 (by linarith)
    have ex : p.body_length - x = (1 - s) * (p.body_length - (B1 p).x) := by
      rw [hs]; field_simp; ring
    have e := ly_front hp k
    rw [← hs] at e
    have q0 : 0 < 1 - 0.6 * s := by linarith
    have r : y / ly p x ≤ 1 / (1 - 0.6 * s) := by
      rw [e, div_le_div_iff₀ (by positivity) q0]
      nlinarith
    have r0 : 0 ≤ y / ly p x := by positivity
    have rsq : (y / ly p x) ^ 2 ≤ (1 / (1 - 0.6 * s)) ^ 2 := pow_le_pow_left₀ r0 r 2
    have key : (1 - s) * ((1 / (1 - 0.6 * s)) ^ 2 - 1) ≤ 1 := by
      have : (1 - s) * ((1 / (1 - 0.6 * s)) ^ 2 - 1) = (1 - s) * (1 - (1 - 0.6 * s) ^ 2) / (1 - 0.6 * s) ^ 2 := by
        have hq : ∀ q : ℝ, q ≠ 0 → (1 - s) * ((1 / q) ^ 2 - 1) = (1 - s) * (1 - q ^ 2) / q ^ 2 := by
          intro q hq; field_simp
        exact hq _ q0.ne'
      rw [this, div_le_one (by positivity)]
      nlinarith [sq_nonneg (s - 0.77), mul_nonneg (mul_nonneg s0 s0) (sub_nonneg.2 s1)]
    have k2 : (1 - s) * ((y / ly p x) ^ 2 - 1) ≤ 1 :=
      (mul_le_mul_of_nonneg_left (by linarith) (by linarith)).trans key
    have eb : p.body_length - (B1 p).x = 1.9 / 3.7 * p.body_length := by
      simp only [B1, A1, L_nom]; field_simp; norm_num
    have k3 : (p.body_length - x) * (0.025 * (1 - (y / ly p x) ^ 2)) ≥ -(0.025 * (p.body_length - (B1 p).x)) := by
      rw [ex]
      have := mul_le_mul_of_nonneg_left k2 hd.le
      nlinarith
    have k4 : 0 ≤ (p.body_length - x) * (0.15 / 3.7) := mul_nonneg (by linarith) (by norm_num)
    rw [eb] at k3
    have k5 : 0.05 * p.body_length / 3.7 = 0.05 / 3.7 * p.body_length := by ring
    rw [k5]
    have : (0.025 * (1.9 / 3.7) : ℝ) ≤ 0.05 / 3.7 := by norm_num
    have := mul_le_mul_of_nonneg_right this hl.le
    linarith

/-- The leading edge along straight lines whose ends move forwards and inwards. -/
theorem edge_mono {es : List (V × V)} (hne : es ≠ []) (hd : ∀ e ∈ es, e.1 ≠ e.2)
    (hj : ∀ i (h : i + 1 < es.length), (es[i]'(by omega)).2 = (es[i + 1]'h).1) (hx : ∀ e ∈ es, e.1.x ≤ e.2.x)
    (hy : ∀ e ∈ es, e.2.y ≤ e.1.y) (hz : ∀ e ∈ es, e.1.z = 0 ∧ e.2.z = 0) {P : PathObj} (hP : Polyline (es.map fun e => Line e.1 e.2) = .ok P)
    {L : ℝ → V} (hL : ∀ t, P.call t = .ok (L t)) :
    L 0 = (es.head hne).1 ∧ L 1 = (es.getLast hne).2 ∧ MonoEdge L ∧ ∀ t ∈ Set.Icc (0 : ℝ) 1, (L t).z = 0 := by
  obtain ⟨P', h1, h2, h3, h4, h5, h6, h7⟩ := lines_edge es hne hd hj
  rw [hP] at h1
  obtain rfl := Except.ok.inj h1
  obtain rfl : L = fnOf P := funext fun t => Except.ok.inj ((hL t).symm.trans (h2 t))
  refine ⟨h3, h4, ⟨h6 hx, h7 hy⟩, fun t ht => ?_⟩
  obtain ⟨e, he, u, hu, hq⟩ := h5 t ht
  rw [hq]
  have := hz e he
  simp [lineAt, this.1, this.2]

theorem leWidth_le {r : ℝ} (h : r ∈ Set.Icc (0 : ℝ) 1) : 0.02 * (1 - r) ^ 2 + 2 * 0.05 * r * (1 - r) + 0.05 * r ^ 2 ≤ 0.05 := by
  nlinarith [h.1, h.2, sq_nonneg (1 - r)]

/-- The body over its planform. -/
theorem body_planform (hp : X43Ok p) {ptan : ℝ → ℝ} (hT : FloatTan ptan) : ∃ a L wd, bodyArgs p = .ok a ∧
    SmoothWing ptan (fun x y => box p x y ∧ y ≤ p.body_width / 2) a L (topH p) (botH p) wd 1e-12 ∧ FlatPlanform a L wd 0.05 ∧ wd 0 = 0.02 ∧ wd 1 = 0.05 ∧
    a.t_B1 = none ∧ (L 0).x ≤ a.A1.x ∧ a.A1.x ≤ (L 1).x ∧ a.A0 = ⟨0, 0, 0⟩ ∧ a.B0 = ⟨0, p.body_width / 2, 0⟩ ∧ a.TT = ⟨p.body_length, 0, 0⟩ ∧
    a.flap_length = 0 := by
  obtain ⟨a, L, ea, sa, tb, tc, y0, y1, yT, l0, l1⟩ := body_smooth hp hT
  unfold bodyArgs at ea
  obtain ⟨P, hP, e⟩ := bind_ok.1 ea
  obtain rfl := pure_ok.1 e
  have h := b1_pos hp
  have hb := b0y_pos hp
  obtain ⟨h3, h4, hm, hz⟩ := edge_mono (es := [(B0 p, B1 p), (B1 p, B2 p), (B2 p, TT p)]) (by simp)
    (by
      intro e he
      simp only [List.mem_cons, List.not_mem_nil, or_false] at he
      rcases he with rfl | rfl | rfl <;> intro hc
      · have := congrArg Vec.x hc; simp only [B0] at this; linarith
      · have := congrArg Vec.x hc; simp only [B2, TT] at this; linarith
      · have := congrArg Vec.y hc; simp only [B2, TT] at this; linarith)
    (by
      intro i hi
      simp only [List.length_cons, List.length_nil] at hi
      obtain rfl | rfl : i = 0 ∨ i = 1 := by omega
      all_goals rfl)
    (by
      intro e he
      simp only [List.mem_cons, List.not_mem_nil, or_false] at he
      rcases he with rfl | rfl | rfl <;> simp only [B0, B1, B2, TT] at * <;> linarith)
    (by
      intro e he
      simp only [List.mem_cons, List.not_mem_nil, or_false] at he
      rcases he with rfl | rfl | rfl <;> simp only [B0, B1, B2, TT] at * <;> linarith)
    (by
      intro e he
      simp only [List.mem_cons, List.not_mem_nil, or_false] at he
      rcases he with rfl | rfl | rfl <;> exact ⟨rfl, rfl⟩)
    hP sa.line
  simp only [List.head_cons, List.getLast_cons, List.getLast_singleton, ne_eq, reduceCtorEq, not_false_eq_true, List.cons_ne_nil] at h3 h4
  refine ⟨_, L, _, by unfold bodyArgs; rw [hP]; rfl, sa.over' (fun x y h => h.1) (sa.over.and (liesOver_low hm rfl rfl (by rw [h4]; exact le_rfl) _ (by rw [h3]; exact le_rfl))),
    ⟨rfl, rfl, hz, fun _ ht => leWidth_le ht⟩, by norm_num, by norm_num, rfl, l0, l1, rfl, rfl, rfl, rfl⟩

/-- A wing over its planform. -/
theorem wing_planform (hp : X43Sized p) {ptan : ℝ → ℝ} (hT : FloatTan ptan) : ∃ a L wd, wingArgs p = .ok a ∧
    SmoothWing ptan (fun x y => ((-1 * x + 0 * y ≤ -(p.flap_length - p.wing_TE_back) ∧ 1 * x + 0 * y ≤ p.wing_length) ∧
        0 * x + -1 * y ≤ -ly p p.wing_length) ∧ 0 * x + 1 * y ≤ p.body_width / 2 + p.wing_span)
      a L (fun x _ => flapH p (-1) x) (fun x _ => flapH p 1 x) wd 1e-12 ∧ FlatPlanform a L wd 0.05 ∧ wd 0 = 0.02 ∧ wd 1 = 0.05 ∧
    a.t_B1 = none ∧ (L 0).x ≤ a.A1.x ∧ a.A1.x ≤ (L 1).x ∧ a.A0 = ⟨p.flap_length, p.body_width / 2, 0⟩ ∧
    a.B0 = ⟨p.flap_length - p.wing_TE_back, p.body_width / 2 + p.wing_span, 0⟩ ∧ a.TT = ⟨p.wing_length, ly p p.wing_length, 0⟩ ∧
    a.flap_length = p.flap_length ∧ a.flap_angle = p.flap_angle := by
  have hp' := hp.toX43Ok
  have hw := hp.wing
  have ho := hp.out
  have hbk := hp.back
  have hf0 := hp.flapPos
  have hf1 := hp.flapShort
  obtain ⟨a, L, ea, sa, tb, tc, l0, l1, -, -⟩ := wing_smooth hp' hT
  unfold wingArgs at ea
  simp only [localY_eq hp', ok_bind] at ea
  obtain ⟨P, hP, e⟩ := bind_ok.1 ea
  obtain rfl := pure_ok.1 e
  have b0y : (B0 p).y = p.body_width / 2 := rfl
  have b0x : (B0 p).x = 0 := rfl
  have yw := ly_le hp' hw.le
  have yw2 := ly_anti hp' (show 0.5 * p.wing_length ≤ p.wing_length by linarith)
  have yw3 := ly_le hp' (show 0 ≤ 0.5 * p.wing_length by linarith)
  have e1 : 0 - p.wing_TE_back + p.flap_length = p.flap_length - p.wing_TE_back := by ring
  simp only [zero_add, b0y, b0x, e1] at hP sa l0 l1 ⊢
  obtain ⟨h3, h4, hm, hz⟩ := edge_mono
    (es := [((⟨p.flap_length - p.wing_TE_back, p.body_width / 2 + p.wing_span, 0⟩ : V), (⟨0.4 * p.wing_length, p.body_width / 2 + 0.75 * p.wing_span, 0⟩ : V)),
      (⟨0.4 * p.wing_length, p.body_width / 2 + 0.75 * p.wing_span, 0⟩, ⟨p.wing_length, ly p p.wing_length, 0⟩)]) (by simp)
    (by
      intro e he
      simp only [List.mem_cons, List.not_mem_nil, or_false] at he
      rcases he with rfl | rfl <;> intro hc
      · have := congrArg Vec.y hc; simp only at this; linarith
      · have := congrArg Vec.x hc; simp only at this; linarith)
    (by
      intro i hi
      simp only [List.length_cons, List.length_nil] at hi
      obtain rfl : i = 0 := by omega
      rfl)
    (by
      intro e he
      simp only [List.mem_cons, List.not_mem_nil, or_false] at he
      rcases he with rfl | rfl <;> simp only <;> linarith)
    (by
      intro e he
      simp only [List.mem_cons, List.not_mem_nil, or_false] at he
      rcases he with rfl | rfl <;> simp only <;> linarith)
    (by
      intro e he
      simp only [List.mem_cons, List.not_mem_nil, or_false] at he
      rcases he with rfl | rfl <;> exact ⟨rfl, rfl⟩)
    hP sa.line
  simp only [List.head_cons, List.getLast_cons, List.getLast_singleton, ne_eq, reduceCtorEq, not_false_eq_true, List.cons_ne_nil] at h3 h4
  have z0 : (0 : ℝ) ∈ Set.Icc (0 : ℝ) 1 := ⟨le_rfl, zero_le_one⟩
  have z1 : (1 : ℝ) ∈ Set.Icc (0 : ℝ) 1 := ⟨zero_le_one, le_rfl⟩
  refine ⟨_, L, _, by unfold wingArgs; simp only [localY_eq hp', ok_bind, zero_add, b0y, b0x, e1]; rw [hP]; rfl,
    sa.over' (fun _ _ _ => trivial) ((((liesOver_half (-1) 0 _ ?_ ?_ ?_ (.inr ?_)).and
      (liesOver_half 1 0 _ ?_ ?_ ?_ (.inl ?_))).and (liesOver_half 0 (-1) _ ?_ ?_ ?_ (.inl ?_))).and (liesOver_half 0 1 _ ?_ ?_ ?_ (.inr ?_))),
    ⟨rfl, rfl, hz, fun _ ht => leWidth_le ht⟩, by norm_num, by norm_num, rfl, l0, l1, by simp, rfl, rfl, rfl, rfl⟩
  · simp only; linarith
  · simp only; linarith
  · intro t ht
    have := hm.fwd 0 z0 t ht ht.1
    rw [h3] at this
    simp only at this
    linarith
  · intro t ht u hu htu
    linarith [hm.fwd t ht u hu htu]
  · simp only; linarith
  · simp only; linarith
  · intro t ht
    have := hm.fwd t ht 1 z1 ht.2
    rw [h4] at this
    simp only at this
    linarith
  · intro t ht u hu htu
    linarith [hm.fwd t ht u hu htu]
  · simp only; linarith
  · simp only; linarith
  · intro t ht
    have := hm.inw t ht 1 z1 ht.2
    rw [h4] at this
    simp only at this
    linarith
  · intro t ht u hu htu
    linarith [hm.inw t ht u hu htu]
  · simp only; linarith
  · simp only; linarith
  · intro t ht
    have := hm.inw 0 z0 t ht ht.1
    rw [h3] at this
    simp only at this
    linarith
  · intro t ht u hu htu
    linarith [hm.inw t ht u hu htu]

/-- The inlet over its planform. -/
theorem inlet_planform (hp : X43Ok p) {ptan : ℝ → ℝ} (hT : FloatTan ptan) : ∃ a L wd, inletArgs p = .ok a ∧
    SmoothWing ptan (fun x y => (box p x y ∧ y ≤ p.body_width / 2) ∧ 1 * x + 0 * y ≤ (iTT p).x) a L (fun x y => botH p x y - 0.05)
      (fun x y => engineH p x + botH p x y - taperH p x y + 0.00001) wd 1e-12 ∧ FlatPlanform a L wd 0.001 ∧ wd 0 = 0.001 ∧ wd 1 = 0.001 ∧
    a.t_B1 = none ∧ (L 0).x ≤ a.A1.x ∧ a.A1.x ≤ (L 1).x ∧ a.A0 = ⟨0, 0, 0⟩ ∧ a.A1 = ⟨(B1 p).x, 0, 0⟩ ∧ a.B0 = ⟨0, p.body_width / 2, 0⟩ ∧
    a.TT = ⟨(iTT p).x, 0, 0⟩ ∧ a.flap_length = 0 := by
  obtain ⟨a, L, ea, sa, tb, tc, y0, y1, yT, l0, l1⟩ := inlet_smooth hp hT
  have h := b1_pos hp
  have hb := b0y_pos hp
  have hi := itt_gt hp
  have hq2 : pdiv (((iTT p).x - (B2 p).x) * ((B2 p).y - (B1 p).y)) ((B2 p).x - (B1 p).x) = .ok (ly p (iTT p).x - (B2 p).y) := by
    have e1 : (B2 p).x = p.body_length := rfl
    rw [pdiv_ok _ _ (by rw [e1]; linarith)]
    unfold ly
    rw [if_neg (by linarith)]
    congr 1; ring
  unfold inletArgs at ea
  rw [hq2, ok_bind] at ea
  simp only [sub_add_cancel] at ea
  obtain ⟨P, hP, e⟩ := bind_ok.1 ea
  obtain rfl := pure_ok.1 e
  have b1y : (B1 p).y = (B0 p).y := rfl
  have b0x : (B0 p).x = 0 := rfl
  have ity : (iTT p).y = 0 := rfl
  have ei : (iTT p).x = (B1 p).x + 0.5 * (p.body_length - (B1 p).x) := by simp only [iTT, TT]; ring
  have el : ly p (iTT p).x = (B0 p).y * 0.7 := by rw [ei, ly_mid hp _ (by norm_num)]; ring
  obtain ⟨h3, h4, hm, hz⟩ := edge_mono (es := [(B0 p, B1 p), (B1 p, (⟨(iTT p).x, ly p (iTT p).x, 0⟩ : V)), (⟨(iTT p).x, ly p (iTT p).x, 0⟩, iTT p)]) (by simp)
    (by
      intro e he
      simp only [List.mem_cons, List.not_mem_nil, or_false] at he
      rcases he with rfl | rfl | rfl <;> intro hc
      · have := congrArg Vec.x hc; simp only [B0] at this; linarith
      · have := congrArg Vec.x hc; simp only at this; linarith
      · have := congrArg Vec.y hc; simp only [el, ity] at this; linarith)
    (by
      intro i hi
      simp only [List.length_cons, List.length_nil] at hi
      obtain rfl | rfl : i = 0 ∨ i = 1 := by omega
      all_goals rfl)
    (by
      intro e he
      simp only [List.mem_cons, List.not_mem_nil, or_false] at he
      rcases he with rfl | rfl | rfl <;> simp only [el, b1y, b0x, ity] <;> linarith)
    (by
      intro e he
      simp only [List.mem_cons, List.not_mem_nil, or_false] at he
      rcases he with rfl | rfl | rfl <;> simp only [el, b1y, b0x, ity] <;> linarith)
    (by
      intro e he
      simp only [List.mem_cons, List.not_mem_nil, or_false] at he
      rcases he with rfl | rfl | rfl <;> exact ⟨rfl, rfl⟩)
    hP sa.line
  simp only [List.head_cons, List.getLast_cons, List.getLast_singleton, ne_eq, reduceCtorEq, not_false_eq_true, List.cons_ne_nil] at h3 h4
  refine ⟨_, L, _, by unfold inletArgs; rw [hq2, ok_bind]; simp only [sub_add_cancel]; rw [hP]; rfl,
    sa.over' (fun x y h => h.1.1) ((sa.over.and (liesOver_low hm rfl rfl (by rw [h4]; exact le_rfl) _ (by rw [h3]; exact le_rfl))).and
      (liesOver_half 1 0 _ ?_ ?_ ?_ (.inl ?_))),
    ⟨rfl, rfl, hz, fun _ _ => le_rfl⟩, rfl, rfl, rfl, l0, l1, rfl, rfl, rfl, rfl, rfl⟩
  · simp only; linarith
  · have : (A1 p).x = (B1 p).x := rfl
    simp only [this]; linarith
  · intro t ht
    have := hm.fwd t ht 1 ⟨zero_le_one, le_rfl⟩ ht.2
    rw [h4] at this
    linarith
  · intro t ht u hu htu
    linarith [hm.fwd t ht u hu htu]

theorem engineH_le (hp : X43Ok p) (he : 0 ≤ p.engine_h) {x : ℝ} (h0 : 0 ≤ x) (h1 : x ≤ (iTT p).x) : 0 ≤ engineH p x ∧ engineH p x ≤ p.engine_h := by
  have h := b1_pos hp
  have hi := itt_gt hp
  have b0x : (B0 p).x = 0 := rfl
  unfold engineH
  rw [b0x, sub_zero, sub_zero]
  split_ifs with k1 k2
  · have hd : 0 < 0.3 * (B1 p).x := by linarith
    rw [div_mul_eq_mul_div]
    exact ⟨by positivity, (div_le_iff₀ hd).2 (mul_le_mul_of_nonneg_left k1.le he)⟩
  · have hd : 0 < (iTT p).x - 0.8 * (B1 p).x := by linarith
    have e : -p.engine_h / ((iTT p).x - 0.8 * (B1 p).x) * (x - (iTT p).x) = p.engine_h * ((iTT p).x - x) / ((iTT p).x - 0.8 * (B1 p).x) := by ring
    rw [e]
    exact ⟨div_nonneg (mul_nonneg he (by linarith)) hd.le, (div_le_iff₀ hd).2 (mul_le_mul_of_nonneg_left (by linarith) he)⟩
  · exact ⟨he, le_rfl⟩

theorem taperH_nonneg (hp : X43Ok p) (he : 0 ≤ p.engine_h) {x y : ℝ} (h0 : 0 ≤ x) (h1 : x ≤ (iTT p).x) : 0 ≤ taperH p x y := by
  have hl := ly_pos hp (h1.trans (itt_gt hp).2.le)
  have hE := (engineH_le hp he h0 h1).1
  unfold taperH
  split_ifs with k
  · refine mul_nonneg ?_ hE
    rw [sub_nonneg, le_div_iff₀ hl]
    linarith
  · exact le_rfl

end X43

namespace Spec

/-- The body of an X-43 has the length and the width given, up to the rounded edge; its underside is a plane with the slope of the body, from which the back
rises to 0.2 times its scale and 0.025 times its length more. -/
structure X43Body (p : X43.Params) (m : TriMesh ℝ) : Prop where
  within : ∀ v, IsVertex v m → -0.05 ≤ v.x ∧ v.x ≤ p.body_length + 0.05 ∧ |v.y| ≤ p.body_width / 2 + 0.05
  under : ∀ v, IsVertex v m → v.z ≤ (v.x - p.body_length) * (Real.tan (p.body_angle * Real.pi / 180) - 0.075 / 3.7) + 0.025 * p.body_length / 3.7 +
    0.05 * |Real.tan (p.body_angle * Real.pi / 180) - 0.075 / 3.7| + 1e-12
  over : ∀ v, IsVertex v m → (v.x - p.body_length) * (Real.tan (p.body_angle * Real.pi / 180) + 0.075 / 3.7 + 0.025) - 0.025 * p.body_length / 3.7 -
    0.05 * |Real.tan (p.body_angle * Real.pi / 180) + 0.075 / 3.7 + 0.025| - 1e-12 ≤ v.z
  keel : IsVertex ⟨0, 0, p.body_length * (0.1 / 3.7 - Real.tan (p.body_angle * Real.pi / 180))⟩ m
  back : IsVertex ⟨0, 0, -p.body_length * (0.1 / 3.7 + 0.025 + Real.tan (p.body_angle * Real.pi / 180))⟩ m
  sides : ∀ s, s = 1 ∨ s = -1 → IsVertex ⟨0, s * (p.body_width / 2 + 0.02), -p.body_length * Real.tan (p.body_angle * Real.pi / 180)⟩ m
  nose : IsVertex ⟨p.body_length + 0.05, 0, 0⟩ m

/-- A wing of an X-43 on the right: it reaches `wing_span` out of the body, from `wing_TE_back` behind its rear (shortened by the turn of the flap) to
`wing_length` in front of it, and lies in the plane of the body. -/
structure X43Wing (p : X43.Params) (m : TriMesh ℝ) : Prop where
  within : ∀ v, IsVertex v m → p.flap_length * (1 - |Real.cos p.flap_angle|) - p.wing_TE_back - 0.05 ≤ v.x ∧ v.x ≤ p.wing_length + 0.05 ∧
    v.y ≤ p.body_width / 2 + p.wing_span + 0.05
  flat : ∀ v, IsVertex v m → |v.z - (v.x - p.body_length) * Real.tan (p.body_angle * Real.pi / 180)| ≤
    max (0.015 * p.body_length / 3.7) |p.flap_length * (Real.sin p.flap_angle + Real.cos p.flap_angle * Real.tan (p.body_angle * Real.pi / 180))| +
      0.05 * |Real.tan (p.body_angle * Real.pi / 180)| + 1e-12
  root : IsVertex ⟨p.flap_length * (1 - Real.cos p.flap_angle), p.body_width / 2,
    (p.flap_length - p.body_length) * Real.tan (p.body_angle * Real.pi / 180) + p.flap_length * Real.sin p.flap_angle⟩ m
  tip : IsVertex ⟨p.flap_length * (1 - Real.cos p.flap_angle) - p.wing_TE_back, p.body_width / 2 + p.wing_span,
    (p.flap_length - p.wing_TE_back - p.body_length) * Real.tan (p.body_angle * Real.pi / 180) + p.flap_length * Real.sin p.flap_angle⟩ m
  side : IsVertex ⟨p.flap_length - p.wing_TE_back, p.body_width / 2 + p.wing_span + 0.02,
    (p.flap_length - p.wing_TE_back - p.body_length) * Real.tan (p.body_angle * Real.pi / 180)⟩ m
  front : ∃ y, 0 < y ∧ y ≤ p.body_width / 2 ∧
    IsVertex ⟨p.wing_length + 0.05, y, (p.wing_length - p.body_length) * Real.tan (p.body_angle * Real.pi / 180)⟩ m

/-- The inlet of an X-43 reaches from the rear to the middle of the tapered part of the body, is as wide as the body and nowhere further than `engine_h` below
its underside. -/
structure X43Inlet (p : X43.Params) (m : TriMesh ℝ) : Prop where
  within : ∀ v, IsVertex v m → -0.001 ≤ v.x ∧ v.x ≤ 2.75 / 3.7 * p.body_length + 0.001 ∧ |v.y| ≤ p.body_width / 2 + 0.001
  under : ∀ v, IsVertex v m → v.z ≤ (v.x - p.body_length) * (Real.tan (p.body_angle * Real.pi / 180) - 0.075 / 3.7) + 0.025 * p.body_length / 3.7 +
    p.engine_h + 0.00001 + 0.001 * |Real.tan (p.body_angle * Real.pi / 180) - 0.075 / 3.7| + 1e-12
  front : ∃ z, IsVertex ⟨2.75 / 3.7 * p.body_length + 0.001, 0, z⟩ m
  sides : ∀ s, s = 1 ∨ s = -1 → ∃ z, IsVertex ⟨0, s * (p.body_width / 2 + 0.001), z⟩ m

/-- Somewhere along its middle the inlet is `engine_h` (and a hundredth of a millimetre) below the underside of the body. -/
def X43Engine (p : X43.Params) (m : TriMesh ℝ) : Prop :=
  ∃ x, 0 < x ∧ x < p.body_length ∧ IsVertex ⟨x, 0, (x - p.body_length) * (Real.tan (p.body_angle * Real.pi / 180) - 0.075 / 3.7) +
    0.025 * p.body_length / 3.7 + p.engine_h + 0.00001⟩ m

/-- A fin of an X-43 on the right (`s = 1`) or on the left (`s = -1`): it stands `fin_height` up at the side of the body and is `fin_length` long at its foot;
the rudder at its rear is turned by its angle. -/
structure X43Fin (p : X43.Params) (s : ℝ) (m : TriMesh ℝ) : Prop where
  within : ∀ v, IsVertex v m → -0.05 ≤ v.x ∧ v.x ≤ p.fin_length + 0.05 ∧
    |v.y - s * (p.body_width / 2)| ≤ max (0.01 * p.body_length / 3.7) |p.rudder_length * Real.sin (p.rudder_angle * Real.pi / 180)| + 1e-12 ∧
    (p.fin_length - p.body_length) * Real.tan (p.body_angle * Real.pi / 180) - p.fin_height - 0.05 ≤ v.z ∧
    v.z ≤ (p.fin_length - p.body_length) * Real.tan (p.body_angle * Real.pi / 180) + 0.05
  rudder : ∀ z ∈ [0, p.fin_height], IsVertex ⟨0, s * (p.body_width / 2) + p.rudder_length * Real.sin (p.rudder_angle * Real.pi / 180),
    (p.fin_length - p.body_length) * Real.tan (p.body_angle * Real.pi / 180) - z⟩ m
  top : IsVertex ⟨p.rudder_length, s * (p.body_width / 2),
    (p.fin_length - p.body_length) * Real.tan (p.body_angle * Real.pi / 180) - p.fin_height - 0.02⟩ m
  front : IsVertex ⟨p.fin_length + 0.05, s * (p.body_width / 2), (p.fin_length - p.body_length) * Real.tan (p.body_angle * Real.pi / 180)⟩ m

end Spec

/-- A plane of slope `k` above the skins and the flap. -/
theorem Spec.WithinWing.slanted {D : ℝ → ℝ → Prop} {a : Wing.Args} {ht hb : ℝ → ℝ → ℝ} {W g : ℝ} {v : V} (h : WithinWing D a ht hb W g v) (k d : ℝ)
    (hq : ∀ q, OnWing D a ht hb q → q.z ≤ k * q.x + d) : v.z ≤ k * v.x + d + |k| * W + g := by
  have := h (-k) 0 1 d |k| (abs_nonneg k) (by simp) (fun q hq' => by linarith [hq q hq'])
  rw [abs_one] at this
  linarith

/-- The same from below. -/
theorem Spec.WithinWing.slanted' {D : ℝ → ℝ → Prop} {a : Wing.Args} {ht hb : ℝ → ℝ → ℝ} {W g : ℝ} {v : V} (h : WithinWing D a ht hb W g v) (k d : ℝ)
    (hq : ∀ q, OnWing D a ht hb q → k * q.x + d ≤ q.z) : k * v.x + d - |k| * W - g ≤ v.z := by
  have := h k 0 (-1) (-d) |k| (abs_nonneg k) (by simp) (fun q hq' => by linarith [hq q hq'])
  rw [abs_neg, abs_one] at this
  linarith

/-- Limits in the directions of `x` and `y`. -/
theorem Spec.WithinWing.beyond {D : ℝ → ℝ → Prop} {a : Wing.Args} {ht hb : ℝ → ℝ → ℝ} {W g : ℝ} {v : V} (h : WithinWing D a ht hb W g v) (α β d : ℝ)
    (hu : α ^ 2 + β ^ 2 = 1) (hq : ∀ q, OnWing D a ht hb q → α * q.x + β * q.y ≤ d) : α * v.x + β * v.y ≤ d + W := by
  have := h α β 0 d 1 zero_le_one (by rw [hu]; norm_num) (fun q hq' => by linarith [hq q hq'])
  rw [abs_zero] at this
  linarith

theorem right_of {m : TriMesh ℝ} {v : V} (hv : IsVertex v m) : IsVertex v (m ++ mapVerts (mirrorV 1) m) := isVertex_two.2 (.inl hv)

theorem left_of {m : TriMesh ℝ} {v : V} (hv : IsVertex v m) : IsVertex ⟨v.x, -v.y, v.z⟩ (m ++ mapVerts (mirrorV 1) m) :=
  isVertex_two.2 (.inr (isVertex_mapVerts.2 ⟨v, hv, by simp [mirrorV]⟩))

/-- What holds for the vertices of a half and does not depend on the side holds for both halves. -/
theorem both_sides {m : TriMesh ℝ} {Q : V → Prop} (h : ∀ v, IsVertex v m → Q v) (hs : ∀ v : V, Q v → Q ⟨v.x, -v.y, v.z⟩) (v : V)
    (hv : IsVertex v (m ++ mapVerts (mirrorV 1) m)) : Q v := by
  rcases isVertex_two.1 hv with hv | hv
  · exact h v hv
  · obtain ⟨u, hu, rfl⟩ := isVertex_mapVerts.1 hv
    have := hs u (h u hu)
    simpa [mirrorV] using this

theorem x43_body_sized {p : X43.Params} (hp : X43Ok p) {a : Wing.Args} {n : ℕ} {m : TriMesh ℝ}
    (h : WingSized (fun x y => X43.box p x y ∧ y ≤ p.body_width / 2) a (X43.topH p) (X43.botH p) 0.02 0.05 0.05 1e-12 n m)
    (eA0 : a.A0 = ⟨0, 0, 0⟩) (eB0 : a.B0 = ⟨0, p.body_width / 2, 0⟩) (eTT : a.TT = ⟨p.body_length, 0, 0⟩) (efl : a.flap_length = 0) :
    X43Body p (m ++ mapVerts (mirrorV 1) m) := by
  have hl := hp.length
  have hw := hp.width
  have hb1 := X43.b1_pos hp
  have eT : Real.tan (p.body_angle * Real.pi / 180) = X43.slope p := rfl
  have ly0 : X43.ly p 0 = p.body_width / 2 := X43.ly_rear hp hb1.1
  -- the skins and the middle between them
  have skin : ∀ q, OnWing (fun x y => X43.box p x y ∧ y ≤ p.body_width / 2) a (X43.topH p) (X43.botH p) q →
      (0 ≤ q.x ∧ q.x ≤ p.body_length ∧ 0 ≤ q.y ∧ q.y ≤ p.body_width / 2) ∧ X43.topH p q.x q.y ≤ q.z ∧ q.z ≤ X43.botH p q.x q.y := by
    rintro q (⟨⟨⟨k1, k2, k3⟩, k4⟩, hz⟩ | rfl | rfl)
    · have := X43.top_above hp k1 k2 k3 k4
      exact ⟨⟨k1, k2, k3, k4⟩, by rcases hz with hz | hz <;> rw [hz] <;> constructor <;> linarith⟩
    · have := X43.top_above hp le_rfl hl.le le_rfl (y := 0) (by linarith)
      simp only [flapEnd, efl, eA0, zero_mul, sub_zero, add_zero]
      exact ⟨⟨le_rfl, hl.le, le_rfl, by linarith⟩, by linarith, by linarith⟩
    · have := X43.top_above hp le_rfl hl.le (y := p.body_width / 2) (by linarith) le_rfl
      simp only [flapEnd, efl, eB0, zero_mul, sub_zero, add_zero]
      exact ⟨⟨le_rfl, hl.le, by linarith, le_rfl⟩, by linarith, by linarith⟩
  have above : ∀ x y, x ≤ p.body_length →
      (X43.slope p + 0.075 / 3.7 + 0.025) * x + (-p.body_length * (X43.slope p + 0.075 / 3.7 + 0.025) - 0.025 * p.body_length / 3.7) ≤ X43.topH p x y := by
    intro x y hx
    rw [X43.topH_eq hp]
    have : 0 ≤ (p.body_length - x) * (y / X43.ly p x) ^ 2 := mul_nonneg (by linarith) (sq_nonneg _)
    linarith
  constructor
  · refine both_sides (Q := fun v => -0.05 ≤ v.x ∧ v.x ≤ p.body_length + 0.05 ∧ |v.y| ≤ p.body_width / 2 + 0.05) (fun v hv => ?_)
      (fun v hv => by simpa using hv)
    have k1 := (h.within v hv).beyond (-1) 0 0 (by norm_num) (fun q hq => by linarith [(skin q hq).1.1])
    have k2 := (h.within v hv).beyond 1 0 p.body_length (by norm_num) (fun q hq => by linarith [(skin q hq).1.2.1])
    have k3 := (h.within v hv).beyond 0 (-1) 0 (by norm_num) (fun q hq => by linarith [(skin q hq).1.2.2.1])
    have k4 := (h.within v hv).beyond 0 1 (p.body_width / 2) (by norm_num) (fun q hq => by linarith [(skin q hq).1.2.2.2])
    refine ⟨by linarith, by linarith, ?_⟩
    rw [abs_le]; constructor <;> linarith
  · rw [eT]
    refine both_sides (Q := fun v => v.z ≤ (v.x - p.body_length) * (X43.slope p - 0.075 / 3.7) + 0.025 * p.body_length / 3.7 +
      0.05 * |X43.slope p - 0.075 / 3.7| + 1e-12) (fun v hv => ?_) (fun v hv => hv)
    have := (h.within v hv).slanted (X43.slope p - 0.075 / 3.7) (-p.body_length * (X43.slope p - 0.075 / 3.7) + 0.025 * p.body_length / 3.7)
      (fun q hq => by
        have := (skin q hq).2.2
        rw [X43.botH_eq hp] at this
        linarith)
    linarith
  · rw [eT]
    refine both_sides (Q := fun v => (v.x - p.body_length) * (X43.slope p + 0.075 / 3.7 + 0.025) - 0.025 * p.body_length / 3.7 -
      0.05 * |X43.slope p + 0.075 / 3.7 + 0.025| - 1e-12 ≤ v.z) (fun v hv => ?_) (fun v hv => hv)
    have := (h.within v hv).slanted' (X43.slope p + 0.075 / 3.7 + 0.025)
      (-p.body_length * (X43.slope p + 0.075 / 3.7 + 0.025) - 0.025 * p.body_length / 3.7)
      (fun q hq => (above q.x q.y (skin q hq).1.2.1).trans (skin q hq).2.1)
    linarith
  · have := (h.skins a.A0 (by simp)).2
    rw [eA0] at this
    rw [eT]
    convert right_of this using 2
    simp only [X43.botH_eq hp]; ring
  · have := (h.skins a.A0 (by simp)).1
    rw [eA0] at this
    rw [eT]
    convert right_of this using 2
    simp only [X43.topH_eq hp, zero_div]; ring
  · have hs := h.side
    rw [eB0] at hs
    have e : (X43.topH p 0 (p.body_width / 2) + X43.botH p 0 (p.body_width / 2)) / 2 = -p.body_length * X43.slope p := by
      rw [X43.topH_eq hp, X43.botH_eq hp, ly0, div_self (by linarith)]; ring
    simp only [e] at hs
    rw [eT]
    rintro s (rfl | rfl)
    · simpa using right_of hs
    · simpa using left_of hs
  · have hs := h.front
    rw [eTT] at hs
    have e : (X43.topH p p.body_length 0 + X43.botH p p.body_length 0) / 2 = 0 := by
      rw [X43.topH_eq hp, X43.botH_eq hp]; ring
    simp only [e] at hs
    exact right_of hs

theorem x43_wing_sized {p : X43.Params} (hp : X43Sized p) {a : Wing.Args} {n : ℕ} {m : TriMesh ℝ}
    (h : WingSized (fun x y => ((-1 * x + 0 * y ≤ -(p.flap_length - p.wing_TE_back) ∧ 1 * x + 0 * y ≤ p.wing_length) ∧
        0 * x + -1 * y ≤ -X43.ly p p.wing_length) ∧ 0 * x + 1 * y ≤ p.body_width / 2 + p.wing_span) a (fun x _ => X43.flapH p (-1) x)
        (fun x _ => X43.flapH p 1 x) 0.02 0.05 0.05 1e-12 n m)
    (eA0 : a.A0 = ⟨p.flap_length, p.body_width / 2, 0⟩) (eB0 : a.B0 = ⟨p.flap_length - p.wing_TE_back, p.body_width / 2 + p.wing_span, 0⟩)
    (eTT : a.TT = ⟨p.wing_length, X43.ly p p.wing_length, 0⟩) (efl : a.flap_length = p.flap_length) (efa : a.flap_angle = p.flap_angle) :
    X43Wing p m := by
  have hp' := hp.toX43Ok
  have hl := hp.length
  have hw := hp.width
  have hwl := hp.wing
  have ho := hp.out
  have hbk := hp.back
  have hf0 := hp.flapPos
  have hf1 := hp.flapShort
  have eT : Real.tan (p.body_angle * Real.pi / 180) = X43.slope p := rfl
  have hH : ∀ s x, X43.flapH p s x = s * (0.015 * p.body_length / 3.7) + (x - p.body_length) * X43.slope p := by
    intro s x
    simp only [X43.flapH, X43.slope_eq, X43.flap_thickness, X43.L_nom]; ring
  have hmid : ∀ x, (X43.flapH p (-1) x + X43.flapH p 1 x) / 2 = (x - p.body_length) * X43.slope p := by
    intro x; rw [hH, hH]; ring
  have tA : flapEnd a (fun x _ => X43.flapH p (-1) x) (fun x _ => X43.flapH p 1 x) a.A0 = ⟨p.flap_length * (1 - Real.cos p.flap_angle), p.body_width / 2,
      (p.flap_length - p.body_length) * X43.slope p + p.flap_length * Real.sin p.flap_angle⟩ := by
    simp only [flapEnd, efl, efa, eA0, hmid]
    ext <;> simp only; ring
  have tB : flapEnd a (fun x _ => X43.flapH p (-1) x) (fun x _ => X43.flapH p 1 x) a.B0 = ⟨p.flap_length * (1 - Real.cos p.flap_angle) - p.wing_TE_back,
      p.body_width / 2 + p.wing_span,
      (p.flap_length - p.wing_TE_back - p.body_length) * X43.slope p + p.flap_length * Real.sin p.flap_angle⟩ := by
    simp only [flapEnd, efl, efa, eB0, hmid]
    ext <;> simp only; ring
  have c0 : p.flap_length * (1 - |Real.cos p.flap_angle|) ≤ p.flap_length * (1 - Real.cos p.flap_angle) :=
    mul_le_mul_of_nonneg_left (by linarith [le_abs_self (Real.cos p.flap_angle)]) hf0
  have c1 : 0 ≤ p.flap_length * |Real.cos p.flap_angle| := by positivity
  have c2 : p.flap_length * (1 - Real.cos p.flap_angle) ≤ p.flap_length * 2 :=
    mul_le_mul_of_nonneg_left (by linarith [Real.neg_one_le_cos p.flap_angle]) hf0
  have th0 : 0 < 0.015 * p.body_length / 3.7 := by positivity
  have Z : ∀ q, OnWing (fun x y => ((-1 * x + 0 * y ≤ -(p.flap_length - p.wing_TE_back) ∧ 1 * x + 0 * y ≤ p.wing_length) ∧
        0 * x + -1 * y ≤ -X43.ly p p.wing_length) ∧ 0 * x + 1 * y ≤ p.body_width / 2 + p.wing_span) a (fun x _ => X43.flapH p (-1) x)
        (fun x _ => X43.flapH p 1 x) q → |q.z - (q.x - p.body_length) * X43.slope p| ≤
        max (0.015 * p.body_length / 3.7) |p.flap_length * (Real.sin p.flap_angle + Real.cos p.flap_angle * X43.slope p)| := by
    have tip : ∀ x, x + p.flap_length * Real.sin p.flap_angle - x + p.flap_length * Real.cos p.flap_angle * X43.slope p =
        p.flap_length * (Real.sin p.flap_angle + Real.cos p.flap_angle * X43.slope p) := by intro x; ring
    rintro q (⟨-, hz⟩ | rfl | rfl)
    · refine le_max_of_le_left ?_
      simp only [hH] at hz
      rcases hz with hz | hz <;> rw [hz, abs_le] <;> constructor <;> linarith
    · refine le_max_of_le_right (le_of_eq ?_)
      rw [tA]; congr 1; simp only; ring
    · refine le_max_of_le_right (le_of_eq ?_)
      rw [tB]; congr 1; simp only; ring
  constructor
  · intro v hv
    have k1 := (h.within v hv).beyond (-1) 0 (-(p.flap_length * (1 - |Real.cos p.flap_angle|) - p.wing_TE_back)) (by norm_num) (by
      rintro q (⟨⟨⟨⟨k1, k2⟩, k3⟩, k4⟩, hz⟩ | rfl | rfl)
      · linarith
      · rw [tA]; simp only; linarith
      · rw [tB]; simp only; linarith)
    have k2 := (h.within v hv).beyond 1 0 p.wing_length (by norm_num) (by
      rintro q (⟨⟨⟨⟨k1, k2⟩, k3⟩, k4⟩, hz⟩ | rfl | rfl)
      · linarith
      · rw [tA]; simp only; linarith
      · rw [tB]; simp only; linarith)
    have k3 := (h.within v hv).beyond 0 1 (p.body_width / 2 + p.wing_span) (by norm_num) (by
      rintro q (⟨⟨⟨⟨k1, k2⟩, k3⟩, k4⟩, hz⟩ | rfl | rfl)
      · linarith
      · rw [tA]; simp only; linarith
      · rw [tB]; simp only; linarith)
    exact ⟨by linarith, by linarith, by linarith⟩
  · intro v hv
    rw [eT]
    have k1 := (h.within v hv).slanted (X43.slope p) (-p.body_length * X43.slope p +
        max (0.015 * p.body_length / 3.7) |p.flap_length * (Real.sin p.flap_angle + Real.cos p.flap_angle * X43.slope p)|)
      (fun q hq => by linarith [(abs_le.1 (Z q hq)).2])
    have k2 := (h.within v hv).slanted' (X43.slope p) (-p.body_length * X43.slope p -
        max (0.015 * p.body_length / 3.7) |p.flap_length * (Real.sin p.flap_angle + Real.cos p.flap_angle * X43.slope p)|)
      (fun q hq => by linarith [(abs_le.1 (Z q hq)).1])
    rw [abs_le]
    constructor <;> linarith
  · rw [eT, ← tA]; exact h.flap _ (by simp)
  · rw [eT, ← tB]; exact h.flap _ (by simp)
  · have := h.side
    rw [eB0] at this
    simp only [hmid] at this
    exact this
  · have := h.front
    rw [eTT] at this
    simp only [hmid] at this
    exact ⟨_, X43.ly_pos hp' hp.wingShort, X43.ly_le hp' hwl.le, this⟩

theorem x43_inlet_sized {p : X43.Params} (hp : X43Sized p) {a : Wing.Args} {n : ℕ} {m : TriMesh ℝ}
    (h : WingSized (fun x y => (X43.box p x y ∧ y ≤ p.body_width / 2) ∧ 1 * x + 0 * y ≤ (X43.iTT p).x) a (fun x y => X43.botH p x y - 0.05)
      (fun x y => X43.engineH p x + X43.botH p x y - X43.taperH p x y + 0.00001) 0.001 0.001 0.001 1e-12 n m)
    (eA0 : a.A0 = ⟨0, 0, 0⟩) (eA1 : a.A1 = ⟨(X43.B1 p).x, 0, 0⟩) (eB0 : a.B0 = ⟨0, p.body_width / 2, 0⟩) (eTT : a.TT = ⟨(X43.iTT p).x, 0, 0⟩)
    (efl : a.flap_length = 0) :
    X43Inlet p (m ++ mapVerts (mirrorV 1) m) ∧ (2 ≤ n → X43Engine p (m ++ mapVerts (mirrorV 1) m)) := by
  have hp' := hp.toX43Ok
  have hl := hp.length
  have hw := hp.width
  have he := hp.engine
  have hb1 := X43.b1_pos hp'
  have hi := X43.itt_gt hp'
  have eT : Real.tan (p.body_angle * Real.pi / 180) = X43.slope p := rfl
  have eI : (X43.iTT p).x = 2.75 / 3.7 * p.body_length := by
    simp only [X43.iTT, X43.TT, X43.B1, X43.A1, X43.L_nom]; ring
  have skin : ∀ q, OnWing (fun x y => (X43.box p x y ∧ y ≤ p.body_width / 2) ∧ 1 * x + 0 * y ≤ (X43.iTT p).x) a (fun x y => X43.botH p x y - 0.05)
      (fun x y => X43.engineH p x + X43.botH p x y - X43.taperH p x y + 0.00001) q →
      (0 ≤ q.x ∧ q.x ≤ (X43.iTT p).x ∧ 0 ≤ q.y ∧ q.y ≤ p.body_width / 2) ∧ q.z ≤ X43.botH p q.x q.y + p.engine_h + 0.00001 := by
    have low : ∀ x y, 0 ≤ x → x ≤ (X43.iTT p).x → X43.engineH p x + X43.botH p x y - X43.taperH p x y + 0.00001 ≤ X43.botH p x y + p.engine_h + 0.00001 := by
      intro x y h0 h1
      linarith [(X43.engineH_le hp' he h0 h1).2, X43.taperH_nonneg hp' he (y := y) h0 h1]
    have h0i : 0 ≤ (X43.iTT p).x := by linarith
    rintro q (⟨⟨⟨⟨k1, k2, k3⟩, k4⟩, k5⟩, hz⟩ | rfl | rfl)
    · have k5' : q.x ≤ (X43.iTT p).x := by linarith
      refine ⟨⟨k1, k5', k3, k4⟩, ?_⟩
      rcases hz with hz | hz <;> rw [hz]
      · linarith
      · exact low _ _ k1 k5'
    · have := low 0 0 le_rfl h0i
      simp only [flapEnd, efl, eA0, zero_mul, sub_zero, add_zero]
      exact ⟨⟨le_rfl, h0i, le_rfl, by linarith⟩, by linarith⟩
    · have := low 0 (p.body_width / 2) le_rfl h0i
      simp only [flapEnd, efl, eB0, zero_mul, sub_zero, add_zero]
      exact ⟨⟨le_rfl, h0i, by linarith, le_rfl⟩, by linarith⟩
  refine ⟨⟨?_, ?_, ?_, ?_⟩, fun hn => ?_⟩
  · refine both_sides (Q := fun v => -0.001 ≤ v.x ∧ v.x ≤ 2.75 / 3.7 * p.body_length + 0.001 ∧ |v.y| ≤ p.body_width / 2 + 0.001) (fun v hv => ?_)
      (fun v hv => by simpa using hv)
    have k1 := (h.within v hv).beyond (-1) 0 0 (by norm_num) (fun q hq => by linarith [(skin q hq).1.1])
    have k2 := (h.within v hv).beyond 1 0 (X43.iTT p).x (by norm_num) (fun q hq => by linarith [(skin q hq).1.2.1])
    have k3 := (h.within v hv).beyond 0 (-1) 0 (by norm_num) (fun q hq => by linarith [(skin q hq).1.2.2.1])
    have k4 := (h.within v hv).beyond 0 1 (p.body_width / 2) (by norm_num) (fun q hq => by linarith [(skin q hq).1.2.2.2])
    rw [eI] at k2
    refine ⟨by linarith, by linarith, ?_⟩
    rw [abs_le]; constructor <;> linarith
  · rw [eT]
    refine both_sides (Q := fun v => v.z ≤ (v.x - p.body_length) * (X43.slope p - 0.075 / 3.7) + 0.025 * p.body_length / 3.7 +
      p.engine_h + 0.00001 + 0.001 * |X43.slope p - 0.075 / 3.7| + 1e-12) (fun v hv => ?_) (fun v hv => hv)
    have := (h.within v hv).slanted (X43.slope p - 0.075 / 3.7)
      (-p.body_length * (X43.slope p - 0.075 / 3.7) + 0.025 * p.body_length / 3.7 + p.engine_h + 0.00001)
      (fun q hq => by
        have := (skin q hq).2
        rw [X43.botH_eq hp'] at this
        linarith)
    linarith
  · have := h.front
    rw [eTT, eI] at this
    exact ⟨_, right_of this⟩
  · have hs := h.side
    rw [eB0] at hs
    rintro s (rfl | rfl)
    · exact ⟨_, by simpa using right_of hs⟩
    · exact ⟨_, by simpa using left_of hs⟩
  · obtain ⟨i, i1, i2⟩ : ∃ i : ℕ, 0.3 * (n : ℝ) ≤ i ∧ (i : ℝ) ≤ 0.8 * n := by
      refine ⟨⌊0.8 * (n : ℝ)⌋₊, ?_, Nat.floor_le (by positivity)⟩
      have := Nat.lt_floor_add_one (0.8 * (n : ℝ))
      have : (2 : ℝ) ≤ n := by exact_mod_cast hn
      linarith
    have n0 : (0 : ℝ) < n := by exact_mod_cast (by omega : 0 < n)
    have hin : i ≤ n := by
      have : (i : ℝ) ≤ n := by linarith
      exact_mod_cast this
    have j1 : 0.3 ≤ (i : ℝ) / n := by rw [le_div_iff₀ n0]; exact i1
    have j2 : (i : ℝ) / n ≤ 0.8 := by rw [div_le_iff₀ n0]; exact i2
    have hv := (h.root i hin ((i : ℝ) / n * (X43.B1 p).x) 0 (by rw [eA0, eA1]; simp) (by rw [eA0, eA1]; simp)).2
    generalize (i : ℝ) / n = r at *
    have b0x : (X43.B0 p).x = 0 := rfl
    have e1 : X43.engineH p (r * (X43.B1 p).x) = p.engine_h := by
      unfold X43.engineH
      rw [b0x, if_neg (by nlinarith), if_neg (by nlinarith)]
    have e2 : X43.taperH p (r * (X43.B1 p).x) 0 = 0 := by
      unfold X43.taperH
      have := X43.ly_pos hp' (x := r * (X43.B1 p).x) (by nlinarith)
      rw [if_neg (by linarith)]
    simp only [e1, e2, X43.botH_eq hp'] at hv
    refine ⟨r * (X43.B1 p).x, by nlinarith, by nlinarith, ?_⟩
    rw [eT]
    convert right_of hv using 2
    ring

theorem x43_fin_sized {p : X43.Params} (hp : X43Sized p) {ptan : ℝ → ℝ} (hT : FloatTan ptan) (s : ℝ) (n : ℕ) (hn : 1 ≤ n) (name : Option String)
    (H : Heap) (k : ℕ) (hk : H k = Fin.comp (rounded bisect01) ptan (X43.finArgs p s) n name) :
    ∃ g c, generatePatches H k = (.ok (), g) ∧ pipeline 0 (g k) = (.ok (), c) ∧ ∃ M c', c.mesh = (.ok M, c') ∧ X43Fin p s M.tris := by
  have hp' := hp.toX43Ok
  have hf := hp.fin
  have hr := hp.rudder
  have hr0 := hp.rudderPos
  have hh := hp.height
  have hl := hp.length
  have hs := hp.short
  obtain ⟨hu, hb⟩ := X43.fin_uniform hp' hT s
  obtain ⟨h', M, c', g1, g2, g3, g4, g5, g6, g7⟩ := C139_fin (rounded bisect01) ptan (X43.finArgs p s) 0.02 0.05 6e-7 _ roundedBisect_finds hu
    ⟨rfl, rfl, rfl, rfl, fun t ht w e => by
      have := (X43.leWidth_eq t).symm.trans e
      rw [← Except.ok.inj this]
      exact X43.leWidth_le ht⟩
    (by simp only [X43.finArgs]; nlinarith) n hn name H k hk
  obtain ⟨P, R, S, hopt⟩ := generatePatches_opts H k (by rw [hk]; simp [Comp.children, Fin.comp])
  rw [g1, hk] at hopt
  simp only at hopt
  have eT : Real.tan (p.body_angle * Real.pi / 180) = X43.slope p := rfl
  have eR : deg2rad p.rudder_angle = p.rudder_angle * Real.pi / 180 := by unfold deg2rad; ring
  have eth : (X43.finArgs p s).fin_thickness / 2 = 0.01 * p.body_length / 3.7 := by
    simp only [X43.finArgs, X43.fin_thickness, X43.L_nom]; ring
  have hth : 0.01 * p.body_length / 3.7 ≤ 100 := by rw [div_le_iff₀ (by norm_num)]; linarith
  have hth0 : 0 < 0.01 * p.body_length / 3.7 := by positivity
  have hgap : poleGap ptan ((X43.finArgs p s).fin_thickness / 2) 0.02 ≤ 1e-12 := by
    rw [eth]
    exact hT.gap _ _ (by linarith) hth (by norm_num)
  have hhalf : finHalfHeight (X43.finArgs p s) = max (0.01 * p.body_length / 3.7) |p.rudder_length * Real.sin (p.rudder_angle * Real.pi / 180)| := by
    unfold finHalfHeight
    rw [if_pos (show (X43.finArgs p s).rudder_type = "sharp" from rfl), eth, ← eR]
    rfl
  have hmove : ∀ u : V, finMove (X43.finArgs p s) ⟨0, s * (X43.B0 p).y, 0⟩ u = ⟨u.x, s * (p.body_width / 2) + u.z, -u.y⟩ := by
    intro u
    rw [finMove_plain _ _ _ rfl]
    have : (X43.finArgs p s).fin_angle = deg2rad (-90) := rfl
    rw [this, rot_down]
    ext <;> simp [X43.B0]
    ring
  have ep0 : (X43.finArgs p s).p0 = ⟨p.rudder_length, -(p.fin_length - p.body_length) * X43.slope p, 0⟩ := by simp only [X43.finArgs, X43.slope_eq]
  have ep1 : (X43.finArgs p s).p1 = ⟨p.rudder_length, -(p.fin_length - p.body_length) * X43.slope p + p.fin_height, 0⟩ := by
    simp only [X43.finArgs, X43.slope_eq]
  have ep2 : (X43.finArgs p s).p2 = ⟨0.5 * p.fin_length, -(p.fin_length - p.body_length) * X43.slope p + p.fin_height, 0⟩ := by
    simp only [X43.finArgs, X43.slope_eq]
  have ep3 : (X43.finArgs p s).p3 = ⟨p.fin_length, -(p.fin_length - p.body_length) * X43.slope p, 0⟩ := by simp only [X43.finArgs, X43.slope_eq]
  refine ⟨h', h' k, g1, pipeline_plain _ (by rw [hopt]; rfl) (by rw [hopt]; rfl) (by rw [hopt]; rfl) (by rw [hopt]; rfl), M, c', g2, ?_⟩
  constructor
  · intro v hv
    obtain ⟨u, rfl, hu⟩ := g3 v hv
    obtain ⟨b1, b2, b3, b4, b5⟩ := within_box hu (x0 := 0) (x1 := p.fin_length) (y0 := -(p.fin_length - p.body_length) * X43.slope p)
      (y1 := -(p.fin_length - p.body_length) * X43.slope p + p.fin_height) (by
        intro q hq
        have esharp : (X43.finArgs p s).rudder_type = "sharp" := rfl
        have el : (X43.finArgs p s).rudder_length = p.rudder_length := rfl
        simp only [finCorners, ep0, ep1, ep2, ep3, esharp, el, if_true, List.cons_append, List.nil_append, List.mem_cons, List.not_mem_nil, or_false] at hq
        rcases hq with rfl | rfl | rfl | rfl | rfl | rfl <;> refine ⟨?_, ?_, ?_, ?_⟩ <;> simp only <;> linarith)
    rw [hmove]
    rw [hhalf] at b5
    simp only
    rw [eT, add_sub_cancel_left]
    exact ⟨by linarith, b2, by linarith, by linarith, by linarith⟩
  · intro z hz
    have k := g5 rfl
    rw [ep0, ep1] at k
    have el : (X43.finArgs p s).rudder_length = p.rudder_length := rfl
    have ea : (X43.finArgs p s).rudder_angle = p.rudder_angle * Real.pi / 180 := by rw [← eR]; rfl
    rw [el, ea] at k
    rw [eT]
    simp only [List.mem_cons, List.not_mem_nil, or_false] at hz
    rcases hz with rfl | rfl
    · have := k _ List.mem_cons_self
      rw [hmove] at this
      convert this using 2 <;> simp only <;> ring
    · have := k _ (List.mem_cons_of_mem _ List.mem_cons_self)
      rw [hmove] at this
      convert this using 2 <;> simp only <;> ring
  · have := g6 0.02 (by
      show X43.leWidth 0 = _
      rw [X43.leWidth_eq]; norm_num)
    rw [hmove, ep1] at this
    rw [eT]
    convert this using 2 <;> simp <;> ring
  · have := g7 0.05 (by
      show X43.leWidth 1 = _
      rw [X43.leWidth_eq]; norm_num)
    rw [hmove, ep3] at this
    rw [eT]
    convert this using 2 <;> simp <;> ring

/-- C147: for every sensible X-43 at every mesh resolution, the body has the length and the width given, the wings reach `wing_span` out of it, from
`wing_TE_back` behind its rear to `wing_length` in front of it, the inlet reaches at most `engine_h` below the underside (and does so if its resolution is two or
more), and the fins are `fin_length` long and `fin_height` high, up to the widths of the rounded edges. -/
theorem C147_x43 (ptan : ℝ → ℝ) (hT : FloatTan ptan) (h : Heap) (ids : ℕ → ℕ) (hi : Function.Injective ids) (kwargs : Dict String ℝ)
    (p : X43.Params) (ha : X43Args kwargs p) (hp : X43Sized p) :
    ∃ st, X43.instanceOf bisect01 ptan h ids kwargs = .ok st ∧ st.veh.components = [ids 0, ids 1, ids 2, ids 3, ids 4, ids 5] ∧
      (st.heap (ids 3)).stl_resolution = .int 4 ∧
      ∀ st0 lib depth, Rescaled st st0 → ∃ st', generate lib depth st0 = (.ok (), st') ∧
        (∃ M c', (st'.heap (ids 0)).mesh = (.ok M, c') ∧ X43Body p M.tris) ∧
        (∃ M c', (st'.heap (ids 1)).mesh = (.ok M, c') ∧ X43Wing p M.tris) ∧
        (∃ M c' m, (st'.heap (ids 2)).mesh = (.ok M, c') ∧ X43Wing p m ∧ M.tris = m ++ mapVerts (mirrorV 1) m) ∧
        (∃ M c', (st'.heap (ids 3)).mesh = (.ok M, c') ∧ X43Inlet p M.tris ∧
          ∀ n : ℕ, 2 ≤ n → (st0.heap (ids 3)).stl_resolution = .int n → X43Engine p M.tris) ∧
        (∃ M c', (st'.heap (ids 4)).mesh = (.ok M, c') ∧ X43Fin p 1 M.tris) ∧
        (∃ M c', (st'.heap (ids 5)).mesh = (.ok M, c') ∧ X43Fin p (-1) M.tris) := by
  have hp' := hp.toX43Ok
  obtain ⟨a1, L1, wd1, e1, s1, u1, v10, v11, t1, k1, k1', A10, B10, T10, F1⟩ := X43.body_planform hp' hT
  obtain ⟨a2, L2, wd2, e2, s2, u2, v20, v21, t2, k2, k2', A20, B20, T20, F2, G2⟩ := X43.wing_planform hp hT
  obtain ⟨a3, L3, wd3, e3, s3, u3, v30, v31, t3, k3, k3', A30, A31, B30, T30, F3⟩ := X43.inlet_planform hp' hT
  obtain ⟨w1, i1, m1⟩ := wing_break a1 t1 L1 s1.line k1 k1'
  obtain ⟨w2, i2, m2⟩ := wing_break a2 t2 L2 s2.line k2 k2'
  obtain ⟨w3, i3, m3⟩ := wing_break a3 t3 L3 s3.line k3 k3'
  obtain ⟨st, b1, b2, f0, f1, f2, f3, f4, f5⟩ := x43_instance ptan h ids hi kwargs p ha a1 a2 a3 w1 w2 w3 e1 e2 e3 i1 i2 i3
  refine ⟨st, b1, by rw [b2]; rfl, by rw [f3]; rfl, fun st0 lib depth hr => ?_⟩
  obtain ⟨n0, q0, r0⟩ := hr.wing (by norm_num) f0
  obtain ⟨n1, q1, r1⟩ := hr.wing (by norm_num) f1
  obtain ⟨n2, q2, r2⟩ := hr.wing (by norm_num) f2
  obtain ⟨n3, q3, r3⟩ := hr.wing (by norm_num) f3
  have hfin : ∀ k a nm, st.heap k = Fin.comp (rounded bisect01) ptan a 2 nm → ∃ n : ℕ, 1 ≤ n ∧
      st0.heap k = Fin.comp (rounded bisect01) ptan a n nm := by
    intro k a nm hk
    rcases hr.2 k with h | ⟨m, hm, h⟩
    · exact ⟨2, by norm_num, h.trans hk⟩
    · exact ⟨m, hm, by rw [h, hk]; rfl⟩
  obtain ⟨n4, q4, r4⟩ := hfin _ _ _ f4
  obtain ⟨n5, q5, r5⟩ := hfin _ _ _ f5
  have hv : st0.veh = x43Veh ids := hr.1.trans b2
  have hcs : st0.veh.components = [ids 0, ids 1, ids 2, ids 3, ids 4, ids 5] := by rw [hv]; rfl
  obtain ⟨g0, d0, g01, g02, M0, c0', z0, g03, g04, g05⟩ := reflected_sized i1 s1 u1 m1 n0 q0 st0.heap (ids 0) _ r0
  obtain ⟨g1, d1, g11, g12, M1, c1', g13, g14⟩ := plain_sized i2 s2 u2 m2 n1 q1 st0.heap (ids 1) _ r1
  obtain ⟨g2, d2, g21, g22, M2, c2', z2, g23, g24, g25⟩ := reflected_sized i2 s2 u2 m2 n2 q2 st0.heap (ids 2) _ r2
  obtain ⟨g3, d3, g31, g32, M3, c3', z3, g33, g34, g35⟩ := reflected_sized i3 s3 u3 m3 n3 q3 st0.heap (ids 3) _ r3
  obtain ⟨g4, d4, g41, g42, M4, c4', g43, g44⟩ := x43_fin_sized hp hT 1 n4 q4 _ st0.heap (ids 4) r4
  obtain ⟨g5, d5, g51, g52, M5, c5', g53, g54⟩ := x43_fin_sized hp hT (-1) n5 q5 _ st0.heap (ids 5) r5
  obtain ⟨st', h1, h2, h3⟩ := generate_each lib depth st0 (by rw [hv]; rfl) (by rw [hv]; rfl) (by rw [hv]; rfl)
    (by rw [hcs]; simp [hi.eq_iff])
    (by
      intro k hk
      rw [hcs] at hk
      simp only [List.mem_cons, List.not_mem_nil, or_false] at hk
      rcases hk with rfl | rfl | rfl | rfl | rfl | rfl
      · rw [r0]; rfl
      · rw [r1]; rfl
      · rw [r2]; rfl
      · rw [r3]; rfl
      · rw [r4]; rfl
      · rw [r5]; rfl)
    (fun k c => (k = ids 0 → c = d0) ∧ (k = ids 1 → c = d1) ∧ (k = ids 2 → c = d2) ∧ (k = ids 3 → c = d3) ∧ (k = ids 4 → c = d4) ∧
      (k = ids 5 → c = d5))
    (by
      intro k hk
      rw [hcs] at hk
      simp only [List.mem_cons, List.not_mem_nil, or_false] at hk
      rcases hk with rfl | rfl | rfl | rfl | rfl | rfl
      · exact ⟨g0, d0, g01, g02, by simp [hi.eq_iff]⟩
      · exact ⟨g1, d1, g11, g12, by simp [hi.eq_iff]⟩
      · exact ⟨g2, d2, g21, g22, by simp [hi.eq_iff]⟩
      · exact ⟨g3, d3, g31, g32, by simp [hi.eq_iff]⟩
      · exact ⟨g4, d4, g41, g42, by simp [hi.eq_iff]⟩
      · exact ⟨g5, d5, g51, g52, by simp [hi.eq_iff]⟩)
  rw [hcs] at h3
  rw [v10, v11] at g04
  rw [v20, v21] at g14 g24
  rw [v30, v31] at g34
  have hin := x43_inlet_sized hp g34 A30 A31 B30 T30 F3
  refine ⟨st', h1, ?_, ?_, ?_, ?_, ?_, ?_⟩
  · rw [(h3 (ids 0) (by simp)).1 rfl]; exact ⟨M0, c0', g03, by rw [g05]; exact x43_body_sized hp' g04 A10 B10 T10 F1⟩
  · rw [(h3 (ids 1) (by simp)).2.1 rfl]; exact ⟨M1, c1', g13, x43_wing_sized hp g14 A20 B20 T20 F2 G2⟩
  · rw [(h3 (ids 2) (by simp)).2.2.1 rfl]; exact ⟨M2, c2', z2, g23, x43_wing_sized hp g24 A20 B20 T20 F2 G2, g25⟩
  · rw [(h3 (ids 3) (by simp)).2.2.2.1 rfl]
    refine ⟨M3, c3', g33, by rw [g35]; exact hin.1, fun n hn hres => ?_⟩
    rw [r3] at hres
    have e : n3 = n := by simpa [wingOf, Wing.comp] using hres
    rw [g35]
    exact hin.2 (by omega)
  · rw [(h3 (ids 4) (by simp)).2.2.2.2.1 rfl]; exact ⟨M4, c4', g43, g44⟩
  · rw [(h3 (ids 5) (by simp)).2.2.2.2.2 rfl]; exact ⟨M5, c5', g53, g54⟩

/-- The default X-43. -/
example (h : Heap) (lib : Lib) (depth : ℕ) : ∃ st st' M c' M' c'', X43.instanceOf bisect01 ieeeTan h id [] = .ok st ∧
    generate lib depth st = (.ok (), st') ∧ (st'.heap 0).mesh = (.ok M, c') ∧ (∀ v, IsVertex v M.tris → v.x ≤ 3.75 ∧ |v.y| ≤ 0.55) ∧
    IsVertex ⟨3.75, 0, 0⟩ M.tris ∧ (st'.heap 3).mesh = (.ok M', c'') ∧ X43Engine x43Default M'.tris := by
  have hp : X43Sized x43Default := ⟨x43Default_ok.2, by norm_num [x43Default], by norm_num [x43Default], by norm_num [x43Default],
    by norm_num [x43Default], by norm_num [x43Default], by norm_num [x43Default], by norm_num [x43Default], by norm_num [x43Default]⟩
  obtain ⟨st, e1, -, e0, e2⟩ := C147_x43 ieeeTan ieeeTan_float h id Function.injective_id [] _ x43Default_ok.1 hp
  obtain ⟨st', e3, ⟨M, c', e4, e5⟩, -, -, ⟨M', c'', e6, -, e7⟩, -⟩ := e2 st lib depth ⟨rfl, fun k => .inl rfl⟩
  refine ⟨st, st', M, c', M', c'', e1, e3, e4, fun v hv => ?_, ?_, e6, e7 4 (by norm_num) e0⟩
  · have := e5.within v hv
    norm_num [x43Default] at this ⊢
    exact ⟨this.2.1, this.2.2⟩
  · have := e5.nose
    norm_num [x43Default] at this
    norm_num
    exact this

end HV
