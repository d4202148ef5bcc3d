import Verif.Lemmas.Planform

/-!
# The X-43 generator (C107, C108, C109)
-/

namespace HV
open Spec Veh

theorem pdiv_ok (a b : ℝ) (h : b ≠ 0) : pdiv a b = .ok (a / b) := by unfold pdiv; rw [if_neg h]

namespace Spec

/-- Dimensions for which the parts of the X-43 exist: positive lengths, a body of at most a kilometre, flaps that start behind the middle
of the wing and rudders that start behind the middle of the fin. -/
structure X43Ok (p : X43.Params) : Prop where
  length : 0 < p.body_length
  short : p.body_length ≤ 1000
  width : 0 < p.body_width
  span : p.wing_span ≠ 0
  wing : 0 < p.wing_length
  flap : p.flap_length - p.wing_TE_back ≤ 0.5 * p.wing_length
  fin : 0 < p.fin_length
  rudder : p.rudder_length < 0.5 * p.fin_length

end Spec

namespace X43
variable {p : Params}

/-- The half width of the body at station `x`. -/
noncomputable def ly (p : Params) (x : ℝ) : ℝ :=
  if x < (B1 p).x then (B0 p).y else (x - (B2 p).x) * ((B2 p).y - (B1 p).y) / ((B2 p).x - (B1 p).x) + (B2 p).y

theorem b1_pos (hp : X43Ok p) : 0 < (B1 p).x ∧ (B1 p).x < p.body_length := by
  have := hp.length
  simp only [B1, A1, L_nom]
  constructor
  · positivity
  · rw [div_lt_iff₀ (by norm_num)]; linarith

theorem localY_eq (hp : X43Ok p) (x : ℝ) : localY p x = .ok (ly p x) := by
  have h := b1_pos hp
  unfold localY ly
  split_ifs with hx
  · rfl
  · have : (B2 p).x - (B1 p).x ≠ 0 := by
      have : (B2 p).x = p.body_length := rfl
      rw [this]; linarith
    rw [pdiv_ok _ _ this, ok_bind]
    rfl

theorem ly_mid (hp : X43Ok p) (s : ℝ) (h0 : 0 ≤ s) : ly p ((B1 p).x + s * (p.body_length - (B1 p).x)) = (B0 p).y * (1 - 0.6 * s) := by
  have h := b1_pos hp
  have hd : 0 < p.body_length - (B1 p).x := by linarith
  unfold ly
  rw [if_neg (by nlinarith)]
  have e1 : (B2 p).x = p.body_length := rfl
  have e2 : (B2 p).y = 0.4 * (B0 p).y := rfl
  have e3 : (B1 p).y = (B0 p).y := rfl
  rw [e1, e2, e3]
  field_simp
  ring

theorem b0y_pos (hp : X43Ok p) : 0 < (B0 p).y := by
  have := hp.width
  simp only [B0]; positivity

theorem ly_pos (hp : X43Ok p) {x : ℝ} (hx : x ≤ p.body_length) : 0 < ly p x := by
  have h := b1_pos hp
  have hb := b0y_pos hp
  by_cases h1 : x < (B1 p).x
  · unfold ly; rw [if_pos h1]; exact hb
  · have hd : 0 < p.body_length - (B1 p).x := by linarith
    have := ly_mid hp ((x - (B1 p).x) / (p.body_length - (B1 p).x)) (div_nonneg (by linarith) hd.le)
    rw [div_mul_cancel₀ _ hd.ne', add_sub_cancel] at this
    rw [this]
    have : (x - (B1 p).x) / (p.body_length - (B1 p).x) ≤ 1 := (div_le_one hd).2 (by linarith)
    nlinarith

/-- Bezier curves of degree two. -/
theorem bezier3 (a b c : V) (r : ℝ) : (Bezier [a, b, c]).call r =
    .ok ⟨a.x * (1 - r) ^ 2 + 2 * b.x * r * (1 - r) + c.x * r ^ 2, a.y * (1 - r) ^ 2 + 2 * b.y * r * (1 - r) + c.y * r ^ 2,
      a.z * (1 - r) ^ 2 + 2 * b.z * r * (1 - r) + c.z * r ^ 2⟩ := by
  simp only [Bezier, Bezier.call, Bezier.work, Bezier.inner, bind, Except.bind, pure, Except.pure, Except.ok.injEq]
  simp [List.range_succ, Function.update]
  ext <;> simp <;> ring

/-- Height of the upper side of the body. -/
noncomputable def topH (p : Params) (x y : ℝ) : ℝ :=
  -(x - p.body_length) * ((-p.body_length * Real.tan (beta p) - 0.5 * TE_height p + 0.5 * LE_height p) / p.body_length) - LE_height p / 2 -
    (p.body_length - x) * (0.025 * (1 - (y / ly p x) ^ 2))

/-- Height of the lower side of the body. -/
noncomputable def botH (p : Params) (x _y : ℝ) : ℝ :=
  -(x - p.body_length) * ((-p.body_length * Real.tan (beta p) + 0.5 * TE_height p - 0.5 * LE_height p) / p.body_length) + LE_height p / 2

theorem wing1Top_eq (hp : X43Ok p) {x y : ℝ} (z : ℝ) (hx : x ≤ p.body_length) : wing1Top p x y z = .ok ⟨0, 0, topH p x y⟩ := by
  unfold wing1Top
  simp only
  rw [pdiv_ok _ _ hp.length.ne', ok_bind, localY_eq hp, ok_bind, pdiv_ok _ _ (ly_pos hp hx).ne', ok_bind]
  unfold roundingBez
  rw [bezier3, ok_bind]
  simp only [pure, Except.pure, Except.ok.injEq, topH, Real.tan_neg, Real.tan_arctan]
  ext <;> simp
  ring

theorem wing1Bot_eq (hp : X43Ok p) (x y z : ℝ) : wing1Bot p x y z = .ok ⟨0, 0, botH p x y⟩ := by
  unfold wing1Bot
  simp only
  rw [pdiv_ok _ _ hp.length.ne', ok_bind]
  simp only [pure, Except.pure, Except.ok.injEq, botH, Real.tan_neg, Real.tan_arctan]
  ext <;> simp
  ring

theorem body_thick (hp : X43Ok p) (x y : ℝ) : botH p x y - topH p x y =
    (p.body_length - x) * (0.15 / 3.7) + 0.05 * p.body_length / 3.7 + (p.body_length - x) * (0.025 * (1 - (y / ly p x) ^ 2)) := by
  have := hp.length.ne'
  simp only [botH, topH, TE_height, LE_height, L_nom]
  field_simp
  ring

theorem leWidth_eq (r : ℝ) : leWidth r = .ok (0.02 * (1 - r) ^ 2 + 2 * 0.05 * r * (1 - r) + 0.05 * r ^ 2) := by
  unfold leWidth bezierY
  rw [bezier3, ok_bind]; rfl

theorem leWidth_ge {r : ℝ} (h : r ∈ Set.Icc (0 : ℝ) 1) : 0.02 ≤ 0.02 * (1 - r) ^ 2 + 2 * 0.05 * r * (1 - r) + 0.05 * r ^ 2 := by
  nlinarith [h.1, h.2, mul_nonneg h.1 (sub_nonneg.2 h.2)]

theorem leWidth2_eq (r : ℝ) : leWidth2 r = .ok 0.001 := by
  unfold leWidth2 bezierY
  rw [bezier3, ok_bind]
  simp only [pure, Except.pure, Except.ok.injEq]
  ring

/-- On the outline of the body the half width is not exceeded. -/
theorem outline_le (hp : X43Ok p) (e : V × V) (he : e ∈ [(B0 p, B1 p), (B1 p, B2 p), (B2 p, TT p)]) (u : ℝ) (hu : u ∈ Set.Icc (0 : ℝ) 1) :
    (lineAt e.1 e.2 u).y ≤ ly p (lineAt e.1 e.2 u).x := by
  have h := b1_pos hp
  have hb := b0y_pos hp
  simp only [List.mem_cons, List.not_mem_nil, or_false] at he
  rcases he with rfl | rfl | rfl
  · have ex : (lineAt (B0 p) (B1 p) u).x = (B1 p).x * u := by simp [lineAt, B0]
    have ey : (lineAt (B0 p) (B1 p) u).y = (B0 p).y := by simp [lineAt, B1]; ring
    rw [ex, ey]
    rcases lt_or_eq_of_le (show (B1 p).x * u ≤ (B1 p).x by nlinarith [hu.2]) with h1 | h1
    · unfold ly; rw [if_pos h1]
    · rw [h1]
      have := ly_mid hp 0 le_rfl
      rw [zero_mul, add_zero] at this
      rw [this]; linarith
  · have ex : (lineAt (B1 p) (B2 p) u).x = (B1 p).x + u * (p.body_length - (B1 p).x) := by simp [lineAt, B2, TT]; ring
    have ey : (lineAt (B1 p) (B2 p) u).y = (B0 p).y * (1 - 0.6 * u) := by simp [lineAt, B1, B2]; ring
    rw [ex, ey, ly_mid hp u hu.1]
  · have ex : (lineAt (B2 p) (TT p) u).x = (B1 p).x + 1 * (p.body_length - (B1 p).x) := by simp [lineAt, B2, TT]; ring
    have ey : (lineAt (B2 p) (TT p) u).y = 0.4 * (B0 p).y * (1 - u) := by simp [lineAt, B2, TT]
    rw [ex, ey, ly_mid hp 1 zero_le_one]
    nlinarith [hu.1]

theorem up_custom : ("custom" : String).toUpper ≠ "FLAT" := by
  rw [String.toUpper, ne_eq, ← String.toList_inj, String.toList_map]; decide

/-- The rectangle around the half of the body. -/
def box (p : Params) (x y : ℝ) : Prop := 0 ≤ x ∧ x ≤ p.body_length ∧ 0 ≤ y

theorem body_smooth (hp : X43Ok p) {ptan : ℝ → ℝ} (hT : FloatTan ptan) : ∃ a L, bodyArgs p = .ok a ∧
    SmoothWing ptan (box p) a L (topH p) (botH p) (fun r => 0.02 * (1 - r) ^ 2 + 2 * 0.05 * r * (1 - r) + 0.05 * r ^ 2) 1e-12 ∧
    a.t_B1 = none ∧ a.close_wing = false ∧ a.A0.y = 0 ∧ a.A1.y = 0 ∧ a.TT.y = 0 ∧ (L 0).x ≤ a.A1.x ∧ a.A1.x ≤ (L 1).x := by
  have h := b1_pos hp
  have hb := b0y_pos hp
  have hl := hp.length
  have hA : (A1 p).x = (B1 p).x := rfl
  obtain ⟨P, h1, h2, h3, h4, h5, h6, h7⟩ := lines_edge [(B0 p, B1 p), (B1 p, B2 p), (B2 p, TT p)] (by simp)
    (by
      intro e he
      simp only [List.mem_cons, List.not_mem_nil, or_false] at he
      rcases he with rfl | rfl | rfl <;> intro hc
      · have := congrArg Vec.x hc; simp only [B0] at this; linarith
      · have := congrArg Vec.x hc; simp only [B2, TT] at this; linarith
      · have := congrArg Vec.y hc; simp only [B2, TT] at this; linarith)
    (by
      intro i hi
      simp only [List.length_cons, List.length_nil] at hi
      obtain rfl | rfl : i = 0 ∨ i = 1 := by omega
      all_goals rfl)
  have hm : MonoEdge (fnOf P) := by
    refine ⟨h6 ?_, h7 ?_⟩ <;>
    · intro e he
      simp only [List.mem_cons, List.not_mem_nil, or_false] at he
      rcases he with rfl | rfl | rfl <;> simp only [B0, B1, B2, TT] at * <;> linarith
  simp only [List.head_cons, List.getLast_cons, List.getLast_singleton, ne_eq, reduceCtorEq, not_false_eq_true, List.cons_ne_nil] at h3 h4
  have hin : ∀ t ∈ Set.Icc (0 : ℝ) 1, 0 ≤ (fnOf P t).x ∧ (fnOf P t).x ≤ p.body_length ∧ 0 ≤ (fnOf P t).y ∧
      (fnOf P t).y ≤ ly p (fnOf P t).x := by
    intro t ht
    obtain ⟨e, he, u, hu, he2⟩ := h5 t ht
    have k0 := hm.fwd 0 ⟨le_rfl, zero_le_one⟩ t ht ht.1
    have k1 := hm.fwd t ht 1 ⟨zero_le_one, le_rfl⟩ ht.2
    have k2 := hm.inw t ht 1 ⟨zero_le_one, le_rfl⟩ ht.2
    rw [h3] at k0
    rw [h4] at k1 k2
    exact ⟨k0, k1, k2, by rw [he2]; exact outline_le hp e he u hu⟩
  have hth : ∀ t ∈ Set.Icc (0 : ℝ) 1, 0 < botH p (fnOf P t).x (fnOf P t).y - topH p (fnOf P t).x (fnOf P t).y ∧
      botH p (fnOf P t).x (fnOf P t).y - topH p (fnOf P t).x (fnOf P t).y ≤ 200 := by
    intro t ht
    obtain ⟨a1, a2, a3, a4⟩ := hin t ht
    have hly := ly_pos hp a2
    have r0 : 0 ≤ (fnOf P t).y / ly p (fnOf P t).x := by positivity
    have r1 : (fnOf P t).y / ly p (fnOf P t).x ≤ 1 := (div_le_one hly).2 a4
    rw [body_thick hp]
    have hs := hp.short
    have r2 : 0 ≤ 1 - ((fnOf P t).y / ly p (fnOf P t).x) ^ 2 := by nlinarith
    have r3 : 1 - ((fnOf P t).y / ly p (fnOf P t).x) ^ 2 ≤ 1 := by nlinarith
    have hd : 0 ≤ p.body_length - (fnOf P t).x := by linarith
    have hq := mul_nonneg hd r2
    have hq2 := mul_le_mul_of_nonneg_left r3 hd
    constructor
    · have : 0 < 0.05 * p.body_length / 3.7 := by positivity
      nlinarith
    · have : 0.05 * p.body_length / 3.7 ≤ 0.05 * 1000 / 3.7 := by gcongr
      norm_num at this ⊢
      nlinarith
  refine ⟨{ A1 := A1 p, TT := TT p, B0 := B0 p, line := P, top_tf := wing1Top p, bot_tf := wing1Bot p, LE_wf := some leWidth }, fnOf P,
    by unfold bodyArgs; simp only [List.map_cons, List.map_nil] at h1; rw [h1, ok_bind]; rfl,
    ⟨hT.like, lower_bezier, up_custom, rfl, .inl rfl, h2, h3, h4, fun x y z hD => wing1Top_eq hp z hD.2.1, fun x y z _ => wing1Bot_eq hp x y z,
     ?_, .inl rfl, fun t _ => leWidth_eq t, ?_, ?_, ?_, ?_⟩, rfl, rfl, rfl, rfl, rfl, ?_, ?_⟩
  · exact liesOver_box hm 0 p.body_length (by rw [h3]; exact le_rfl) (by rw [h4]; exact le_rfl) ⟨le_rfl, hl.le⟩ ⟨h.1.le, h.2.le⟩ le_rfl le_rfl
      (by rw [h4]; exact le_rfl)
  · intro t ht; linarith [(hth t ht).1]
  · intro t ht; linarith [leWidth_ge ht]
  · intro t ht
    have := hth t ht
    exact hT.fits _ _ (by rw [abs_of_pos] <;> linarith) (by linarith [leWidth_ge ht])
  · intro t ht
    have := hth t ht
    exact hT.gap _ _ (by linarith) (by linarith) (by linarith [leWidth_ge ht])
  · rw [h3]; exact h.1.le
  · rw [h4]; exact h.2.le

/-- Height of the flaps. -/
noncomputable def flapH (p : Params) (sgn x : ℝ) : ℝ := sgn * (flap_thickness p / 2) + (x - p.body_length) * Real.tan (beta p)

theorem bends_affine (a b : ℝ) (h : ℝ → ℝ → ℝ) (hh : ∀ x y, h x y = a + b * x) (u v : V) : BendsBy 0 h u v := by
  intro t _
  rw [show liftBy h (lineAt u v t) = lineAt (liftBy h u) (liftBy h v) t by
    ext <;> simp [liftBy, lineAt, hh]; ring, vdist_self]

theorem wing_smooth (hp : X43Ok p) {ptan : ℝ → ℝ} (hT : FloatTan ptan) : ∃ a L, wingArgs p = .ok a ∧
    SmoothWing ptan (fun _ _ => True) a L (fun x _ => flapH p (-1) x) (fun x _ => flapH p 1 x)
      (fun r => 0.02 * (1 - r) ^ 2 + 2 * 0.05 * r * (1 - r) + 0.05 * r ^ 2) 1e-12 ∧
    a.t_B1 = none ∧ a.close_wing = true ∧ (L 0).x ≤ a.A1.x ∧ a.A1.x ≤ (L 1).x ∧ a.flap_length = p.flap_length ∧
    a.flap_angle = p.flap_angle := by
  have hl := hp.length
  have hw := hp.wing
  have hf := hp.flap
  set fA1 : V := ⟨0 + 0.5 * p.wing_length, ly p (0 + 0.5 * p.wing_length), 0⟩
  set fTT : V := ⟨0 + p.wing_length, ly p (0 + p.wing_length), 0⟩
  set fB0 : V := ⟨0 - p.wing_TE_back + p.flap_length, (B0 p).y + p.wing_span, 0⟩
  set fB1 : V := ⟨0 + 0.4 * p.wing_length, (B0 p).y + 0.75 * p.wing_span, 0⟩
  obtain ⟨P, h1, h2, h3, h4, -, -, -⟩ := lines_edge [(fB0, fB1), (fB1, fTT)] (by simp)
    (by
      intro e he
      simp only [List.mem_cons, List.not_mem_nil, or_false] at he
      rcases he with rfl | rfl <;> intro hc
      · have := congrArg Vec.y hc
        simp only [fB0, fB1] at this
        exact hp.span (by linarith)
      · have := congrArg Vec.x hc; simp only [fB1, fTT] at this; linarith)
    (by
      intro i hi
      simp only [List.length_cons, List.length_nil] at hi
      obtain rfl : i = 0 := by omega
      rfl)
  simp only [List.head_cons, List.getLast_cons, List.getLast_singleton, ne_eq, reduceCtorEq, not_false_eq_true, List.cons_ne_nil] at h3 h4
  have hth : 0 < flap_thickness p ∧ flap_thickness p ≤ 200 := by
    have := hp.short
    simp only [flap_thickness, L_nom]
    constructor
    · positivity
    · rw [div_le_iff₀ (by norm_num)]; linarith
  have hd : ∀ x : ℝ, flapH p 1 x - flapH p (-1) x = flap_thickness p := by intro x; simp only [flapH]; ring
  refine ⟨{ A0 := ⟨(B0 p).x + p.flap_length, (B0 p).y, 0⟩, A1 := fA1, TT := fTT, B0 := fB0, line := P, top_tf := wing2Tf p (-1),
            bot_tf := wing2Tf p 1, LE_wf := some leWidth, flap_length := p.flap_length, flap_angle := p.flap_angle, close_wing := true }, fnOf P,
    by
      unfold wingArgs
      simp only [List.map_cons, List.map_nil] at h1
      simp only [localY_eq hp, ok_bind]
      rw [h1, ok_bind]; rfl,
    ⟨hT.like, lower_bezier, up_custom, rfl, .inl rfl, h2, h3, h4, ?_, ?_,
     liesOver_univ _ _ _, .inl rfl, fun t _ => leWidth_eq t, ?_, ?_, ?_, ?_⟩, rfl, rfl, ?_, ?_, rfl, rfl⟩
  · intro x y z _
    simp only [wing2Tf, flapH, Except.ok.injEq]
    ext <;> simp
    ring
  · intro x y z _
    simp only [wing2Tf, flapH, Except.ok.injEq]
    ext <;> simp
    ring
  · intro t ht; linarith [hd (fnOf P t).x]
  · intro t ht; linarith [leWidth_ge ht]
  · intro t ht
    rw [hd]
    exact hT.fits _ _ (by rw [abs_of_pos] <;> linarith) (by linarith [leWidth_ge ht])
  · intro t ht
    rw [hd]
    exact hT.gap _ _ (by linarith) (by linarith) (by linarith [leWidth_ge ht])
  · rw [h3]; simp only [fB0, fA1]; linarith
  · rw [h4]; simp only [fTT, fA1]; linarith

theorem flap_bends (sgn : ℝ) (u v : V) : BendsBy 0 (fun x _ => flapH p sgn x) u v :=
  bends_affine (sgn * (flap_thickness p / 2) - p.body_length * Real.tan (beta p)) (Real.tan (beta p)) _ (fun x y => by simp only [flapH]; ring) u v

/-- The height of the engine. -/
noncomputable def engineH (p : Params) (x : ℝ) : ℝ :=
  if x < 0.3 * ((B1 p).x - (B0 p).x) then p.engine_h / (0.3 * ((B1 p).x - (B0 p).x) - 0) * x
  else if 0.8 * (B1 p).x < x then -p.engine_h / ((iTT p).x - 0.8 * (B1 p).x) * (x - (iTT p).x) else p.engine_h

/-- The taper of the engine towards its sides. -/
noncomputable def taperH (p : Params) (x y : ℝ) : ℝ := if 0.8 * ly p x < y then (5 * y / ly p x - 4) * engineH p x else 0

theorem itt_gt (hp : X43Ok p) : (B1 p).x < (iTT p).x ∧ (iTT p).x < p.body_length := by
  have := b1_pos hp
  simp only [iTT, TT]
  constructor <;> linarith

theorem inletHeight_eq (hp : X43Ok p) (x : ℝ) : inletHeight p x = .ok (engineH p x) := by
  have h1 := b1_pos hp
  have h2 := itt_gt hp
  have h3 : (B0 p).x = 0 := rfl
  unfold inletHeight engineH
  simp only
  split_ifs
  · rw [pdiv_ok _ _ (by rw [h3]; nlinarith), ok_bind]; rfl
  · rw [pdiv_ok _ _ (by nlinarith), ok_bind]; rfl
  · rfl

theorem inletTop_eq (hp : X43Ok p) (x y z : ℝ) : inletTop p x y z = .ok ⟨0, 0, botH p x y - 0.05⟩ := by
  unfold inletTop
  rw [wing1Bot_eq hp, ok_bind]; rfl

theorem inletBot_eq (hp : X43Ok p) {x y : ℝ} (z : ℝ) (hx : x ≤ p.body_length) :
    inletBot p x y z = .ok ⟨0, 0, engineH p x + botH p x y - taperH p x y + 0.00001⟩ := by
  unfold inletBot taperH
  rw [wing1Bot_eq hp, ok_bind, inletHeight_eq hp, ok_bind, localY_eq hp, ok_bind]
  split_ifs
  · rw [pdiv_ok _ _ (ly_pos hp hx).ne', ok_bind]; rfl
  · rfl

/-- At the sides of the inlet the engine has no height. -/
theorem inlet_edge (hp : X43Ok p) (q : V) (hq : q ∈ [⟨(iTT p).x, ly p (iTT p).x, 0⟩]) (e : V × V)
    (he : e ∈ [(B0 p, B1 p), (B1 p, q), (q, iTT p)]) (u : ℝ) (hu : u ∈ Set.Icc (0 : ℝ) 1) :
    engineH p (lineAt e.1 e.2 u).x = taperH p (lineAt e.1 e.2 u).x (lineAt e.1 e.2 u).y := by
  have h := b1_pos hp
  have hb := b0y_pos hp
  have hi := itt_gt hp
  obtain rfl := List.mem_singleton.1 hq
  have side : ∀ x y, y = ly p x → x ≤ p.body_length → engineH p x = taperH p x y := by
    intro x y hy hx
    have := ly_pos hp hx
    unfold taperH
    rw [hy, if_pos (by linarith), mul_div_assoc, div_self this.ne']
    ring
  simp only [List.mem_cons, List.not_mem_nil, or_false] at he
  rcases he with rfl | rfl | rfl
  · have ex : (lineAt (B0 p) (B1 p) u).x = (B1 p).x * u := by simp [lineAt, B0]
    have ey : (lineAt (B0 p) (B1 p) u).y = (B0 p).y := by simp [lineAt, B1]; ring
    rw [ex, ey]
    apply side
    · rcases lt_or_eq_of_le (show (B1 p).x * u ≤ (B1 p).x by nlinarith [hu.2]) with h1 | h1
      · unfold ly; rw [if_pos h1]
      · rw [h1]
        have := ly_mid hp 0 le_rfl
        rw [zero_mul, add_zero] at this
        rw [this]; linarith
    · nlinarith [hu.2]
  · have ei : (iTT p).x = (B1 p).x + 0.5 * (p.body_length - (B1 p).x) := by simp only [iTT, TT]; ring
    have el : ly p (iTT p).x = (B0 p).y * 0.7 := by rw [ei, ly_mid hp _ (by norm_num)]; ring
    have ex : (lineAt (B1 p) ⟨(iTT p).x, ly p (iTT p).x, 0⟩ u).x = (B1 p).x + 0.5 * u * (p.body_length - (B1 p).x) := by
      simp [lineAt, ei]; ring
    have ey : (lineAt (B1 p) ⟨(iTT p).x, ly p (iTT p).x, 0⟩ u).y = (B0 p).y * (1 - 0.6 * (0.5 * u)) := by
      simp [lineAt, el, B1]; ring
    rw [ex, ey]
    apply side
    · rw [ly_mid hp _ (by linarith [hu.1])]
    · nlinarith [hu.2]
  · have ex : (lineAt ⟨(iTT p).x, ly p (iTT p).x, 0⟩ (iTT p) u).x = (iTT p).x := by simp [lineAt]; ring
    have h3 : (B0 p).x = 0 := rfl
    have e0 : engineH p (iTT p).x = 0 := by
      unfold engineH
      rw [if_neg (by rw [h3]; nlinarith), if_pos (by nlinarith)]
      simp
    rw [ex]
    unfold taperH
    rw [e0]
    split_ifs <;> simp

theorem inlet_smooth (hp : X43Ok p) {ptan : ℝ → ℝ} (hT : FloatTan ptan) : ∃ a L, inletArgs p = .ok a ∧
    SmoothWing ptan (box p) a L (fun x y => botH p x y - 0.05) (fun x y => engineH p x + botH p x y - taperH p x y + 0.00001)
      (fun _ => 0.001) 1e-12 ∧
    a.t_B1 = none ∧ a.close_wing = false ∧ a.A0.y = 0 ∧ a.A1.y = 0 ∧ a.TT.y = 0 ∧ (L 0).x ≤ a.A1.x ∧ a.A1.x ≤ (L 1).x := by
  have h := b1_pos hp
  have hb := b0y_pos hp
  have hi := itt_gt hp
  have hl := hp.length
  have hA : (A1 p).x = (B1 p).x := rfl
  have ei : (iTT p).x = (B1 p).x + 0.5 * (p.body_length - (B1 p).x) := by simp only [iTT, TT]; ring
  have el : ly p (iTT p).x = (B0 p).y * 0.7 := by rw [ei, ly_mid hp _ (by norm_num)]; ring
  set q : V := ⟨(iTT p).x, ly p (iTT p).x, 0⟩ with hq
  obtain ⟨P, h1, h2, h3, h4, h5, h6, h7⟩ := lines_edge [(B0 p, B1 p), (B1 p, q), (q, iTT p)] (by simp)
    (by
      intro e he
      simp only [List.mem_cons, List.not_mem_nil, or_false] at he
      rcases he with rfl | rfl | rfl <;> intro hc
      · have := congrArg Vec.x hc; simp only [B0] at this; linarith
      · have := congrArg Vec.x hc; simp only [hq] at this; linarith
      · have := congrArg Vec.y hc; simp only [hq, el] at this; have e : (iTT p).y = 0 := rfl; linarith)
    (by
      intro i hi
      simp only [List.length_cons, List.length_nil] at hi
      obtain rfl | rfl : i = 0 ∨ i = 1 := by omega
      all_goals rfl)
  have b1y : (B1 p).y = (B0 p).y := rfl
  have b0x : (B0 p).x = 0 := rfl
  have ity : (iTT p).y = 0 := rfl
  have hm : MonoEdge (fnOf P) := by
    refine ⟨h6 ?_, h7 ?_⟩ <;>
    · intro e he
      simp only [List.mem_cons, List.not_mem_nil, or_false] at he
      rcases he with rfl | rfl | rfl <;> simp only [hq, el, b1y, b0x, ity] <;> linarith
  simp only [List.head_cons, List.getLast_cons, List.getLast_singleton, ne_eq, reduceCtorEq, not_false_eq_true, List.cons_ne_nil] at h3 h4
  have hd : ∀ t ∈ Set.Icc (0 : ℝ) 1, engineH p (fnOf P t).x + botH p (fnOf P t).x (fnOf P t).y - taperH p (fnOf P t).x (fnOf P t).y + 0.00001 -
      (botH p (fnOf P t).x (fnOf P t).y - 0.05) = 0.05001 := by
    intro t ht
    obtain ⟨e, he, u, hu, he2⟩ := h5 t ht
    rw [he2, ← inlet_edge hp q (by simp [hq]) e he u hu]
    ring
  have hq2 : pdiv (((iTT p).x - (B2 p).x) * ((B2 p).y - (B1 p).y)) ((B2 p).x - (B1 p).x) = .ok (ly p (iTT p).x - (B2 p).y) := by
    have e1 : (B2 p).x = p.body_length := rfl
    rw [pdiv_ok _ _ (by rw [e1]; linarith)]
    unfold ly
    rw [if_neg (by linarith)]
    congr 1; ring
  refine ⟨{ A1 := A1 p, TT := iTT p, B0 := B0 p, line := P, top_tf := inletTop p, bot_tf := inletBot p, LE_wf := some leWidth2 }, fnOf P,
    by
      unfold inletArgs
      rw [hq2, ok_bind]
      simp only [List.map_cons, List.map_nil] at h1
      simp only [sub_add_cancel]
      have e0 : (⟨(B0 p).x, (B0 p).y, 0⟩ : V) = B0 p := rfl
      have e1 : (⟨(B1 p).x, (B1 p).y, 0⟩ : V) = B1 p := rfl
      rw [e0, e1, h1, ok_bind]; rfl,
    ⟨hT.like, lower_bezier, up_custom, rfl, .inl rfl, h2, h3, h4, fun x y z _ => inletTop_eq hp x y z,
     fun x y z hD => inletBot_eq hp z hD.2.1,
     ?_, .inl rfl, fun t _ => leWidth2_eq t, ?_, ?_, ?_, ?_⟩, rfl, rfl, rfl, rfl, rfl, ?_, ?_⟩
  · exact liesOver_box hm 0 p.body_length (by rw [h3]; exact le_rfl) (by rw [h4]; exact hi.2.le) ⟨le_rfl, hl.le⟩ ⟨h.1.le, h.2.le⟩ le_rfl le_rfl
      (by rw [h4]; exact le_rfl)
  · intro t ht; linarith [hd t ht]
  · intro t ht; norm_num
  · intro t ht
    rw [hd t ht]
    exact hT.fits _ _ (by norm_num [abs_of_pos]) (by norm_num)
  · intro t ht
    rw [hd t ht]
    exact hT.gap _ _ (by norm_num) (by norm_num) (by norm_num)
  · rw [h3]; exact h.1.le
  · rw [h4]; exact hi.1.le

/-- The fins. -/
theorem fin_uniform (hp : X43Ok p) {ptan : ℝ → ℝ} (hT : FloatTan ptan) (sgn : ℝ) :
    UniformFin ptan (finArgs p sgn) 0.02 ⟨0, sgn * (B0 p).y, 0⟩ ∧ BreakFound (finArgs p sgn) := by
  have hf := hp.fin
  have hr := hp.rudder
  have hth : 0 < fin_thickness p ∧ fin_thickness p ≤ 200 := by
    have := hp.length
    have := hp.short
    simp only [fin_thickness, L_nom]
    constructor
    · positivity
    · rw [div_le_iff₀ (by norm_num)]; linarith
  refine ⟨⟨hT.like, hth.1, rfl, rfl, ?_, ?_, by norm_num, ?_, ?_, fun _ => rfl, ?_⟩, ?_⟩
  · intro hc
    have := congrArg Vec.x hc
    simp only [finArgs] at this; linarith
  · intro hc
    have := congrArg Vec.x hc
    simp only [finArgs] at this; linarith
  · have e : (finArgs p sgn).fin_thickness = fin_thickness p := rfl
    rw [e]
    exact hT.fits _ _ (by rw [abs_of_pos] <;> linarith) (by norm_num)
  · intro t ht
    exact ⟨_, leWidth_ge ht, leWidth_eq t⟩
  · simp only [OffsetBy, finArgs]
    intros
    first | rfl | simp
  · simp only [BreakFound, finArgs]
    nlinarith

end X43
/-- A wing as a generator leaves it: with a name and possibly an axis of reflection. -/
noncomputable def wingOf (ptan : ℝ → ℝ) (w : Wing.State) (n : ℕ) (name refl : Option String) : Comp :=
  { Wing.comp ptan w n name with reflection_axis := refl }

/-- The vehicle with the mesh resolution of some of its components changed, as by assigning `stl_resolution`. -/
def Spec.Rescaled (st st0 : VState) : Prop :=
  st0.veh = st.veh ∧ ∀ k, st0.heap k = st.heap k ∨ ∃ n : ℕ, 1 ≤ n ∧ st0.heap k = { st.heap k with stl_resolution := .int n }

theorem Spec.Rescaled.wing {st st0 : VState} (h : Rescaled st st0) {k : ℕ} {ptan : ℝ → ℝ} {w : Wing.State} {n : ℕ} (hn : 1 ≤ n)
    {name refl : Option String} (hk : st.heap k = wingOf ptan w n name refl) :
    ∃ m : ℕ, 1 ≤ m ∧ st0.heap k = wingOf ptan w m name refl := by
  rcases h.2 k with h | ⟨m, hm, h⟩
  · exact ⟨n, hn, h.trans hk⟩
  · exact ⟨m, hm, by rw [h, hk]; rfl⟩

/-- A wing reflected in the plane `y = 0`, in terms of the same wing on its own. -/
theorem reflected_wing (ptan : ℝ → ℝ) (w : Wing.State) (n : ℕ) (hn : 1 ≤ n) (h' : Heap) (M : StlMesh) (c' : Comp)
    (g1 : generatePatches (fun _ => Wing.comp ptan w n none) 0 = (.ok (), h')) (g2 : (h' 0).mesh = (.ok M, c'))
    (H : Heap) (k : ℕ) (name : Option String) (hk : H k = wingOf ptan w n name (some "y")) :
    ∃ g c M' c'', generatePatches H k = (.ok (), g) ∧ pipeline 0 (g k) = (.ok (), c) ∧ c.mesh = (.ok M', c'') ∧
      M'.tris = M.tris ++ mapVerts (mirrorV 1) M.tris := by
  have hnm := Wing.names (h := fun _ => Wing.comp ptan w n none) (id := 0) rfl g1
  have := reflected_leaf (fun _ => Wing.comp ptan w n none) 0 _ rfl n hn rfl rfl rfl rfl h' M c' g1 g2
    (by rw [hnm]; exact Wing.no_mirrored w) H k (by rw [hk]; rfl) (by rw [hk]; rfl) (by rw [hk]; rfl) (by rw [hk]; rfl) (by rw [hk]; rfl)
    (by rw [hk]; rfl) (by rw [hk]; rfl) (by rw [hk]; rfl) (by rw [hk]; rfl) "y" 1 (.inl rfl) (by rw [hk]; exact .inl rfl)
  obtain ⟨g, c, M', c'', b1, b2, b3, b4⟩ := this
  refine ⟨g, c, M', c'', b1, b2, b3, ?_⟩
  rw [b4, hk]; rfl

/-- A wing without reflection. -/
theorem plain_wing (ptan : ℝ → ℝ) (w : Wing.State) (n : ℕ) (hn : 1 ≤ n) (h' : Heap) (M : StlMesh) (c' : Comp)
    (g1 : generatePatches (fun _ => Wing.comp ptan w n none) 0 = (.ok (), h')) (g2 : (h' 0).mesh = (.ok M, c'))
    (H : Heap) (k : ℕ) (name : Option String) (hk : H k = wingOf ptan w n name none) :
    ∃ g c M' c'', generatePatches H k = (.ok (), g) ∧ pipeline 0 (g k) = (.ok (), c) ∧ c.mesh = (.ok M', c'') ∧ M'.tris = M.tris :=
  plain_leaf (fun _ => Wing.comp ptan w n none) 0 _ rfl n hn rfl rfl rfl rfl h' M c' g1 g2
    H k (by rw [hk]; rfl) (by rw [hk]; rfl) (by rw [hk]; rfl) (by rw [hk]; rfl) (by rw [hk]; rfl)
    (by rw [hk]; rfl) (by rw [hk]; rfl) (by rw [hk]; rfl) (by rw [hk]; rfl) (by rw [hk]; rfl)

/-- Half of a body with a root in the plane of symmetry, added with its reflection. -/
theorem half_body {ptan : ℝ → ℝ} {D : ℝ → ℝ → Prop} {a : Wing.Args} {w : Wing.State} {L : ℝ → V} {ht hb : ℝ → ℝ → ℝ} {wd : ℝ → ℝ} {ε : ℝ}
    {find : (ℝ → Res ℝ) → Res ℝ} (hw : Wing.init find a = .ok w) (hs : SmoothWing ptan D a L ht hb wd ε) (h1 : w.t_B1 ∈ Set.Icc (0 : ℝ) 1)
    (hc : a.close_wing = false) (r0 : a.A0.y = 0) (r1 : a.A1.y = 0) (rT : a.TT.y = 0) (n : ℕ) (hn : 1 ≤ n) (H : Heap) (k : ℕ)
    (name : Option String) (hk : H k = wingOf ptan w n name (some "y")) :
    ∃ g c, generatePatches H k = (.ok (), g) ∧ pipeline 0 (g k) = (.ok (), c) ∧ ∃ M c', c.mesh = (.ok M, c') ∧ GapFree ε M.tris := by
  obtain ⟨h', M, c', m', g1, g2, g3, -, g4⟩ := C106_open_wing_partial find ptan D a w L ht hb wd ε hw hs h1 hc r0 r1 rT n hn none
    (fun _ => Wing.comp ptan w n none) 0 rfl
  obtain ⟨g, c, M', c'', b1, b2, b3, b4⟩ := reflected_wing ptan w n hn h' M c' g1 g2 H k name hk
  exact ⟨g, c, b1, b2, M', c'', b3, by rw [b4]; exact halves_watertight g3 g4⟩

/-- The keyword arguments of the generator mean these dimensions. -/
structure Spec.X43Args (kwargs : Dict String ℝ) (p : X43.Params) : Prop where
  keys : kwargs.keys.Nodup
  body_length : given kwargs "body_length" 3.7 p.body_length
  body_width : given kwargs "body_width" 1 p.body_width
  body_angle : given kwargs "body_angle" 0 p.body_angle
  wing_span : given kwargs "wing_span" 0.4 p.wing_span
  wing_length : given kwargs "wing_length" 1 p.wing_length
  wing_TE_back : given kwargs "wing_TE_back" 0.25 p.wing_TE_back
  flap_length : given kwargs "flap_length" 0.3 p.flap_length
  engine_h : given kwargs "engine_h" 0.1 p.engine_h
  fin_height : given kwargs "fin_height" 0.3 p.fin_height
  fin_length : given kwargs "fin_length" 1 p.fin_length
  rudder_length : given kwargs "rudder_length" 0.2 p.rudder_length
  flap_angle : given kwargs "flap_angle" 0 p.flap_angle
  rudder_angle : given kwargs "rudder_angle" 0 p.rudder_angle

theorem x43_params (kwargs : Dict String ℝ) (p : X43.Params) (ha : X43Args kwargs p) :
    X43.Params.of (Generator.init X43.defaults kwargs) = .ok p := by
  unfold X43.Params.of
  have k := fun (s : String) (d v : ℝ) (h : given kwargs s d v) (e : X43.defaults.get? s = some d) =>
    given_get' (dflts := X43.defaults) ha.keys h e
  rw [k _ _ _ ha.body_length rfl, ok_bind, k _ _ _ ha.body_angle rfl, ok_bind, k _ _ _ ha.body_width rfl, ok_bind,
    k _ _ _ ha.flap_length rfl, ok_bind, k _ _ _ ha.wing_length rfl, ok_bind, k _ _ _ ha.wing_TE_back rfl, ok_bind,
    k _ _ _ ha.wing_span rfl, ok_bind, k _ _ _ ha.flap_angle rfl, ok_bind, k _ _ _ ha.engine_h rfl, ok_bind,
    k _ _ _ ha.fin_length rfl, ok_bind, k _ _ _ ha.rudder_length rfl, ok_bind, k _ _ _ ha.fin_height rfl, ok_bind,
    k _ _ _ ha.rudder_angle rfl, ok_bind]
  rfl

/-- The records of the vehicle. -/
def x43Veh (ids : ℕ → ℕ) : Veh :=
  { name := "X-43A", verbosity := 1, components := [ids 0, ids 1, ids 2, ids 3, ids 4, ids 5], counts := [("wing", 4), ("fin", 2)],
    enumerated := [("wing_1", ids 0), ("wing_2", ids 1), ("wing_3", ids 2), ("wing_4", ids 3), ("fin_1", ids 4), ("fin_2", ids 5)],
    named := [("body", ids 0), ("wing1", ids 1), ("wing2", ids 2), ("inlet", ids 3), ("fin1", ids 4), ("fin2", ids 5)] }

theorem x43_instance (ptan : ℝ → ℝ) (h : Heap) (ids : ℕ → ℕ) (hi : Function.Injective ids) (kwargs : Dict String ℝ) (p : X43.Params)
    (ha : X43Args kwargs p) (a1 a2 a3 : Wing.Args) (w1 w2 w3 : Wing.State) (e1 : X43.bodyArgs p = .ok a1) (e2 : X43.wingArgs p = .ok a2)
    (e3 : X43.inletArgs p = .ok a3) (i1 : Wing.init (rounded bisect01) a1 = .ok w1) (i2 : Wing.init (rounded bisect01) a2 = .ok w2)
    (i3 : Wing.init (rounded bisect01) a3 = .ok w3) :
    ∃ st, X43.instanceOf bisect01 ptan h ids kwargs = .ok st ∧ st.veh = x43Veh ids ∧
      st.heap (ids 0) = wingOf ptan w1 4 (some "body") (some "y") ∧ st.heap (ids 1) = wingOf ptan w2 2 (some "wing1") none ∧
      st.heap (ids 2) = wingOf ptan w2 2 (some "wing2") (some "y") ∧ st.heap (ids 3) = wingOf ptan w3 4 (some "inlet") (some "y") ∧
      st.heap (ids 4) = Fin.comp (rounded bisect01) ptan (X43.finArgs p 1) 2 (some "fin1") ∧
      st.heap (ids 5) = Fin.comp (rounded bisect01) ptan (X43.finArgs p (-1)) 2 (some "fin2") := by
  unfold X43.instanceOf X43.createInstance
  rw [x43_params kwargs p ha, ok_bind, e1, ok_bind, i1, ok_bind, e2, ok_bind, i2, ok_bind, e3, ok_bind, i3, ok_bind]
  simp only
  set H : Heap := (((((h.upd (ids 0) (Wing.comp ptan w1 4)).upd (ids 1) (Wing.comp ptan w2)).upd (ids 2) (Wing.comp ptan w2)).upd (ids 3)
    (Wing.comp ptan w3 4)).upd (ids 4) (Fin.comp (rounded bisect01) ptan (X43.finArgs p 1))).upd (ids 5)
    (Fin.comp (rounded bisect01) ptan (X43.finArgs p (-1))) with hH
  have n : ∀ i j : ℕ, i ≠ j → ids i ≠ ids j := fun i j h => hi.ne h
  have f5 : H (ids 5) = Fin.comp (rounded bisect01) ptan (X43.finArgs p (-1)) := by rw [hH, upd_self]
  have f4 : H (ids 4) = Fin.comp (rounded bisect01) ptan (X43.finArgs p 1) := by rw [hH, upd_ne _ _ _ _ (n 4 5 (by decide)), upd_self]
  have f3 : H (ids 3) = Wing.comp ptan w3 4 := by
    rw [hH, upd_ne _ _ _ _ (n 3 5 (by decide)), upd_ne _ _ _ _ (n 3 4 (by decide)), upd_self]
  have f2 : H (ids 2) = Wing.comp ptan w2 := by
    rw [hH, upd_ne _ _ _ _ (n 2 5 (by decide)), upd_ne _ _ _ _ (n 2 4 (by decide)), upd_ne _ _ _ _ (n 2 3 (by decide)), upd_self]
  have f1 : H (ids 1) = Wing.comp ptan w2 := by
    rw [hH, upd_ne _ _ _ _ (n 1 5 (by decide)), upd_ne _ _ _ _ (n 1 4 (by decide)), upd_ne _ _ _ _ (n 1 3 (by decide)),
      upd_ne _ _ _ _ (n 1 2 (by decide)), upd_self]
  have f0 : H (ids 0) = Wing.comp ptan w1 4 := by
    rw [hH, upd_ne _ _ _ _ (n 0 5 (by decide)), upd_ne _ _ _ _ (n 0 4 (by decide)), upd_ne _ _ _ _ (n 0 3 (by decide)),
      upd_ne _ _ _ _ (n 0 2 (by decide)), upd_ne _ _ _ _ (n 0 1 (by decide)), upd_self]
  obtain ⟨st, b1, b2, b3, -⟩ := addAll_spec ⟨H, ({} : Veh).configure (some "X-43A") 1⟩ (X43.parts ids)
    (by simp [X43.parts, hi.eq_iff])
    (by
      intro e he
      simp only [X43.parts, List.mem_cons, List.not_mem_nil, or_false] at he
      rcases he with rfl | rfl | rfl | rfl | rfl | rfl
      · simp only [f0, Wing.comp, Veh.allowable]; decide
      · simp only [f1, Wing.comp, Veh.allowable]; decide
      · simp only [f2, Wing.comp, Veh.allowable]; decide
      · simp only [f3, Wing.comp, Veh.allowable]; decide
      · simp only [f4, Fin.comp, Veh.allowable]; decide
      · simp only [f5, Fin.comp, Veh.allowable]; decide)
  refine ⟨st, b1, ?_, ?_, ?_, ?_, ?_, ?_, ?_⟩
  · rw [b2]
    simp only [X43.parts, List.foldl_cons, List.foldl_nil, f0, f1, f2, f3, f4, f5]
    simp only [Veh.record, Veh.nextCount, Veh.nameFor, Wing.comp, Fin.comp, Veh.configure, Veh.truthy]
    have r1 : Nat.repr 1 = "1" := by decide
    have r2 : Nat.repr 2 = "2" := by decide
    have r3 : Nat.repr 3 = "3" := by decide
    have r4 : Nat.repr 4 = "4" := by decide
    have s1 : "wing_" ++ "1" = "wing_1" := by decide
    have s2 : "wing_" ++ "2" = "wing_2" := by decide
    have s3 : "wing_" ++ "3" = "wing_3" := by decide
    have s4 : "wing_" ++ "4" = "wing_4" := by decide
    have q1 : "fin_" ++ "1" = "fin_1" := by decide
    have q2 : "fin_" ++ "2" = "fin_2" := by decide
    simp [Dict.get?, Dict.set, x43Veh, r1, r2, r3, r4, s1, s2, s3, s4, q1, q2]
  · rw [b3 (ids 0, { reflection_axis := some "y", name := some "body" }) (by simp [X43.parts])]
    simp only [f0]; rfl
  · rw [b3 (ids 1, { name := some "wing1" }) (by simp [X43.parts])]
    simp only [f1]; rfl
  · rw [b3 (ids 2, { reflection_axis := some "y", name := some "wing2" }) (by simp [X43.parts])]
    simp only [f2]; rfl
  · rw [b3 (ids 3, { reflection_axis := some "y", name := some "inlet" }) (by simp [X43.parts])]
    simp only [f3]; rfl
  · rw [b3 (ids 4, { name := some "fin1" }) (by simp [X43.parts])]
    simp only [f4]; rfl
  · rw [b3 (ids 5, { name := some "fin2" }) (by simp [X43.parts])]
    simp only [f5]; rfl

/-- Generating a vehicle of plain components: what holds for each component on its own holds in the generated vehicle. -/
theorem generate_each (lib : Lib) (depth : ℕ) (st : VState) (hang : st.veh.angleOffset = 0) (htr : st.veh.transformations = [])
    (han : st.veh.analyseOn = none) (hn : st.veh.components.Nodup) (hc : ∀ k ∈ st.veh.components, (st.heap k).children = [])
    (Q : ℕ → Comp → Prop)
    (hg : ∀ k ∈ st.veh.components, ∃ g c, generatePatches st.heap k = (.ok (), g) ∧ pipeline 0 (g k) = (.ok (), c) ∧ Q k c) :
    ∃ st', generate lib depth st = (.ok (), st') ∧ st'.veh = { st.veh with generated := true } ∧
      ∀ k ∈ st.veh.components, Q k (st'.heap k) := by
  obtain ⟨st', h1, h2, h3⟩ := generate_plain lib depth st hang htr han (unshared_leaves _ _ hn hc)
    (fun k hk => by obtain ⟨g, c, g1, g2, -⟩ := hg k hk; exact ⟨g, c, g1, g2⟩)
  refine ⟨st', h1, h2, fun k hk => ?_⟩
  obtain ⟨g, c, g1, g2, g3⟩ := hg k hk
  obtain ⟨g', g1', g2'⟩ := h3 k hk
  rw [g1] at g1'
  obtain rfl := (Prod.mk.inj g1').2
  rw [g2] at g2'
  rw [← (Prod.mk.inj g2').2]
  exact g3

/-- The length of the leading edge of the fins. -/
noncomputable def X43.finEdge (p : X43.Params) : ℝ :=
  brokenLength (X43.finArgs p 1).p1 (X43.finArgs p 1).p2 (X43.finArgs p 1).p3

theorem x43_fin {p : X43.Params} (hp : X43Ok p) {ptan : ℝ → ℝ} (hT : FloatTan ptan) (sgn : ℝ) (n : ℕ) (hn : 1 ≤ n) (name : Option String)
    (H : Heap) (k : ℕ) (hk : H k = Fin.comp (rounded bisect01) ptan (X43.finArgs p sgn) n name) :
    ∃ g c, generatePatches H k = (.ok (), g) ∧ pipeline 0 (g k) = (.ok (), c) ∧
      ∃ M c', c.mesh = (.ok M, c') ∧ ClosedUpTo (6e-7 * X43.finEdge p + 1e-12) M.tris := by
  obtain ⟨hu, hb⟩ := X43.fin_uniform hp hT sgn
  obtain ⟨h', M, c', g1, g2, g3⟩ := C105_fin_partial (rounded bisect01) ptan (X43.finArgs p sgn) 0.02 6e-7 _ roundedBisect_finds hu hb n hn name
    H k hk
  obtain ⟨P, R, S, hopt⟩ := generatePatches_opts H k (by rw [hk]; simp [Comp.children, Fin.comp])
  rw [g1, hk] at hopt
  simp only at hopt
  refine ⟨h', h' k, g1, pipeline_plain _ (by rw [hopt]; rfl) (by rw [hopt]; rfl) (by rw [hopt]; rfl) (by rw [hopt]; rfl), M, c', g2,
    closedUpTo_mono ?_ g3⟩
  have hth := hu.thick
  have hs : (X43.finArgs p sgn).fin_thickness ≤ 200 := by
    have := hp.short
    have e : (X43.finArgs p sgn).fin_thickness = 0.02 * p.body_length / 3.7 := rfl
    rw [e, div_le_iff₀ (by norm_num)]; linarith
  have := hT.gap ((X43.finArgs p sgn).fin_thickness / 2) 0.02 (by linarith) (by linarith) (by norm_num)
  have e : brokenLength (X43.finArgs p sgn).p1 (X43.finArgs p sgn).p2 (X43.finArgs p sgn).p3 = X43.finEdge p := rfl
  unfold finGap
  rw [e]
  linarith

/-- What is known of the components of a generated X-43; `Mw n` is the mesh of one flap at resolution `n`. -/
structure X43.Meshes (p : X43.Params) (Mw : ℕ → TriMesh ℝ) (ids : ℕ → ℕ) (st0 st' : VState) : Prop where
  body : ∃ M c', (st'.heap (ids 0)).mesh = (.ok M, c') ∧ GapFree 1e-12 M.tris
  wing1 : ∃ n M c', 1 ≤ n ∧ (st0.heap (ids 1)).stl_resolution = .int n ∧ (st'.heap (ids 1)).mesh = (.ok M, c') ∧ M.tris = Mw n
  wing2 : ∃ n M c', 1 ≤ n ∧ (st0.heap (ids 2)).stl_resolution = .int n ∧ (st'.heap (ids 2)).mesh = (.ok M, c') ∧
    M.tris = Mw n ++ mapVerts (mirrorV 1) (Mw n)
  inlet : ∃ M c', (st'.heap (ids 3)).mesh = (.ok M, c') ∧ GapFree 1e-12 M.tris
  fin1 : ∃ M c', (st'.heap (ids 4)).mesh = (.ok M, c') ∧ ClosedUpTo (6e-7 * X43.finEdge p + 1e-12) M.tris
  fin2 : ∃ M c', (st'.heap (ids 5)).mesh = (.ok M, c') ∧ ClosedUpTo (6e-7 * X43.finEdge p + 1e-12) M.tris

theorem x43_meshes (ptan : ℝ → ℝ) (hT : FloatTan ptan) (h : Heap) (ids : ℕ → ℕ) (hi : Function.Injective ids) (kwargs : Dict String ℝ)
    (p : X43.Params) (ha : X43Args kwargs p) (hp : X43Ok p) :
    ∃ st Mw, X43.instanceOf bisect01 ptan h ids kwargs = .ok st ∧ st.veh = x43Veh ids ∧
      (st.heap (ids 1)).stl_resolution = .int 2 ∧ (st.heap (ids 2)).stl_resolution = .int 2 ∧
      (∀ n, 1 ≤ n → ClosedUpTo 1e-12 (Mw n) ∧ (Mw n).length = 19 * (4 * n ^ 2)) ∧
      ∀ st0 lib depth, Rescaled st st0 → ∃ st', generate lib depth st0 = (.ok (), st') ∧ st'.veh = { x43Veh ids with generated := true } ∧
        X43.Meshes p Mw ids st0 st' := by
  obtain ⟨a1, L1, e1, s1, t1, c1, y10, y11, y1T, k1, k1'⟩ := X43.body_smooth hp hT
  obtain ⟨a2, L2, e2, s2, t2, c2, k2, k2', -, -⟩ := X43.wing_smooth hp hT
  obtain ⟨a3, L3, e3, s3, t3, c3, y30, y31, y3T, k3, k3'⟩ := X43.inlet_smooth hp hT
  obtain ⟨w1, i1, m1⟩ := wing_break a1 t1 L1 s1.line k1 k1'
  obtain ⟨w2, i2, m2⟩ := wing_break a2 t2 L2 s2.line k2 k2'
  obtain ⟨w3, i3, m3⟩ := wing_break a3 t3 L3 s3.line k3 k3'
  obtain ⟨st, b1, b2, f0, f1, f2, f3, f4, f5⟩ := x43_instance ptan h ids hi kwargs p ha a1 a2 a3 w1 w2 w3 e1 e2 e3 i1 i2 i3
  have base : ∀ n : ℕ, ∃ h' M c', 1 ≤ n → generatePatches (fun _ => Wing.comp ptan w2 n none) 0 = (.ok (), h') ∧ (h' 0).mesh = (.ok M, c') ∧
      ClosedUpTo 1e-12 M.tris := by
    intro n
    by_cases hn : 1 ≤ n
    · obtain ⟨h', M, c', g1, g2, g3⟩ := C106_closed_wing_partial (rounded bisect01) ptan _ a2 w2 L2 _ _ _ _ 0 i2 s2 m2 c2
        (X43.flap_bends _ _ _) (X43.flap_bends _ _ _) (X43.flap_bends _ _ _) (X43.flap_bends _ _ _) n hn none
        (fun _ => Wing.comp ptan w2 n none) 0 rfl
      exact ⟨h', M, c', fun _ => ⟨g1, g2, by simpa using g3⟩⟩
    · exact ⟨h, ⟨[], []⟩, Wing.comp ptan w2, fun h => absurd h hn⟩
  choose hw Mw cw hbase using base
  refine ⟨st, fun n => (Mw n).tris, b1, b2, by rw [f1]; rfl, by rw [f2]; rfl, fun n hn => ⟨(hbase n hn).2.2, ?_⟩, ?_⟩
  · obtain ⟨z1, z2, -⟩ := hbase n hn
    have hnm := Wing.names (h := fun _ => Wing.comp ptan w2 n none) (id := 0) rfl z1
    obtain ⟨hw2, hLE, -⟩ := Wing.init_ok i2
    have hlen : ((hw n) 0).patches.length = 19 := by
      rw [← List.length_map (f := Prod.fst), hnm]
      unfold Wing.stageNames
      rw [hw2, c2, hLE, if_neg s2.le]
      rfl
    obtain ⟨P, R, S, hopt⟩ := generatePatches_opts (fun _ => Wing.comp ptan w2 n none) 0 (by simp [Comp.children, Wing.comp])
    rw [z1] at hopt
    simp only at hopt
    have hC := C52_mesh ((hw n) 0) n hn (by rw [hopt]; rfl) (by rw [hopt]; rfl) (by rw [hopt]; rfl) (by rw [hnm]; exact Wing.stageNames_nodup w2)
      (by intro h0; rw [h0] at hlen; simp at hlen)
    obtain ⟨M', c', k1, k2, k3⟩ := hC.1 _ (hC.2 _ _ z2)
    rw [z2] at k1
    rw [← hlen, ← k3, k2]
  intro st0 lib depth hr
  obtain ⟨n0, q0, r0⟩ := hr.wing (by norm_num) f0
  obtain ⟨n1, q1, r1⟩ := hr.wing (by norm_num) f1
  obtain ⟨n2, q2, r2⟩ := hr.wing (by norm_num) f2
  obtain ⟨n3, q3, r3⟩ := hr.wing (by norm_num) f3
  have hfin : ∀ k a nm, st.heap k = Fin.comp (rounded bisect01) ptan a 2 nm → ∃ n : ℕ, 1 ≤ n ∧
      st0.heap k = Fin.comp (rounded bisect01) ptan a n nm := by
    intro k a nm hk
    rcases hr.2 k with h | ⟨m, hm, h⟩
    · exact ⟨2, by norm_num, h.trans hk⟩
    · exact ⟨m, hm, by rw [h, hk]; rfl⟩
  obtain ⟨n4, q4, r4⟩ := hfin _ _ _ f4
  obtain ⟨n5, q5, r5⟩ := hfin _ _ _ f5
  have hv : st0.veh = x43Veh ids := hr.1.trans b2
  have hcs : st0.veh.components = [ids 0, ids 1, ids 2, ids 3, ids 4, ids 5] := by rw [hv]; rfl
  obtain ⟨g0, d0, g01, g02, M0, c0', g03, g04⟩ := half_body i1 s1 m1 c1 y10 y11 y1T n0 q0 st0.heap (ids 0) _ r0
  obtain ⟨g1, d1, M1, c1', g11, g12, g13, g14⟩ := plain_wing ptan w2 n1 q1 _ _ _ (hbase n1 q1).1 (hbase n1 q1).2.1 st0.heap (ids 1) _ r1
  obtain ⟨g2, d2, M2, c2', g21, g22, g23, g24⟩ := reflected_wing ptan w2 n2 q2 _ _ _ (hbase n2 q2).1 (hbase n2 q2).2.1 st0.heap (ids 2) _ r2
  obtain ⟨g3, d3, g31, g32, M3, c3', g33, g34⟩ := half_body i3 s3 m3 c3 y30 y31 y3T n3 q3 st0.heap (ids 3) _ r3
  obtain ⟨g4, d4, g41, g42, M4, c4', g43, g44⟩ := x43_fin hp hT 1 n4 q4 _ st0.heap (ids 4) r4
  obtain ⟨g5, d5, g51, g52, M5, c5', g53, g54⟩ := x43_fin hp hT (-1) n5 q5 _ st0.heap (ids 5) r5
  obtain ⟨st', h1, h2, h3⟩ := generate_each lib depth st0 (by rw [hv]; rfl) (by rw [hv]; rfl) (by rw [hv]; rfl)
    (by rw [hcs]; simp [hi.eq_iff])
    (by
      intro k hk
      rw [hcs] at hk
      simp only [List.mem_cons, List.not_mem_nil, or_false] at hk
      rcases hk with rfl | rfl | rfl | rfl | rfl | rfl
      · rw [r0]; rfl
      · rw [r1]; rfl
      · rw [r2]; rfl
      · rw [r3]; rfl
      · rw [r4]; rfl
      · rw [r5]; rfl)
    (fun k c => (k = ids 0 → c = d0) ∧ (k = ids 1 → c = d1) ∧ (k = ids 2 → c = d2) ∧ (k = ids 3 → c = d3) ∧ (k = ids 4 → c = d4) ∧
      (k = ids 5 → c = d5))
    (by
      intro k hk
      rw [hcs] at hk
      simp only [List.mem_cons, List.not_mem_nil, or_false] at hk
      rcases hk with rfl | rfl | rfl | rfl | rfl | rfl
      · exact ⟨g0, d0, g01, g02, by simp [hi.eq_iff]⟩
      · exact ⟨g1, d1, g11, g12, by simp [hi.eq_iff]⟩
      · exact ⟨g2, d2, g21, g22, by simp [hi.eq_iff]⟩
      · exact ⟨g3, d3, g31, g32, by simp [hi.eq_iff]⟩
      · exact ⟨g4, d4, g41, g42, by simp [hi.eq_iff]⟩
      · exact ⟨g5, d5, g51, g52, by simp [hi.eq_iff]⟩)
  rw [hcs] at h3
  refine ⟨st', h1, by rw [h2, hv], ?_⟩
  constructor
  · rw [(h3 (ids 0) (by simp)).1 rfl]; exact ⟨M0, c0', g03, g04⟩
  · rw [(h3 (ids 1) (by simp)).2.1 rfl]; exact ⟨n1, M1, c1', q1, by rw [r1]; rfl, g13, g14⟩
  · rw [(h3 (ids 2) (by simp)).2.2.1 rfl]; exact ⟨n2, M2, c2', q2, by rw [r2]; rfl, g23, g24⟩
  · rw [(h3 (ids 3) (by simp)).2.2.2.1 rfl]; exact ⟨M3, c3', g33, g34⟩
  · rw [(h3 (ids 4) (by simp)).2.2.2.2.1 rfl]; exact ⟨M4, c4', g43, g44⟩
  · rw [(h3 (ids 5) (by simp)).2.2.2.2.2 rfl]; exact ⟨M5, c5', g53, g54⟩

/-- C109 for the X-43: for every body of positive length (up to a kilometre) and width, whatever the slant angle, engine height, fin
height, flap and rudder angles, with flaps that start behind the middle of the wing and rudders that start behind the middle of the fin,
the generator returns a vehicle of the six named parts; at every mesh resolution the vehicle generates and every part has a mesh without
gaps: after moving vertices by at most `10⁻¹²` (for the fins: plus `6·10⁻⁷` of the length of the leading edge, the accuracy to which its break is found) and
turning over mirrored triangles it is closed. -/
theorem C109_x43 (ptan : ℝ → ℝ) (hT : FloatTan ptan) (h : Heap) (ids : ℕ → ℕ) (hi : Function.Injective ids) (kwargs : Dict String ℝ)
    (p : X43.Params) (ha : X43Args kwargs p) (hp : X43Ok p) :
    ∃ st, X43.instanceOf bisect01 ptan h ids kwargs = .ok st ∧ st.veh.components = [ids 0, ids 1, ids 2, ids 3, ids 4, ids 5] ∧
      st.veh.named = [("body", ids 0), ("wing1", ids 1), ("wing2", ids 2), ("inlet", ids 3), ("fin1", ids 4), ("fin2", ids 5)] ∧
      ∀ st0 lib depth, Rescaled st st0 → ∃ st', generate lib depth st0 = (.ok (), st') ∧
        (∀ i < 4, ∃ M c', (st'.heap (ids i)).mesh = (.ok M, c') ∧ GapFree 1e-12 M.tris) ∧
        (∀ i, 4 ≤ i → i < 6 → ∃ M c', (st'.heap (ids i)).mesh = (.ok M, c') ∧ GapFree (6e-7 * X43.finEdge p + 1e-12) M.tris) := by
  obtain ⟨st, Mw, b1, b2, -, -, b3, b4⟩ := x43_meshes ptan hT h ids hi kwargs p ha hp
  refine ⟨st, b1, by rw [b2]; rfl, by rw [b2]; rfl, fun st0 lib depth hr => ?_⟩
  obtain ⟨st', g1, -, g2⟩ := b4 st0 lib depth hr
  refine ⟨st', g1, ?_, ?_⟩
  · intro i hi4
    interval_cases i
    · exact g2.body
    · obtain ⟨n, M, c', m0, -, m2, m3⟩ := g2.wing1
      exact ⟨M, c', m2, by rw [m3]; exact (b3 n m0).1.watertight⟩
    · obtain ⟨n, M, c', m0, -, m2, m3⟩ := g2.wing2
      exact ⟨M, c', m2, by rw [m3]; exact (b3 n m0).1.doubled⟩
    · exact g2.inlet
  · intro i h4 h6
    interval_cases i
    · obtain ⟨M, c', m1, m2⟩ := g2.fin1
      exact ⟨M, c', m1, m2.watertight⟩
    · obtain ⟨M, c', m1, m2⟩ := g2.fin2
      exact ⟨M, c', m1, m2.watertight⟩

end HV
