import Verif.Props.WingSize
import Verif.Props.D21
import Verif.Props.Refex

/-!
# C140: the dimensions of the wings of the D-21 and of the ReFEX
-/

namespace HV
open Spec

namespace Spec

/-- The mesh lies in the box. -/
def InBox (m : TriMesh ℝ) (x0 x1 y0 y1 z0 z1 : ℝ) : Prop :=
  ∀ v, IsVertex v m → x0 ≤ v.x ∧ v.x ≤ x1 ∧ y0 ≤ v.y ∧ v.y ≤ y1 ∧ z0 ≤ v.z ∧ v.z ≤ z1

end Spec

namespace ReFEX
variable {p : Params} {shift : V}

/-- The wing over its planform: a rectangle with one corner cut off. -/
theorem wing_planform (hp : ReFEXOk p shift) {ptan : ℝ → ℝ} (hT : FloatTan ptan) : ∃ a L wd, wingArgs p = .ok a ∧
    SmoothWing ptan (fun x y => (((-1 * x + 0 * y ≤ p.L_b - 0.1 * p.wing_length ∧ 0 * x + -1 * y ≤ 0) ∧ 0 * x + 1 * y ≤ p.wing_span + p.h) ∧
        1 * x + 0 * y ≤ -p.L_b + 1.1 * p.wing_length) ∧
        (p.wing_span + p.h) * x + 0.6 * p.wing_length * y ≤ (p.wing_span + p.h) * (-p.L_b + 1.1 * p.wing_length))
      a L (fun _ _ => p.h - wing_thickness p) (fun _ _ => p.h) wd 1e-12 ∧ FlatPlanform a L wd 0.03 ∧ wd 0 = 0.01 ∧ wd 1 = 0.01 ∧
    a.t_B1 = none ∧ a.close_wing = false ∧ (L 0).x ≤ a.A1.x ∧ a.A1.x ≤ (L 1).x ∧
    a.A0 = A0 p ∧ a.A1 = A1 p ∧ a.B0 = B0 p ∧ a.TT = TT p ∧ a.flap_length = 0.1 * p.wing_length ∧ a.flap_angle = 0 := by
  have hL := hp.chord
  have hs := hp.span
  have hf := hp.fin
  have hf2 := hp.finThin
  obtain ⟨P, h1, h2, h3, h4, h5, h6, h7⟩ := lines_edge [(B0 p, B1 p), (B1 p, TT p)] (by simp)
    (by
      intro e he
      simp only [List.mem_cons, List.not_mem_nil, or_false] at he
      rcases he with rfl | rfl <;> intro hc
      · have := congrArg Vec.x hc; simp only [B1, flap_length, Vec.add_x] at this; linarith
      · have := congrArg Vec.y hc; simp [B1, B0, TT, A0] at this; linarith)
    (by
      intro i hi
      simp only [List.length_cons, List.length_nil] at hi
      obtain rfl : i = 0 := by omega
      rfl)
  have b0x : (B0 p).x = -p.L_b + 0.1 * p.wing_length := by simp [B0, A0, bb0, flap_length]
  have b0y : (B0 p).y = p.wing_span + p.h := by simp [B0, A0]
  have b1x : (B1 p).x = -p.L_b + 0.5 * p.wing_length := by simp [B1, B0, A0, bb0, flap_length]
  have b1y : (B1 p).y = p.wing_span + p.h := by simp [B1, B0, A0]
  have tx : (TT p).x = -p.L_b + 1.1 * p.wing_length := by simp [TT, A0, bb0, flap_length]; ring
  have ty : (TT p).y = 0 := by simp [TT, A0]
  have a0x : (A0 p).x = -p.L_b + 0.1 * p.wing_length := by simp [A0, bb0, flap_length]
  have a1x : (A1 p).x = -p.L_b + 0.6 * p.wing_length := by simp [A1, TT, A0, bb0, flap_length]; ring
  have a0y : (A0 p).y = 0 := rfl
  have a1y : (A1 p).y = 0 := rfl
  simp only [List.map_cons, List.map_nil] at h1
  simp only [List.head_cons, List.getLast_cons, List.getLast_singleton, ne_eq, not_false_eq_true, List.cons_ne_nil] at h3 h4
  have z0 : (0 : ℝ) ∈ Set.Icc (0 : ℝ) 1 := ⟨le_rfl, zero_le_one⟩
  have z1 : (1 : ℝ) ∈ Set.Icc (0 : ℝ) 1 := ⟨zero_le_one, le_rfl⟩
  have mx := h6 (by
    intro e he
    simp only [List.mem_cons, List.not_mem_nil, or_false] at he
    rcases he with rfl | rfl <;> simp only [b0x, b1x, tx] <;> linarith)
  have my := h7 (by
    intro e he
    simp only [List.mem_cons, List.not_mem_nil, or_false] at he
    rcases he with rfl | rfl <;> simp only [b0y, b1y, ty] <;> linarith)
  -- where a point of the leading edge lies
  have seg : ∀ t ∈ Set.Icc (0 : ℝ) 1, ((fnOf P t).y = p.wing_span + p.h ∧ (fnOf P t).x ≤ -p.L_b + 0.5 * p.wing_length) ∨
      ((p.wing_span + p.h) * (fnOf P t).x + 0.6 * p.wing_length * (fnOf P t).y = (p.wing_span + p.h) * (-p.L_b + 1.1 * p.wing_length) ∧
        -p.L_b + 0.5 * p.wing_length ≤ (fnOf P t).x) := by
    intro t ht
    obtain ⟨e, he, u, hu, hq⟩ := h5 t ht
    rw [hq]
    simp only [List.mem_cons, List.not_mem_nil, or_false] at he
    rcases he with rfl | rfl
    · refine .inl ?_
      simp only [lineAt, Vec.add_x, Vec.add_y, Vec.mul_x, Vec.mul_y, b0x, b0y, b1x, b1y]
      exact ⟨by ring, by nlinarith [hu.2]⟩
    · refine .inr ?_
      simp only [lineAt, Vec.add_x, Vec.add_y, Vec.mul_x, Vec.mul_y, tx, ty, b1x, b1y]
      exact ⟨by ring, by nlinarith [hu.1]⟩
  have over : LiesOver (fun x y => (((-1 * x + 0 * y ≤ p.L_b - 0.1 * p.wing_length ∧ 0 * x + -1 * y ≤ 0) ∧ 0 * x + 1 * y ≤ p.wing_span + p.h) ∧
      1 * x + 0 * y ≤ -p.L_b + 1.1 * p.wing_length) ∧
      (p.wing_span + p.h) * x + 0.6 * p.wing_length * y ≤ (p.wing_span + p.h) * (-p.L_b + 1.1 * p.wing_length)) (A0 p) (A1 p) (fnOf P) := by
    have sl := mul_pos hs hL
    refine (((((liesOver_half (-1) 0 _ ?_ ?_ ?_ (.inr ?_)).and (liesOver_half 0 (-1) _ ?_ ?_ ?_ (.inl ?_))).and (liesOver_half 0 1 _ ?_ ?_ ?_ (.inr ?_))).and
      (liesOver_half 1 0 _ ?_ ?_ ?_ (.inl ?_))).and (liesOver_half (p.wing_span + p.h) (0.6 * p.wing_length) _ ?_ ?_ ?_ (.inl ?_)))
    · rw [a0x]; linarith
    · rw [a1x]; linarith
    · intro t ht
      have := mx 0 z0 t ht ht.1
      rw [h3, b0x] at this
      linarith
    · intro t ht u hu htu
      linarith [mx t ht u hu htu]
    · rw [a0y]; linarith
    · rw [a1y]; linarith
    · intro t ht
      have := my t ht 1 z1 ht.2
      rw [h4, ty] at this
      linarith
    · intro t ht u hu htu
      linarith [my t ht u hu htu]
    · rw [a0y]; linarith
    · rw [a1y]; linarith
    · intro t ht
      have := my 0 z0 t ht ht.1
      rw [h3, b0y] at this
      linarith
    · intro t ht u hu htu
      linarith [my t ht u hu htu]
    · rw [a0x]; linarith
    · rw [a1x]; linarith
    · intro t ht
      have := mx t ht 1 z1 ht.2
      rw [h4, tx] at this
      linarith
    · intro t ht u hu htu
      linarith [mx t ht u hu htu]
    · rw [a0x, a0y]; linarith
    · rw [a1x, a1y]; linarith
    · intro t ht
      rcases seg t ht with ⟨k1, k2⟩ | ⟨k1, k2⟩
      · rw [k1]
        have := mul_le_mul_of_nonneg_left k2 hs.le
        linarith
      · exact k1.le
    · intro t ht u hu htu
      have k := mul_le_mul_of_nonneg_left (mx t ht u hu htu) hs.le
      rcases seg t ht with ⟨k1, k2⟩ | ⟨k1, k2⟩ <;> rcases seg u hu with ⟨l1, l2⟩ | ⟨l1, l2⟩
      · rw [k1, l1]; linarith
      · rw [l1, k1]
        have := mul_le_mul_of_nonneg_left k2 hs.le
        linarith
      · rw [k1, l1]
        have := mx t ht u hu htu
        rw [show (fnOf P u).x = -p.L_b + 0.5 * p.wing_length by linarith]
        linarith
      · rw [k1, l1]
  have w1 : 0 < wing_thickness p ∧ wing_thickness p ≤ 180 := by unfold wing_thickness; constructor <;> linarith
  refine ⟨{ A0 := A0 p, A1 := A1 p, TT := TT p, B0 := B0 p, line := P, top_tf := fun _ _ _ => .ok ⟨0, 0, p.h - wing_thickness p⟩,
            bot_tf := fun _ _ _ => .ok ⟨0, 0, p.h⟩, LE_wf := some leWidth, flap_length := flap_length p },
    fnOf P, fun r => 0.01 * (1 - r) ^ 2 + 2 * 0.05 * r * (1 - r) + 0.01 * r ^ 2,
    by unfold wingArgs; rw [h1, ok_bind]; rfl,
    ⟨hT.like, lower_bezier, X43.up_custom, rfl, .inl rfl, h2, h3, h4,
     fun x y z _ => rfl, fun x y z _ => rfl, over, .inl rfl,
     fun t _ => leWidth_eq t, ?_, ?_, ?_, ?_⟩, ⟨rfl, rfl, ?_, ?_⟩, by norm_num, by norm_num, rfl, rfl, ?_, ?_, rfl, rfl, rfl, rfl, rfl, rfl⟩
  · intro t ht; linarith [w1.1]
  · intro t ht; linarith [leWidth_ge ht]
  · intro t ht
    refine hT.fits _ _ ?_ (by linarith [leWidth_ge ht])
    rw [abs_le]; constructor <;> linarith [w1.1, w1.2]
  · intro t ht
    exact hT.gap _ _ (by linarith [w1.1]) (by linarith [w1.2]) (by linarith [leWidth_ge ht])
  · intro t ht
    obtain ⟨e, he, u, hu, hq⟩ := h5 t ht
    rw [hq]
    simp only [List.mem_cons, List.not_mem_nil, or_false] at he
    rcases he with rfl | rfl <;> simp [lineAt, B0, B1, A0, TT]
  · intro t ht
    nlinarith [sq_nonneg (t - 0.5)]
  · rw [h3, b0x, a1x]; linarith
  · rw [h4, tx, a1x]; linarith

end ReFEX

/-- C140: the wings of the ReFEX end with their flaps at the base of the body, reach `wing_span` beyond the side of the body, are `wing_length` long at the
root, have their corner cut off from 0.4 of that length to the front, and are three times as thick as the canards, with the lower side at the side of the body;
the rounded edge adds at most `0.03`. -/
theorem C140_refex_wing (p : ReFEX.Params) (shift : V) (hp : ReFEXOk p shift) {ptan : ℝ → ℝ} (hT : FloatTan ptan) :
    ∃ a w, ReFEX.wingArgs p = .ok a ∧ Wing.init (rounded bisect01) a = .ok w ∧
      ∀ (n : ℕ), 1 ≤ n → ∀ (name : Option String) (H : Heap) (id : ℕ), H id = Wing.comp ptan w n name →
    ∃ h' M c', generatePatches H id = (.ok (), h') ∧ (h' id).mesh = (.ok M, c') ∧
      InBox M.tris (-p.L_b - 0.03) (-p.L_b + 1.1 * p.wing_length + 0.03) (0 - 0.03) (p.wing_span + p.h + 0.03) (p.h - 3 * p.fin_thickness - 1e-12) (p.h + 1e-12) ∧
      (∀ v, IsVertex v M.tris → (p.wing_span + p.h) * (v.x - (-p.L_b + 1.1 * p.wing_length)) + 0.6 * p.wing_length * v.y ≤
        √((p.wing_span + p.h) ^ 2 + (0.6 * p.wing_length) ^ 2) * 0.03) ∧
      (∀ z ∈ [p.h - 3 * p.fin_thickness, p.h], ∀ q ∈ [(-p.L_b + 0.1 * p.wing_length, 0), (-p.L_b + 0.6 * p.wing_length, 0),
          (-p.L_b + 1.1 * p.wing_length, 0), (-p.L_b + 0.1 * p.wing_length, p.wing_span + p.h)], IsVertex ⟨q.1, q.2, z⟩ M.tris) ∧
      IsVertex ⟨-p.L_b, 0, p.h - 1.5 * p.fin_thickness⟩ M.tris ∧ IsVertex ⟨-p.L_b, p.wing_span + p.h, p.h - 1.5 * p.fin_thickness⟩ M.tris ∧
      IsVertex ⟨-p.L_b + 0.1 * p.wing_length, p.wing_span + p.h + 0.01, p.h - 1.5 * p.fin_thickness⟩ M.tris ∧
      IsVertex ⟨-p.L_b + 1.1 * p.wing_length + 0.01, 0, p.h - 1.5 * p.fin_thickness⟩ M.tris := by
  obtain ⟨a, L, wd, ea, sa, fa, w0, w1, tb, tc, l0, l1, eA0, eA1, eB0, eTT, efl, efa⟩ := ReFEX.wing_planform hp hT
  obtain ⟨w, ew, hw1⟩ := wing_break a tb L sa.line l0 l1
  refine ⟨a, w, ea, ew, fun n hn name H id hid => ?_⟩
  obtain ⟨h', M, c', g1, g2, g3⟩ := C140_wing _ ptan _ a w L _ _ wd 0.03 _ ew sa fa hw1 n hn name H id hid
  have hL := hp.chord
  have hs := hp.span
  have hf := hp.fin
  have b0x : (ReFEX.B0 p).x = -p.L_b + 0.1 * p.wing_length := by simp [ReFEX.B0, ReFEX.A0, ReFEX.bb0, ReFEX.flap_length]
  have b0y : (ReFEX.B0 p).y = p.wing_span + p.h := by simp [ReFEX.B0, ReFEX.A0]
  have tx : (ReFEX.TT p).x = -p.L_b + 1.1 * p.wing_length := by simp [ReFEX.TT, ReFEX.A0, ReFEX.bb0, ReFEX.flap_length]; ring
  have ty : (ReFEX.TT p).y = 0 := by simp [ReFEX.TT, ReFEX.A0]
  have a0x : (ReFEX.A0 p).x = -p.L_b + 0.1 * p.wing_length := by simp [ReFEX.A0, ReFEX.bb0, ReFEX.flap_length]
  have a1x : (ReFEX.A1 p).x = -p.L_b + 0.6 * p.wing_length := by simp [ReFEX.A1, ReFEX.TT, ReFEX.A0, ReFEX.bb0, ReFEX.flap_length]; ring
  have a0y : (ReFEX.A0 p).y = 0 := rfl
  have a1y : (ReFEX.A1 p).y = 0 := rfl
  have wt : ReFEX.wing_thickness p = 3 * p.fin_thickness := rfl
  have tipA : flapEnd a (fun _ _ => p.h - ReFEX.wing_thickness p) (fun _ _ => p.h) a.A0 = ⟨-p.L_b, 0, p.h - 1.5 * p.fin_thickness⟩ := by
    simp only [flapEnd, efl, efa, eA0, a0x, a0y, Real.cos_zero, Real.sin_zero, wt]
    ext <;> simp only <;> ring
  have tipB : flapEnd a (fun _ _ => p.h - ReFEX.wing_thickness p) (fun _ _ => p.h) a.B0 = ⟨-p.L_b, p.wing_span + p.h, p.h - 1.5 * p.fin_thickness⟩ := by
    simp only [flapEnd, efl, efa, eB0, b0x, b0y, Real.cos_zero, Real.sin_zero, wt]
    ext <;> simp only <;> ring
  refine ⟨h', M, c', g1, g2, ?_, ?_, ?_, ?_, ?_, ?_, ?_⟩
  · intro v hv
    refine (g3.within v hv).box ?_
    rintro q (⟨⟨⟨⟨⟨k1, k2⟩, k3⟩, k4⟩, k5⟩, hz⟩ | rfl | rfl)
    · rw [wt] at hz
      refine ⟨by linarith, by linarith, by linarith, by linarith, ?_, ?_⟩ <;> rcases hz with hz | hz <;> rw [hz] <;> linarith
    · rw [tipA]
      refine ⟨le_rfl, ?_, le_rfl, ?_, ?_, ?_⟩ <;> simp only <;> linarith
    · rw [tipB]
      refine ⟨le_rfl, ?_, ?_, le_rfl, ?_, ?_⟩ <;> simp only <;> linarith
  · intro v hv
    have hq : 0 ≤ (p.wing_span + p.h) ^ 2 + (0.6 * p.wing_length) ^ 2 := by positivity
    have sl := mul_pos hs hL
    have := g3.within v hv (p.wing_span + p.h) (0.6 * p.wing_length) 0 ((p.wing_span + p.h) * (-p.L_b + 1.1 * p.wing_length)) _ (Real.sqrt_nonneg _)
      (by rw [Real.sq_sqrt hq]) (by
      rintro q (⟨⟨-, k5⟩, hz⟩ | rfl | rfl)
      · linarith
      · rw [tipA]; simp only; linarith
      · rw [tipB]; simp only; linarith)
    rw [abs_zero] at this
    linarith
  · intro z hz q hq
    have key := g3.skins
    rw [eA0, eA1, eB0, eTT, wt] at key
    have kz : ∀ r : V, r ∈ [ReFEX.A0 p, ReFEX.A1 p, ReFEX.B0 p, ReFEX.TT p] → IsVertex ⟨r.x, r.y, z⟩ M.tris := by
      intro r hr
      obtain ⟨u1, u2⟩ := key r hr
      simp only [List.mem_cons, List.not_mem_nil, or_false] at hz
      rcases hz with rfl | rfl
      · exact u1
      · exact u2
    simp only [List.mem_cons, List.not_mem_nil, or_false] at hq
    rcases hq with rfl | rfl | rfl | rfl
    · have := kz (ReFEX.A0 p) (by simp); rwa [a0x, a0y] at this
    · have := kz (ReFEX.A1 p) (by simp); rwa [a1x, a1y] at this
    · have := kz (ReFEX.TT p) (by simp); rwa [tx, ty] at this
    · have := kz (ReFEX.B0 p) (by simp); rwa [b0x, b0y] at this
  · rw [← tipA]; exact g3.flap _ (by simp)
  · rw [← tipB]; exact g3.flap _ (by simp)
  · have := g3.side
    rw [eB0, b0x, b0y, w0, wt] at this
    convert this using 2
    ring
  · have := g3.front
    rw [eTT, tx, ty, w1, wt] at this
    convert this using 2
    ring

/-- The default ReFEX: its wings reach `wing_span` beyond the body. -/
example : ReFEXOk refexDefault ReFEX.defaultShift := refexDefault_ok.2

namespace D21
variable {p : Params} {P : PathObj} {l1 l2 T1 T2 : ℝ}

theorem lw_nonneg (h : EdgeOf p P l1 l2 T1 T2) (hp : D21Ok p) (x : ℝ) (h0 : -p.L_w ≤ x) (h1 : x ≤ -0.3) : 0 ≤ lw P x := by
  have e0 : ex p.L_w T1 T2 0 = -p.L_w := ex_zero (h.T1_pos hp.span) (h.T12 hp.span)
  have e1 : ex p.L_w T1 T2 1 = -0.3 := ex_one (h.T1_pos hp.span) (h.T12 hp.span) (h.T2_lt hp.span)
  obtain ⟨t, ht, he⟩ := scipyBisect_total (fun t => do let q ← P.call t; return q.x - x) (fun t => ex p.L_w T1 T2 t - x)
    (fun t _ => by simp only [h.call, ok_bind]; rfl)
    (mul_nonpos_of_nonpos_of_nonneg (by rw [e0]; linarith) (by rw [e1]; linarith))
  have hl : localWs bisect01 P x = .ok (ey p.W_w T1 T2 t) := by
    unfold localWs bisect01
    rw [he, ok_bind, h.call, ok_bind]
    rfl
  rw [show lw P x = ey p.W_w T1 T2 t by unfold lw; rw [hl]; rfl]
  have := (mono h hp).inw t ht 1 ⟨zero_le_one, le_rfl⟩ ht.2
  rw [L_one h hp] at this
  exact le_trans (by simp [TT]) this

theorem usedWs_pos {l : ℝ} (h : 0 ≤ l) : 0 < usedWs l := by
  unfold usedWs
  split_ifs with h0
  · norm_num
  · exact lt_of_le_of_ne h (Ne.symm h0)

/-- The upper skin is at most 0.5 above the flat part. -/
theorem topH_ge (h : EdgeOf p P l1 l2 T1 T2) (hp : D21Ok p) (x y : ℝ) (h0 : -p.L_w ≤ x) (h1 : x ≤ -0.3) (hy : 0 ≤ y) :
    -(0.15 * p.R_b / 2) - 0.5 ≤ topH p P x y := by
  unfold topH
  have := div_nonneg hy (usedWs_pos (lw_nonneg h hp x h0 h1)).le
  rw [show wing_thickness p = 0.15 * p.R_b from rfl]
  linarith

end D21

/-- C140: the wings of the D-21 reach `W_w` to the side at the rear, run from `L_w` behind the nose to `0.3` behind it, have their lower side `0.075 R_b`
below the middle and their upper side at the root `0.5` above the other edge of that thickness; their flaps are `0.1 L_w` long and turned by the flap angle. The
rounded edge adds at most `0.06`. -/
theorem C140_d21_wing (p : D21.Params) (hp : D21Ok p) {ptan : ℝ → ℝ} (hT : FloatTan ptan) :
    ∃ P w, D21.edge p = .ok P ∧ Wing.init (rounded bisect01) (D21.wingArgs bisect01 P p) = .ok w ∧
      ∀ (n : ℕ), 1 ≤ n → D21Coarse p n → ∀ (name : Option String) (H : Heap) (id : ℕ), H id = Wing.comp ptan w n name →
    ∃ h' M c', generatePatches H id = (.ok (), h') ∧ (h' id).mesh = (.ok M, c') ∧
      (∀ v, IsVertex v M.tris → v.x ≤ max (-0.3) (-p.L_w - 0.1 * p.L_w * Real.cos (p.flap_angle * (Real.pi / 180))) + 0.06 ∧
        min (-p.L_w) (-p.L_w - 0.1 * p.L_w * Real.cos (p.flap_angle * (Real.pi / 180))) - 0.06 ≤ v.x ∧ 0 - 0.06 ≤ v.y ∧ v.y ≤ p.W_w + 0.06 ∧
        -(0.15 * p.R_b / 2) - 0.5 - 0.1 * p.L_w - 1e-12 ≤ v.z) ∧
      (∀ q ∈ [(-p.L_w, 0), (-0.4 * p.L_w, 0), (-0.3, 0), (-p.L_w, p.W_w)], IsVertex ⟨q.1, q.2, 0.15 * p.R_b / 2⟩ M.tris) ∧
      (∀ x ∈ [-p.L_w, -0.4 * p.L_w, -0.3], IsVertex ⟨x, 0, -(0.15 * p.R_b / 2) - 0.5⟩ M.tris) ∧
      IsVertex ⟨-p.L_w - 0.1 * p.L_w * Real.cos (p.flap_angle * (Real.pi / 180)), 0, -0.25 + 0.1 * p.L_w * Real.sin (p.flap_angle * (Real.pi / 180))⟩ M.tris ∧
      (∃ z, IsVertex ⟨-p.L_w, p.W_w + 0.01, z⟩ M.tris) ∧ IsVertex ⟨-0.3 + 0.01, 0, -0.25⟩ M.tris := by
  obtain ⟨P, l1, l2, T1, T2, e2, hE⟩ := D21.edge_eq p hp.wing hp.span
  obtain ⟨w, ew, hw1, hw2⟩ := D21.wing_init hE hp
  obtain ⟨hwa, hon⟩ := D21.wing_on hE hp hT w ew hw1
  refine ⟨P, w, e2, ew, fun n hn hc name H id hid => ?_⟩
  have hw := hp.wing
  have hs := hp.span
  have hr := hp.radius
  have hon' : WingOn ptan (fun x y => (-p.L_w ≤ x ∧ x ≤ -0.3 ∧ 0 ≤ y) ∧ y ≤ p.W_w) (D21.S T2) w
      ⟨D21.L p T1 T2, D21.topH p P, fun _ _ => D21.wing_thickness p / 2, fun t => 0.01 + 0.18 * t * (1 - t)⟩ (0.5 * (1 + w.t_B1)) 1e-12 :=
    { hon with
      top := fun x y z e => hon.top x y z e.1
      bot := fun x y z e => hon.bot x y z e.1
      cov := by
        refine hon.cov.and (liesOver_low (D21.mono hE hp) ?_ ?_ ?_ p.W_w ?_)
        · rw [hwa]; simp [D21.wingArgs, D21.A0]
        · rw [hwa]; rfl
        · rw [D21.L_one hE hp]; simp [D21.TT]
        · rw [D21.L_zero hE hp]; exact le_rfl }
  obtain ⟨h', M, c', g1, g2, g3⟩ := wing_size_on hon' n hn (D21.sampled hE hp n hn hc _ hw1 hw2) 0.06
    ⟨by rw [hwa]; simp [D21.wingArgs, D21.A0], by rw [hwa]; rfl, fun t _ => rfl, fun t _ => by
      show 0.01 + 0.18 * t * (1 - t) ≤ 0.06
      nlinarith [sq_nonneg (t - 0.5)]⟩ name H id hid
  rw [hwa] at g3
  change WingSized _ (D21.wingArgs bisect01 P p) (D21.topH p P) (fun _ _ => D21.wing_thickness p / 2) (0.01 + 0.18 * 0 * (1 - 0)) (0.01 + 0.18 * 1 * (1 - 1)) _ _ _ _
    at g3
  have wt : D21.wing_thickness p = 0.15 * p.R_b := rfl
  have eA0 : (D21.wingArgs bisect01 P p).A0 = ⟨-p.L_w, 0, 0⟩ := by ext <;> simp [D21.wingArgs, D21.A0]
  have eA1 : (D21.wingArgs bisect01 P p).A1 = ⟨-0.4 * p.L_w, 0, 0⟩ := by ext <;> simp [D21.wingArgs, D21.A1, D21.A0]; ring
  have eB0 : (D21.wingArgs bisect01 P p).B0 = ⟨-p.L_w, p.W_w, 0⟩ := by ext <;> simp [D21.wingArgs, D21.B0, D21.A0]
  have eTT : (D21.wingArgs bisect01 P p).TT = ⟨-0.3, 0, 0⟩ := by ext <;> simp [D21.wingArgs, D21.TT, D21.A0]
  have efl : (D21.wingArgs bisect01 P p).flap_length = 0.1 * p.L_w := rfl
  have efa : (D21.wingArgs bisect01 P p).flap_angle = p.flap_angle * (Real.pi / 180) := rfl
  have th0 : ∀ x, D21.topH p P x 0 = -(0.15 * p.R_b / 2) - 0.5 := by
    intro x
    simp only [D21.topH, wt, zero_div]
    ring
  set φ := p.flap_angle * (Real.pi / 180)
  have hsin := Real.neg_one_le_sin φ
  have tipA : flapEnd (D21.wingArgs bisect01 P p) (D21.topH p P) (fun _ _ => D21.wing_thickness p / 2) (D21.wingArgs bisect01 P p).A0 =
      ⟨-p.L_w - 0.1 * p.L_w * Real.cos φ, 0, -0.25 + 0.1 * p.L_w * Real.sin φ⟩ := by
    simp only [flapEnd, efl, efa, eA0, th0, wt]
    ext <;> simp only
    ring
  have tipB : ∃ z, flapEnd (D21.wingArgs bisect01 P p) (D21.topH p P) (fun _ _ => D21.wing_thickness p / 2) (D21.wingArgs bisect01 P p).B0 =
      ⟨-p.L_w - 0.1 * p.L_w * Real.cos φ, p.W_w, z⟩ ∧ -(0.15 * p.R_b / 2) - 0.5 - 0.1 * p.L_w ≤ z := by
    simp only [flapEnd, efl, efa, eB0, wt]
    refine ⟨_, rfl, ?_⟩
    have := D21.topH_ge hE hp (-p.L_w) p.W_w le_rfl (by linarith) hs.le
    have := mul_le_mul_of_nonneg_left hsin (show 0 ≤ 0.1 * p.L_w by linarith)
    linarith
  obtain ⟨zB, tipB, hzB⟩ := tipB
  refine ⟨h', M, c', g1, g2, ?_, ?_, ?_, ?_, ?_, ?_⟩
  · intro v hv
    have k := g3.within v hv
    have onq : ∀ q, OnWing (fun x y => (-p.L_w ≤ x ∧ x ≤ -0.3 ∧ 0 ≤ y) ∧ y ≤ p.W_w) (D21.wingArgs bisect01 P p) (D21.topH p P)
        (fun _ _ => D21.wing_thickness p / 2) q → q.x ≤ max (-0.3) (-p.L_w - 0.1 * p.L_w * Real.cos φ) ∧
        min (-p.L_w) (-p.L_w - 0.1 * p.L_w * Real.cos φ) ≤ q.x ∧ 0 ≤ q.y ∧ q.y ≤ p.W_w ∧ -(0.15 * p.R_b / 2) - 0.5 - 0.1 * p.L_w ≤ q.z := by
      rintro q (⟨⟨⟨k1, k2, k3⟩, k4⟩, hz⟩ | rfl | rfl)
      · refine ⟨le_max_of_le_left k2, min_le_of_left_le k1, k3, k4, ?_⟩
        rcases hz with hz | hz
        · have := D21.topH_ge hE hp q.x q.y k1 k2 k3
          rw [hz]; linarith
        · rw [hz, wt]; linarith
      · rw [tipA]
        refine ⟨le_max_right _ _, min_le_right _ _, le_rfl, hs.le, ?_⟩
        have := mul_le_mul_of_nonneg_left hsin (show 0 ≤ 0.1 * p.L_w by linarith)
        simp only
        linarith
      · rw [tipB]
        exact ⟨le_max_right _ _, min_le_right _ _, hs.le, le_rfl, hzB⟩
    have a1 := k 1 0 0 _ 1 zero_le_one (by norm_num) (fun q hq => by
      have := (onq q hq).1
      rw [one_mul, zero_mul, zero_mul, add_zero, add_zero]; exact this)
    have a2 := k (-1) 0 0 (-min (-p.L_w) (-p.L_w - 0.1 * p.L_w * Real.cos φ)) 1 zero_le_one (by norm_num) (fun q hq => by linarith [(onq q hq).2.1])
    have a3 := k 0 (-1) 0 0 1 zero_le_one (by norm_num) (fun q hq => by linarith [(onq q hq).2.2.1])
    have a4 := k 0 1 0 p.W_w 1 zero_le_one (by norm_num) (fun q hq => by linarith [(onq q hq).2.2.2.1])
    have a5 := k 0 0 (-1) (-(-(0.15 * p.R_b / 2) - 0.5 - 0.1 * p.L_w)) 0 le_rfl (by norm_num) (fun q hq => by linarith [(onq q hq).2.2.2.2])
    simp only [abs_zero, abs_one, abs_neg, zero_mul, one_mul] at a1 a2 a3 a4 a5
    refine ⟨?_, ?_, ?_, ?_, ?_⟩ <;> linarith
  · have key := g3.skins
    rw [eA0, eA1, eB0, eTT, wt] at key
    intro q hq
    simp only [List.mem_cons, List.not_mem_nil, or_false] at hq
    rcases hq with rfl | rfl | rfl | rfl
    · exact (key ⟨-p.L_w, 0, 0⟩ (by simp)).2
    · exact (key ⟨-0.4 * p.L_w, 0, 0⟩ (by simp)).2
    · exact (key ⟨-0.3, 0, 0⟩ (by simp)).2
    · exact (key ⟨-p.L_w, p.W_w, 0⟩ (by simp)).2
  · have key := g3.skins
    rw [eA0, eA1, eB0, eTT] at key
    intro x hx
    simp only [List.mem_cons, List.not_mem_nil, or_false] at hx
    rcases hx with rfl | rfl | rfl
    · have := (key ⟨-p.L_w, 0, 0⟩ (by simp)).1; simp only [th0] at this; exact this
    · have := (key ⟨-0.4 * p.L_w, 0, 0⟩ (by simp)).1; simp only [th0] at this; exact this
    · have := (key ⟨-0.3, 0, 0⟩ (by simp)).1; simp only [th0] at this; exact this
  · rw [← tipA]; exact g3.flap _ (by simp)
  · have := g3.side
    rw [eB0] at this
    simp only [mul_zero, zero_mul, add_zero] at this
    exact ⟨_, this⟩
  · have := g3.front
    rw [eTT] at this
    simp only [th0, wt, sub_self, mul_zero, add_zero] at this
    convert this using 2
    ring

/-- The D-21 with the default attributes at the resolutions up to 4. -/
example (n : ℕ) (h : n ≤ 4) : D21Ok d21Default ∧ D21Coarse d21Default n := ⟨d21Default_ok.2, d21Default_coarse n h⟩

end HV
