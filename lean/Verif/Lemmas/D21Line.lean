import Verif.Lemmas.D21Edge
import Verif.Lemmas.PolylineRun
import Mathlib.Algebra.Order.Chebyshev

/-!
# The leading edge of the D-21 as a polyline
-/

namespace HV
open Spec Veh

theorem vdist_sqrt (u v : V) : vdist u v = √((u.x - v.x) ^ 2 + (u.y - v.y) ^ 2 + (u.z - v.z) ^ 2) := by
  rw [← Vec.abs_sub_eq_vdist, Vec.abs_eq_sqrt_dot]
  simp only [Vec.dot, Vec.sub_x, Vec.sub_y, Vec.sub_z]
  congr 1
  ring

/-- A polyline of three segments. -/
theorem polyline3 (s1 s2 s3 : PathObj) (l1 l2 l3 : ℝ) (e1 : s1.length = .ok l1) (e2 : s2.length = .ok l2) (e3 : s3.length = .ok l3)
    (p1 : 0 < l1) (p2 : 0 < l2) (p3 : 0 < l3) (c1 : ∀ t, ∃ v, s1.call t = .ok v) (c2 : ∀ t, ∃ v, s2.call t = .ok v)
    (c3 : ∀ t, ∃ v, s3.call t = .ok v) (T1 T2 : ℝ) (hT1 : T1 = l1 / (l1 + l2 + l3)) (hT2 : T2 = (l1 + l2) / (l1 + l2 + l3)) :
    ∃ P, Polyline [s1, s2, s3] = .ok P ∧ ∀ t, P.call t =
      if t ≤ T1 then s1.call (t / T1) else if t ≤ T2 then s2.call ((t - T1) / (T2 - T1)) else s3.call ((t - T2) / (1 - T2)) := by
  have le1 : lenOf s1 = l1 := by rw [lenOf, e1]
  have le2 : lenOf s2 = l2 := by rw [lenOf, e2]
  have le3 : lenOf s3 = l3 := by rw [lenOf, e3]
  obtain ⟨P, hP, -, -, hact, -, -, -⟩ := C09_polyline lenOf [s1, s2, s3] (by simp)
    (by
      intro s hs
      simp only [List.mem_cons, List.not_mem_nil, or_false] at hs
      rcases hs with rfl | rfl | rfl
      · rw [le1]; exact ⟨e1, p1⟩
      · rw [le2]; exact ⟨e2, p2⟩
      · rw [le3]; exact ⟨e3, p3⟩)
    (by
      intro s hs
      simp only [List.mem_cons, List.not_mem_nil, or_false] at hs
      rcases hs with rfl | rfl | rfl <;> assumption) (1 / 10 ^ 10)
  have b0 : bp lenOf [s1, s2, s3] 0 = 0 := by simp [bp]
  have b1 : bp lenOf [s1, s2, s3] 1 = T1 := by simp [bp, le1, le2, le3, hT1, add_assoc]
  have b2 : bp lenOf [s1, s2, s3] 2 = T2 := by simp [bp, le1, le2, le3, hT2, add_assoc]
  have b3 : bp lenOf [s1, s2, s3] 3 = 1 := by
    simp only [bp, List.take, List.map_cons, List.map_nil]
    rw [div_self]
    simp only [le1, le2, le3, List.sum_cons, List.sum_nil]
    positivity
  have k12 : T1 < T2 := by
    rw [hT1, hT2]; gcongr; linarith
  refine ⟨P, hP, fun t => ?_⟩
  split_ifs with h1 h2
  · rw [hact t 0 ⟨by simp, .inl rfl, .inr (by rw [b1]; exact h1)⟩]
    simp [b0, b1]
  · rw [hact t 1 ⟨by simp, .inr (by rw [b1]; linarith), .inr (by rw [b2]; exact h2)⟩]
    simp [b1, b2]
  · rw [hact t 2 ⟨by simp, .inr (by rw [b2]; linarith), .inl rfl⟩]
    simp [b2, b3]

namespace D21

/-- The curved part of the leading edge. -/
theorem bend_call (p : Params) (r : ℝ) : (Bezier [B1 p, ⟨0.5 * ((B1 p).x + (B2 p).x), (B1 p).y, 0⟩, B2 p]).call r =
    .ok ⟨-0.4 * p.L_w + (0.4 * p.L_w - 0.3) * r, 0.5 * p.W_w - 0.35 * p.W_w * r ^ 2, 0⟩ := by
  rw [X43.bezier3]
  congr 1
  ext <;> simp [B1, B2, A1, A0, TT, B0] <;> ring

/-- The distance along the chord of the curved part. -/
noncomputable def chord (p : Params) : ℝ := √((0.4 * p.L_w - 0.3) ^ 2 + (0.35 * p.W_w) ^ 2)

theorem bend_length (p : Params) (hL : 0.75 < p.L_w) : ∃ l, (Bezier [B1 p, ⟨0.5 * ((B1 p).x + (B2 p).x), (B1 p).y, 0⟩, B2 p]).length = .ok l ∧
    chord p ≤ l ∧ l ^ 2 ≤ (0.4 * p.L_w - 0.3) ^ 2 + 4 / 3 * (0.35 * p.W_w) ^ 2 := by
  set γ : ℝ → V := fun r => ⟨-0.4 * p.L_w + (0.4 * p.L_w - 0.3) * r, 0.5 * p.W_w - 0.35 * p.W_w * r ^ 2, 0⟩ with hγ
  obtain ⟨l, h1, h2, -⟩ := C16_length _ γ (bend_call p) 20 (by norm_num)
  have h3 := Path.length_eq _ γ 20 (by norm_num) (bend_call p)
  rw [h1] at h3
  have h4 := Except.ok.inj h3
  refine ⟨l, h1, ?_, ?_⟩
  · refine le_trans (le_of_eq ?_) h2
    rw [chord, vdist_sqrt]
    congr 1
    simp only [hγ]
    ring
  · rw [h4, polygonLength]
    refine (sq_sum_le_card_mul_sum_sq (s := Finset.range 20)).trans ?_
    have hd : ∀ i : ℕ, dist (toE (γ ((i : ℝ) / (20 : ℕ)))) (toE (γ (((i : ℝ) + 1) / (20 : ℕ)))) ^ 2 =
        ((0.4 * p.L_w - 0.3) / 20) ^ 2 + ((0.35 * p.W_w) * (2 * i + 1) / 400) ^ 2 := by
      intro i
      have := vdist_sqrt (γ ((i : ℝ) / (20 : ℕ))) (γ (((i : ℝ) + 1) / (20 : ℕ)))
      unfold vdist at this
      rw [this, Real.sq_sqrt (by positivity)]
      simp only [hγ]
      push_cast
      ring
    simp only [hd]
    simp only [Finset.sum_range_succ, Finset.sum_range_zero, Finset.card_range]
    push_cast
    nlinarith [sq_nonneg p.W_w]

/-- What is known of the leading edge. -/
structure EdgeOf (p : Params) (P : PathObj) (l1 l2 T1 T2 : ℝ) : Prop where
  call : ∀ t, P.call t = .ok ⟨ex p.L_w T1 T2 t, ey p.W_w T1 T2 t, 0⟩
  pos1 : 0 < l1
  pos2 : 0 < l2
  first : 0.5 * p.W_w ≤ l1
  bend : chord p ≤ l2
  bend' : l2 ^ 2 ≤ (0.4 * p.L_w - 0.3) ^ 2 + 4 / 3 * (0.35 * p.W_w) ^ 2
  total : l1 + l2 + 0.15 * p.W_w ≤ 1.1 * (p.L_w + p.W_w)
  T1 : T1 * (l1 + l2 + 0.15 * p.W_w) = l1
  T2 : T2 * (l1 + l2 + 0.15 * p.W_w) = l1 + l2

theorem edge_eq (p : Params) (hL : 0.75 < p.L_w) (hW : 0 < p.W_w) : ∃ P l1 l2 T1 T2, edge p = .ok P ∧ EdgeOf p P l1 l2 T1 T2 := by
  obtain ⟨l2, h1, h2, h3⟩ := bend_length p hL
  have hx : 0 < 0.4 * p.L_w - 0.3 := by linarith
  have p2 : 0 < l2 := lt_of_lt_of_le (Real.sqrt_pos.2 (by positivity)) h2
  have e1 : (Line (B0 p) (B1 p)).length = .ok √((0.6 * p.L_w) ^ 2 + (0.5 * p.W_w) ^ 2) := by
    show Except.ok _ = _
    rw [Vec.abs_sub_eq_vdist, vdist_sqrt]
    congr 2
    simp [B0, B1, A1, A0]
    ring
  have e3 : (Line (B2 p) (TT p)).length = .ok (0.15 * p.W_w) := by
    show Except.ok _ = _
    rw [Vec.abs_sub_eq_vdist, vdist_sqrt]
    congr 1
    rw [← Real.sqrt_sq (show 0 ≤ 0.15 * p.W_w by positivity)]
    congr 1
    simp [B2, TT, A0]
  set l1 := √((0.6 * p.L_w) ^ 2 + (0.5 * p.W_w) ^ 2) with hl1
  have p1 : 0 < l1 := Real.sqrt_pos.2 (by positivity)
  have f1 : 0.5 * p.W_w ≤ l1 := by
    rw [hl1]; apply Real.le_sqrt_of_sq_le; nlinarith
  have u1 : l1 ≤ 0.6 * p.L_w + 0.5 * p.W_w := by
    rw [hl1]; apply Real.sqrt_le_iff.2; constructor
    · positivity
    · nlinarith [mul_pos (show 0 < p.L_w by linarith) hW]
  have u2 : l2 ≤ (0.4 * p.L_w - 0.3) + 1.2 * (0.35 * p.W_w) := by
    apply abs_le_of_sq_le_sq' _ (by positivity) |>.2
    nlinarith [mul_pos hx hW, sq_nonneg p.W_w]
  have hs : 0 < l1 + l2 + 0.15 * p.W_w := by positivity
  obtain ⟨P, hP, hc⟩ := polyline3 _ _ _ l1 l2 (0.15 * p.W_w) e1 h1 e3 p1 p2 (by positivity) (fun t => ⟨_, rfl⟩) (fun t => ⟨_, bend_call p t⟩)
    (fun t => ⟨_, rfl⟩) _ _ rfl rfl
  refine ⟨P, l1, l2, _, _, hP, ?_, p1, p2, f1, h2, h3, by linarith, div_mul_cancel₀ _ hs.ne', div_mul_cancel₀ _ hs.ne'⟩
  intro t
  rw [hc]
  unfold ex ey
  split_ifs
  · show Except.ok _ = Except.ok _
    congr 1
    ext <;> simp [lineAt, B0, B1, A0, A1] <;> ring
  · exact bend_call p _
  · show Except.ok _ = Except.ok _
    congr 1
    ext <;> simp [lineAt, B2, TT, A0] <;> ring

namespace EdgeOf
variable {p : Params} {P : PathObj} {l1 l2 T1 T2 : ℝ} (h : EdgeOf p P l1 l2 T1 T2) (hL : 0.75 < p.L_w) (hW : 0 < p.W_w)
include h hW

theorem lenPos : 0 < l1 + l2 + 0.15 * p.W_w := by have := h.pos1; have := h.pos2; positivity

theorem T1_pos : 0 < T1 := by
  have h1 := h.T1; have h2 := h.pos1; have h3 := h.lenPos hW
  by_contra hc
  nlinarith

theorem T12 : T1 < T2 := by
  have h1 := h.T1; have h2 := h.T2; have h4 := h.pos2; have h3 := h.lenPos hW
  by_contra hc
  nlinarith

theorem T2_lt : T2 < 1 := by
  have h2 := h.T2; have h3 := h.lenPos hW
  by_contra hc
  nlinarith

omit hW in
theorem bend_ge : 0.35 * p.W_w ≤ l2 := by
  refine le_trans ?_ h.bend
  unfold chord
  apply Real.le_sqrt_of_sq_le; nlinarith [sq_nonneg (0.4 * p.L_w - 0.3)]

theorem falls : Rises (2 * (l1 + l2 + 0.15 * p.W_w)) (fun t => -ey p.W_w T1 T2 t) 0 1 := by
  have h1 := h.T1; have h2 := h.T2; have h3 := h.bend_ge; have h4 := h.first
  refine ey_falls (h.T1_pos hW) (h.T12 hW) (h.T2_lt hW) hW _ ?_ ?_ ?_
  · nlinarith
  · have : 2 * (l1 + l2 + 0.15 * p.W_w) * (T2 - T1) = 2 * l2 := by linarith
    linarith
  · have : 2 * (l1 + l2 + 0.15 * p.W_w) * (1 - T2) = 2 * (0.15 * p.W_w) := by linarith
    linarith

end EdgeOf
end D21
end HV
