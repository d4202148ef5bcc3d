import Verif.Props.X43Size
import Verif.Props.Joined

/-!
# C157: the fins of the X-43 and the slope of its body
-/

namespace HV
open Spec Veh

namespace Spec

/-- The tangent of the angle by which the body of an X-43 slopes. -/
noncomputable def X43.tanSlope (p : X43.Params) : ℝ := Real.tan (p.body_angle * Real.pi / 180)

/-- The rear end of the foot of a fin of an X-43 with its rudder. -/
noncomputable def x43Heel (p : X43.Params) (s : ℝ) : V := ⟨0, s * (p.body_width / 2) + p.rudder_length * Real.sin (p.rudder_angle * Real.pi / 180),
  (p.fin_length - p.body_length) * X43.tanSlope p⟩

/-- The drop of the body over the length of a fin is more than the height of the body: `0.1 / 3.7 + 0.025` of its length, and some for the rounded edges. -/
def X43.SteepDown (p : X43.Params) : Prop :=
  p.body_length * (0.1 / 3.7 + 0.025) + 0.05 * |X43.tanSlope p + 0.075 / 3.7 + 0.025| + 1e-12 < -p.fin_length * X43.tanSlope p

/-- The rise of the body over the length of a fin is more than the depth of the body. -/
def X43.SteepUp (p : X43.Params) : Prop :=
  p.body_length * (0.1 / 3.7) + 0.05 * |X43.tanSlope p - 0.075 / 3.7| + 1e-12 < p.fin_length * X43.tanSlope p

end Spec

theorem x43_heel {p : X43.Params} {s : ℝ} {m : TriMesh ℝ} (h : X43Fin p s m) : IsVertex (x43Heel p s) m := by
  have := h.rudder 0 (by simp)
  rw [sub_zero] at this
  exact this

/-- C157, in part: on an X-43 whose body does not slope and whose rudders are straight, at every mesh resolution, the rear end of the foot of each fin lies in
the body.  Missing: sloping bodies, see `C157_x43_violated`. -/
theorem C157_x43_partial (ptan : ℝ → ℝ) (hT : FloatTan ptan) (h : Heap) (ids : ℕ → ℕ) (hi : Function.Injective ids) (kwargs : Dict String ℝ)
    (p : X43.Params) (ha : X43Args kwargs p) (hp : X43Sized p) (h0 : p.body_angle = 0) (h1 : p.rudder_angle = 0) :
    ∃ st, X43.instanceOf bisect01 ptan h ids kwargs = .ok st ∧ ∀ st0 lib depth, Rescaled st st0 →
      ∃ st' B c, generate lib depth st0 = (.ok (), st') ∧ (st'.heap (ids 0)).mesh = (.ok B, c) ∧
      ∀ e ∈ [(4, (1 : ℝ)), (5, -1)], ∃ M c, (st'.heap (ids e.1)).mesh = (.ok M, c) ∧ IsVertex (x43Heel p e.2) M.tris ∧ InHull B.tris (x43Heel p e.2) := by
  obtain ⟨st, e1, -, -, e2⟩ := C147_x43 ptan hT h ids hi kwargs p ha hp
  refine ⟨st, e1, fun st0 lib depth hr => ?_⟩
  obtain ⟨st', g1, ⟨B, c, b1, b2⟩, -, -, -, ⟨M4, c4, f1, f2⟩, ⟨M5, c5, f3, f4⟩⟩ := e2 st0 lib depth hr
  have key : ∀ s : ℝ, s = 1 ∨ s = -1 → InHull B.tris (x43Heel p s) := by
    intro s hs k l m d hv
    have v1 := hv _ (b2.sides 1 (.inl rfl))
    have v2 := hv _ (b2.sides (-1) (.inr rfl))
    have hw := hp.toX43Ok.width
    simp only [h0, zero_mul, zero_div, Real.tan_zero, mul_zero] at v1 v2
    simp only [x43Heel, X43.tanSlope, h0, h1, zero_mul, zero_div, Real.tan_zero, Real.sin_zero, mul_zero, add_zero]
    rcases abs_cases l with ⟨e, _⟩ | ⟨e, _⟩ <;> rcases hs with rfl | rfl <;> nlinarith
  refine ⟨st', B, c, g1, b1, fun e he => ?_⟩
  simp only [List.mem_cons, List.not_mem_nil, or_false] at he
  rcases he with rfl | rfl
  · exact ⟨M4, c4, f1, x43_heel f2, key 1 (.inl rfl)⟩
  · exact ⟨M5, c5, f3, x43_heel f4, key (-1) (.inr rfl)⟩

/-- C157 is violated: the foot of a fin is level (`x43.py:276-282`), it does not follow the slope of the body.  For every sensible X-43 whose body slopes by more
than its height over the length of a fin, downwards or upwards, at every mesh resolution, the rear end of the foot of each fin is outside of the body; downwards it
floats above the body, upwards it sticks out below it. -/
theorem C157_x43_violated (ptan : ℝ → ℝ) (hT : FloatTan ptan) (h : Heap) (ids : ℕ → ℕ) (hi : Function.Injective ids) (kwargs : Dict String ℝ)
    (p : X43.Params) (ha : X43Args kwargs p) (hp : X43Sized p) (hs : X43.SteepDown p ∨ X43.SteepUp p) :
    ∃ st, X43.instanceOf bisect01 ptan h ids kwargs = .ok st ∧ ∀ st0 lib depth, Rescaled st st0 →
      ∃ st' B c, generate lib depth st0 = (.ok (), st') ∧ (st'.heap (ids 0)).mesh = (.ok B, c) ∧
      ∀ e ∈ [(4, (1 : ℝ)), (5, -1)], ∃ M c, (st'.heap (ids e.1)).mesh = (.ok M, c) ∧ IsVertex (x43Heel p e.2) M.tris ∧
        ¬ InHull B.tris (x43Heel p e.2) ∧
        ∀ q, OnMesh B.tris q → q.x = 0 → (X43.SteepDown p → (x43Heel p e.2).z < q.z) ∧ (X43.SteepUp p → q.z < (x43Heel p e.2).z) := by
  obtain ⟨st, e1, -, -, e2⟩ := C147_x43 ptan hT h ids hi kwargs p ha hp
  refine ⟨st, e1, fun st0 lib depth hr => ?_⟩
  obtain ⟨st', g1, ⟨B, c, b1, b2⟩, -, -, -, ⟨M4, c4, f1, f2⟩, ⟨M5, c5, f3, f4⟩⟩ := e2 st0 lib depth hr
  have over : ∀ q, InHull B.tris q → (q.x - p.body_length) * (X43.tanSlope p + 0.075 / 3.7 + 0.025) - 0.025 * p.body_length / 3.7 -
      0.05 * |X43.tanSlope p + 0.075 / 3.7 + 0.025| - 1e-12 ≤ q.z := by
    intro q hq
    have := hq (-(X43.tanSlope p + 0.075 / 3.7 + 0.025)) 0 1 (p.body_length * (X43.tanSlope p + 0.075 / 3.7 + 0.025) + 0.025 * p.body_length / 3.7 +
      0.05 * |X43.tanSlope p + 0.075 / 3.7 + 0.025| + 1e-12) (fun v hv => by have := b2.over v hv; unfold X43.tanSlope; linarith)
    linarith
  have under : ∀ q, InHull B.tris q → q.z ≤ (q.x - p.body_length) * (X43.tanSlope p - 0.075 / 3.7) + 0.025 * p.body_length / 3.7 +
      0.05 * |X43.tanSlope p - 0.075 / 3.7| + 1e-12 := by
    intro q hq
    have := hq (X43.tanSlope p - 0.075 / 3.7) 0 (-1) (-p.body_length * (X43.tanSlope p - 0.075 / 3.7) + 0.025 * p.body_length / 3.7 +
      0.05 * |X43.tanSlope p - 0.075 / 3.7| + 1e-12) (fun v hv => by have := b2.under v hv; unfold X43.tanSlope; linarith)
    linarith
  have down : X43.SteepDown p → ∀ s q, InHull B.tris q → q.x = 0 → (x43Heel p s).z < q.z := by
    intro hd s q hq hx
    have := over q hq
    rw [hx] at this
    unfold X43.SteepDown at hd
    simp only [x43Heel]
    generalize |X43.tanSlope p + 0.075 / 3.7 + 0.025| = A at this hd
    norm_num at this hd ⊢
    linarith
  have up : X43.SteepUp p → ∀ s q, InHull B.tris q → q.x = 0 → q.z < (x43Heel p s).z := by
    intro hd s q hq hx
    have := under q hq
    rw [hx] at this
    unfold X43.SteepUp at hd
    simp only [x43Heel]
    generalize |X43.tanSlope p - 0.075 / 3.7| = A at this hd
    norm_num at this hd ⊢
    linarith
  have key : ∀ s, ¬ InHull B.tris (x43Heel p s) ∧
      ∀ q, OnMesh B.tris q → q.x = 0 → (X43.SteepDown p → (x43Heel p s).z < q.z) ∧ (X43.SteepUp p → q.z < (x43Heel p s).z) := fun s =>
    ⟨fun hh => by
      rcases hs with hs | hs
      · exact lt_irrefl _ (down hs s _ hh rfl)
      · exact lt_irrefl _ (up hs s _ hh rfl),
      fun q hq hx => ⟨fun hd => down hd s q (OnMesh.inHull hq) hx, fun hd => up hd s q (OnMesh.inHull hq) hx⟩⟩
  refine ⟨st', B, c, g1, b1, fun e he => ?_⟩
  simp only [List.mem_cons, List.not_mem_nil, or_false] at he
  rcases he with rfl | rfl
  · exact ⟨M4, c4, f1, x43_heel f2, key 1⟩
  · exact ⟨M5, c5, f3, x43_heel f4, key (-1)⟩

/-- The tangent of fifteen degrees. -/
theorem tan_fifteen : 0.2617 ≤ Real.tan (15 * Real.pi / 180) ∧ Real.tan (15 * Real.pi / 180) ≤ 1 := by
  have hpi := Real.pi_gt_d4
  have h1 : 0 < 15 * Real.pi / 180 := by positivity
  have h2 : 15 * Real.pi / 180 < Real.pi / 4 := by linarith
  refine ⟨by have := Real.lt_tan h1 (by linarith); linarith, ?_⟩
  rw [← Real.tan_pi_div_four]
  exact (Real.tan_lt_tan_of_lt_of_lt_pi_div_two (by linarith) (by linarith) h2).le

/-- The X-43 with a body sloping by fifteen degrees, up or down, meets the hypotheses of `C157_x43_violated`; the default one those of `C157_x43_partial`. -/
example : (X43Args [("body_angle", -15)] { x43Default with body_angle := -15 } ∧ X43Sized { x43Default with body_angle := -15 } ∧
      X43.SteepDown { x43Default with body_angle := -15 }) ∧
    (X43Args [("body_angle", 15)] { x43Default with body_angle := 15 } ∧ X43Sized { x43Default with body_angle := 15 } ∧
      X43.SteepUp { x43Default with body_angle := 15 }) ∧ X43Args [] x43Default ∧ X43Sized x43Default ∧ x43Default.body_angle = 0 ∧
      x43Default.rudder_angle = 0 := by
  have hp : X43Sized x43Default := ⟨x43Default_ok.2, by norm_num [x43Default], by norm_num [x43Default], by norm_num [x43Default],
    by norm_num [x43Default], by norm_num [x43Default], by norm_num [x43Default], by norm_num [x43Default], by norm_num [x43Default]⟩
  obtain ⟨t1, t2⟩ := tan_fifteen
  have e : (-15 : ℝ) * Real.pi / 180 = -(15 * Real.pi / 180) := by ring
  refine ⟨⟨?_, ⟨⟨hp.1.1, hp.1.2, hp.1.3, hp.1.4, hp.1.5, hp.1.6, hp.1.7, hp.1.8⟩, hp.2, hp.3, hp.4, hp.5, hp.6, hp.7, hp.8, hp.9⟩, ?_⟩,
    ⟨?_, ⟨⟨hp.1.1, hp.1.2, hp.1.3, hp.1.4, hp.1.5, hp.1.6, hp.1.7, hp.1.8⟩, hp.2, hp.3, hp.4, hp.5, hp.6, hp.7, hp.8, hp.9⟩, ?_⟩, x43Default_ok.1, hp, rfl, rfl⟩
  · refine ⟨by decide, ?_, ?_, .inl (by simp), ?_, ?_, ?_, ?_, ?_, ?_, ?_, ?_, ?_, ?_⟩ <;> exact .inr ⟨by simp, rfl⟩
  · simp only [X43.SteepDown, X43.tanSlope, e, Real.tan_neg, x43Default]
    rcases abs_cases (-Real.tan (15 * Real.pi / 180) + 0.075 / 3.7 + 0.025) with ⟨e, _⟩ | ⟨e, _⟩ <;> rw [e] <;> norm_num <;> norm_num at t1 <;> linarith
  · refine ⟨by decide, ?_, ?_, .inl (by simp), ?_, ?_, ?_, ?_, ?_, ?_, ?_, ?_, ?_, ?_⟩ <;> exact .inr ⟨by simp, rfl⟩
  · simp only [X43.SteepUp, X43.tanSlope, x43Default]
    rcases abs_cases (Real.tan (15 * Real.pi / 180) - 0.075 / 3.7) with ⟨e, _⟩ | ⟨e, _⟩ <;> rw [e] <;> norm_num <;> norm_num at t1 <;> linarith

end HV
