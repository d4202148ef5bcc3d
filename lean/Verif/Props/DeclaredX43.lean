import Verif.Props.DeclaredUsed
import Verif.Props.X43Size

/-!
# C172: the parameters of the X-43 are used
-/

namespace HV
open Spec Veh

/-- What two vehicles agree in if their parts have the same meshes. -/
structure Spec.X43Agree (p p' : X43.Params) : Prop where
  length : p.body_length = p'.body_length
  width : p.body_width = p'.body_width
  wing : p.wing_length = p'.wing_length
  span : |p.wing_span - p'.wing_span| ≤ 0.03
  fin : p.fin_length = p'.fin_length
  /-- Up to the rounded edges, for vehicles of the same angle. -/
  height : p.body_angle = p'.body_angle → |p.fin_height - p'.fin_height| ≤ 0.03
  engine : p.body_angle = p'.body_angle →
    |p.engine_h - p'.engine_h| ≤ 0.001 * |Real.tan (p.body_angle * Real.pi / 180) - 0.075 / 3.7| + 1e-12
  /-- The angle of the body, by the drop of the underside at the rear. -/
  angle : p.body_length * |Real.tan (p.body_angle * Real.pi / 180) - Real.tan (p'.body_angle * Real.pi / 180)| ≤
    0.05 * max |Real.tan (p.body_angle * Real.pi / 180) - 0.075 / 3.7| |Real.tan (p'.body_angle * Real.pi / 180) - 0.075 / 3.7| + 1e-12
  /-- The sweep of the rear edge, for equal flaps turned by at most a right angle. -/
  sweep : p.flap_length = p'.flap_length → p.flap_angle = p'.flap_angle → 0 ≤ Real.cos p.flap_angle → |p.wing_TE_back - p'.wing_TE_back| ≤ 0.05
  /-- The rudders, if they reach out of the fins. -/
  rudder : 0.01 * p.body_length / 3.7 ≤ |p.rudder_length * Real.sin (p.rudder_angle * Real.pi / 180)| →
    0.01 * p.body_length / 3.7 ≤ |p'.rudder_length * Real.sin (p'.rudder_angle * Real.pi / 180)| →
    |(|p.rudder_length * Real.sin (p.rudder_angle * Real.pi / 180)| - |p'.rudder_length * Real.sin (p'.rudder_angle * Real.pi / 180)|)| ≤ 1e-12
  /-- The flaps of level vehicles, if they reach out of the wings. -/
  flap : p.body_angle = 0 → p'.body_angle = 0 → 0.015 * p.body_length / 3.7 ≤ |p.flap_length * Real.sin p.flap_angle| →
    0.015 * p.body_length / 3.7 ≤ |p'.flap_length * Real.sin p'.flap_angle| →
    |(|p.flap_length * Real.sin p.flap_angle| - |p'.flap_length * Real.sin p'.flap_angle|)| ≤ 1e-12

/-- One direction of the comparison of the dimensions. -/
theorem x43_compare {p p' : X43.Params} {m0 m1 m3 m4 : TriMesh ℝ} (a0 : X43Body p m0) (a1 : X43Wing p m1) (a3 : X43Inlet p m3) (a4 : X43Fin p 1 m4)
    (b0 : X43Body p' m0) (b1 : X43Wing p' m1) (b3 : X43Inlet p' m3) (b4 : X43Fin p' 1 m4) :
    p.body_length ≤ p'.body_length ∧ p.body_width ≤ p'.body_width ∧ p.wing_length ≤ p'.wing_length ∧
      p.body_width / 2 + p.wing_span ≤ p'.body_width / 2 + p'.wing_span + 0.03 ∧ p.fin_length ≤ p'.fin_length := by
  have k0 := (b0.within _ a0.nose).2.1
  obtain ⟨y, -, -, hy⟩ := a1.front
  have k1 := (b1.within _ hy).2.1
  have k2 := (b1.within _ a1.side).2.2
  obtain ⟨z, hz⟩ := a3.sides 1 (.inl rfl)
  have k3 := (abs_le.1 (b3.within _ hz).2.2).2
  have k4 := (b4.within _ a4.front).2.1
  simp only at k0 k1 k2 k3 k4
  refine ⟨by linarith, by linarith, by linarith, by linarith, by linarith⟩

/-- The same for the height of the fins and of the engine, for vehicles of the same angle. -/
theorem x43_compare_heights {p p' : X43.Params} {m3 m4 : TriMesh ℝ} (eL : p.body_length = p'.body_length) (eF : p.fin_length = p'.fin_length)
    (eA : p.body_angle = p'.body_angle) (a3 : X43Engine p m3) (a4 : X43Fin p 1 m4) (b3 : X43Inlet p' m3) (b4 : X43Fin p' 1 m4) :
    p.fin_height ≤ p'.fin_height + 0.03 ∧ p.engine_h ≤ p'.engine_h + (0.001 * |Real.tan (p.body_angle * Real.pi / 180) - 0.075 / 3.7| + 1e-12) := by
  have k4 := (b4.within _ a4.top).2.2.2.1
  obtain ⟨x, -, -, hx⟩ := a3
  have k3 := b3.under _ hx
  simp only [← eL, ← eF, ← eA] at k3 k4
  exact ⟨by linarith, by linarith⟩

/-- The same for the angle of the body, the sweep, the rudders and the flaps. -/
theorem x43_compare_angles {p p' : X43.Params} {m0 m1 m4 : TriMesh ℝ} (eL : p.body_length = p'.body_length) (eW : p.body_width = p'.body_width)
    (a0 : X43Body p m0) (a1 : X43Wing p m1) (a4 : X43Fin p 1 m4) (b0 : X43Body p' m0) (b1 : X43Wing p' m1) (b4 : X43Fin p' 1 m4) :
    p.body_length * (Real.tan (p'.body_angle * Real.pi / 180) - Real.tan (p.body_angle * Real.pi / 180)) ≤
        0.05 * |Real.tan (p'.body_angle * Real.pi / 180) - 0.075 / 3.7| + 1e-12 ∧
      (p.flap_length = p'.flap_length → p.flap_angle = p'.flap_angle → 0 ≤ Real.cos p.flap_angle → p.wing_TE_back ≤ p'.wing_TE_back + 0.05) ∧
      (0.01 * p.body_length / 3.7 ≤ |p'.rudder_length * Real.sin (p'.rudder_angle * Real.pi / 180)| →
        |p.rudder_length * Real.sin (p.rudder_angle * Real.pi / 180)| ≤ |p'.rudder_length * Real.sin (p'.rudder_angle * Real.pi / 180)| + 1e-12) ∧
      (p.body_angle = 0 → p'.body_angle = 0 → 0.015 * p.body_length / 3.7 ≤ |p'.flap_length * Real.sin p'.flap_angle| →
        |p.flap_length * Real.sin p.flap_angle| ≤ |p'.flap_length * Real.sin p'.flap_angle| + 1e-12) := by
  refine ⟨?_, fun e1 e2 hc => ?_, fun hr => ?_, fun z z' hf => ?_⟩
  · have k := b0.under _ a0.keel
    simp only [← eL] at k
    generalize |Real.tan (p'.body_angle * Real.pi / 180) - 0.075 / 3.7| = A at k ⊢
    generalize Real.tan (p'.body_angle * Real.pi / 180) = u at k ⊢
    generalize Real.tan (p.body_angle * Real.pi / 180) = v at k ⊢
    have e : (0 - p.body_length) * (u - 0.075 / 3.7) + 0.025 * p.body_length / 3.7 - p.body_length * (0.1 / 3.7 - v) = -(p.body_length * (u - v)) := by
      ring
    linarith
  · have k := (b1.within _ a1.tip).1
    simp only [← e1, ← e2, abs_of_nonneg hc] at k
    linarith
  · have k := (b4.within _ (a4.rudder 0 (by simp))).2.2.1
    simp only [← eW, ← eL, max_eq_right hr, one_mul, add_sub_cancel_left] at k
    exact k
  · have k := b1.flat _ a1.root
    simp only [← eL, z, z', zero_mul, zero_div, Real.tan_zero, mul_zero, add_zero, abs_zero, zero_add, sub_zero, max_eq_right hf] at k
    exact k

/-- C172 for the X-43, in part: two vehicles have the same meshes only if they agree in length and width of the body, in the length of the wings and
in the length of the fins, and, up to the rounded edges, in the span of the wings, in the angle of the body, for the same angle of the body in the
heights of fins and engine, for the same flaps in the sweep, and in how far rudders and, for a level body, flaps reach out (missing: differences
below these bounds). -/
theorem C172_x43_used_partial (ptan : ℝ → ℝ) (hT : FloatTan ptan) (h : Heap) (ids : ℕ → ℕ) (hi : Function.Injective ids)
    (kw kw' : Dict String ℝ) (p p' : X43.Params) (ha : X43Args kw p) (ha' : X43Args kw' p') (hp : X43Sized p) (hp' : X43Sized p')
    (lib : Lib) (depth : ℕ) :
    ∃ (st st' g g' : VState) (M M' : ℕ → StlMesh), X43.instanceOf bisect01 ptan h ids kw = .ok st ∧
      X43.instanceOf bisect01 ptan h ids kw' = .ok st' ∧ generate lib depth st = (.ok (), g) ∧ generate lib depth st' = (.ok (), g') ∧
      (∀ i < 6, ∃ c, (g.heap (ids i)).mesh = (.ok (M i), c)) ∧ (∀ i < 6, ∃ c, (g'.heap (ids i)).mesh = (.ok (M' i), c)) ∧
      ((∀ i < 6, (M i).tris = (M' i).tris) → X43Agree p p') := by
  have pick : ∀ {q : X43.Params} {kw : Dict String ℝ}, X43Args kw q → X43Sized q → ∃ (st g : VState) (M : ℕ → StlMesh),
      X43.instanceOf bisect01 ptan h ids kw = .ok st ∧ generate lib depth st = (.ok (), g) ∧
      (∀ i < 6, ∃ c, (g.heap (ids i)).mesh = (.ok (M i), c)) ∧ X43Body q (M 0).tris ∧ X43Wing q (M 1).tris ∧ X43Inlet q (M 3).tris ∧
      X43Engine q (M 3).tris ∧ X43Fin q 1 (M 4).tris := by
    intro q kw hq hs
    obtain ⟨st, e1, -, e0, e2⟩ := C147_x43 ptan hT h ids hi kw q hq hs
    obtain ⟨g, e3, ⟨M0, c0, u0, v0⟩, ⟨M1, c1, u1, v1⟩, ⟨M2, c2, -, u2, -, -⟩, ⟨M3, c3, u3, v3, w3⟩, ⟨M4, c4, u4, v4⟩, ⟨M5, c5, u5, -⟩⟩ :=
      e2 st lib depth ⟨rfl, fun k => .inl rfl⟩
    refine ⟨st, g, fun i => match i with | 0 => M0 | 1 => M1 | 2 => M2 | 3 => M3 | 4 => M4 | _ => M5, e1, e3, ?_, v0, v1, v3,
      w3 4 (by norm_num) e0, v4⟩
    intro i h6
    interval_cases i
    · exact ⟨c0, u0⟩
    · exact ⟨c1, u1⟩
    · exact ⟨c2, u2⟩
    · exact ⟨c3, u3⟩
    · exact ⟨c4, u4⟩
    · exact ⟨c5, u5⟩
  obtain ⟨st, g, M, a1, a2, a3, A0, A1, A3, A3', A4⟩ := pick ha hp
  obtain ⟨st', g', M', b1, b2, b3, B0, B1, B3, B3', B4⟩ := pick ha' hp'
  refine ⟨st, st', g, g', M, M', a1, b1, a2, b2, a3, b3, fun e => ?_⟩
  rw [← e 0 (by norm_num)] at B0
  rw [← e 1 (by norm_num)] at B1
  rw [← e 3 (by norm_num)] at B3 B3'
  rw [← e 4 (by norm_num)] at B4
  obtain ⟨r1, r2, r3, r4, r5⟩ := x43_compare A0 A1 A3 A4 B0 B1 B3 B4
  obtain ⟨s1, s2, s3, s4, s5⟩ := x43_compare B0 B1 B3 B4 A0 A1 A3 A4
  have eL := le_antisymm r1 s1
  have eF := le_antisymm r5 s5
  have eW := le_antisymm r2 s2
  obtain ⟨u1, u2, u3, u4⟩ := x43_compare_angles eL eW A0 A1 A4 B0 B1 B4
  obtain ⟨w1, w2, w3, w4⟩ := x43_compare_angles eL.symm eW.symm B0 B1 B4 A0 A1 A4
  rw [← eL] at w1 w3 w4
  have heights := fun eA => x43_compare_heights eL eF eA A3' A4 B3 B4
  have heights' := fun eA => x43_compare_heights eL.symm eF.symm eA B3' B4 A3 A4
  refine ⟨eL, eW, le_antisymm r3 s3, abs_le.2 ⟨by linarith, by linarith⟩, eF, fun eA => ?_, fun eA => ?_, ?_, fun e1 e2 hc => ?_, fun h1 h2 => ?_,
    fun z z' h1 h2 => ?_⟩
  · exact abs_le.2 ⟨by linarith [(heights' eA.symm).1], by linarith [(heights eA).1]⟩
  · have t4 := (heights' eA.symm).2
    rw [← eA] at t4
    exact abs_le.2 ⟨by linarith, by linarith [(heights eA).2]⟩
  · have hl := hp.toX43Ok.length
    have m1 := le_max_left |Real.tan (p.body_angle * Real.pi / 180) - 0.075 / 3.7| |Real.tan (p'.body_angle * Real.pi / 180) - 0.075 / 3.7|
    have m2 := le_max_right |Real.tan (p.body_angle * Real.pi / 180) - 0.075 / 3.7| |Real.tan (p'.body_angle * Real.pi / 180) - 0.075 / 3.7|
    rw [← abs_of_pos hl, ← abs_mul]
    exact abs_le.2 ⟨by linarith, by linarith⟩
  · exact abs_le.2 ⟨by linarith [w2 e1.symm e2.symm (e2 ▸ hc)], by linarith [u2 e1 e2 hc]⟩
  · exact abs_le.2 ⟨by linarith [w3 h1], by linarith [u3 h2]⟩
  · exact abs_le.2 ⟨by linarith [w4 z' z h1], by linarith [u4 z z' h2]⟩

/-- The X-43 without arguments meets the hypotheses. -/
example : X43Args [] x43Default ∧ X43Sized x43Default :=
  ⟨x43Default_ok.1, x43Default_ok.2, by norm_num [x43Default], by norm_num [x43Default], by norm_num [x43Default],
    by norm_num [x43Default], by norm_num [x43Default], by norm_num [x43Default], by norm_num [x43Default], by norm_num [x43Default]⟩

end HV
