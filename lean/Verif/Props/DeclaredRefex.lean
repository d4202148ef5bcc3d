import Verif.Props.DeclaredUsed
import Verif.Props.RefexSize

/-!
# C172: most parameters of the ReFEX are used
-/

namespace HV
open Spec Veh

/-- What two vehicles agree in if their parts have the same meshes. -/
structure Spec.ReFEXAgree (p p' : ReFEX.Params) : Prop where
  body : p.L_b = p'.L_b
  radius : p.h = p'.h
  fairing : p.L_o = p'.L_o
  radii : p.r_n = p'.r_n ↔ p.r_o = p'.r_o
  wing : |p.wing_span - p'.wing_span| ≤ 0.02
  fins : |p.fin_thickness - p'.fin_thickness| ≤ 1e-12
  tail : |p.tail_height - p'.tail_height| ≤ 0.04
  tailThickness : |p.tail_thickness - p'.tail_thickness| ≤ 2e-12

/-- One direction of the comparison of wings and tails. -/
theorem refex_compare {p p' : ReFEX.Params} {shift shift' : V} {m4 m6 : TriMesh ℝ} (eh : p.h = p'.h) (a4 : ReFEXPart p shift m4 4)
    (a6 : ReFEXPart p shift m6 6) (b4 : ReFEXPart p' shift' m4 4) (b6 : ReFEXPart p' shift' m6 6) :
    p.wing_span ≤ p'.wing_span + 0.02 ∧ p.fin_thickness ≤ p'.fin_thickness + 1e-12 ∧ p.tail_height ≤ p'.tail_height + 0.04 ∧
      p.tail_thickness ≤ p'.tail_thickness + 2e-12 := by
  obtain ⟨-, c2, c3, -⟩ := a4.2 1 (.inl rfl)
  have w := (abs_le.1 (b4.1 _ c3).2.2.1).2
  have f := (b4.1 _ c2).2.2.2.1
  have t := (a6.1 (-p.L_b + 2 * p.tail_thickness, p.h + 0.96 * p.tail_height) (by simp)).1
  obtain ⟨u, hu, -, -, -, t1, t2⟩ := b6.2 _ t
  have ey : u.y = p.h + 0.96 * p.tail_height := by
    have := congrArg (·.z) hu
    simp only [upright] at this
    linarith
  have ez : u.z = p.tail_thickness / 2 := by
    have := congrArg (·.y) hu
    simpa [upright] using this.symm
  have t3 := (abs_le.1 t2).2
  simp only at w f
  norm_num at w f t1 t3 ⊢
  refine ⟨by linarith, by linarith, by linarith, by linarith⟩

/-- C172 for the ReFEX, in part: with all parts asked for, two vehicles have the same meshes only if they agree in length and radius of the body and
in the length of the fairing, if they agree in both or neither of the radii of nose and ogive, and if they agree in the span of the wing, in the
height of the tail and in the thicknesses up to the rounded edges (missing: smaller differences, the length of the wing, the angle of the canards
and the four toggles, whose effect is `C119_refex`). -/
theorem C172_refex_used_partial (ptan : ℝ → ℝ) (hT : FloatTan ptan) (h : Heap) (ids : ℕ → ℕ) (hi : Function.Injective ids) (shift : V)
    (kw kw' : Dict String ℝ) (p p' : ReFEX.Params) (ha : ReFEXArgs kw p) (ha' : ReFEXArgs kw' p') (hp : ReFEXOk p shift) (hp' : ReFEXOk p' shift)
    (on : ∀ i < 7, refexOn p i = true) (on' : ∀ i < 7, refexOn p' i = true) (lib : Lib) (depth : ℕ) :
    ∃ (st st' g g' : VState) (M M' : ℕ → StlMesh), ReFEX.instanceOf bisect01 ptan h ids shift kw = .ok st ∧
      ReFEX.instanceOf bisect01 ptan h ids shift kw' = .ok st' ∧ generate lib depth st = (.ok (), g) ∧ generate lib depth st' = (.ok (), g') ∧
      (∀ i < 7, ∃ c, (g.heap (ids i)).mesh = (.ok (M i), c)) ∧ (∀ i < 7, ∃ c, (g'.heap (ids i)).mesh = (.ok (M' i), c)) ∧
      ((∀ i < 7, (M i).tris = (M' i).tris) → ReFEXAgree p p') := by
  obtain ⟨st, g, a1, a2, -, a3⟩ := C142_refex ptan hT h ids hi shift kw p ha hp lib depth
  obtain ⟨st', g', b1, b2, -, b3⟩ := C142_refex ptan hT h ids hi shift kw' p' ha' hp' lib depth
  have pick : ∀ {q : ReFEX.Params} {s : VState}, (∀ i < 7, refexOn q i = true) →
      (∀ i < 7, refexOn q i = true → ∃ M c' m, (s.heap (ids i)).mesh = (.ok M, c') ∧ M.tris = mapVerts cart3d m ∧ ReFEXPart q shift m i) →
      ∃ M : ℕ → StlMesh, ∀ i < 7, (∃ c, (s.heap (ids i)).mesh = (.ok (M i), c)) ∧ ReFEXPart q shift (mapVerts cart3d (M i).tris) i := by
    intro q s hq hs
    have : ∀ i, ∃ M : StlMesh, i < 7 → (∃ c, (s.heap (ids i)).mesh = (.ok M, c)) ∧ ReFEXPart q shift (mapVerts cart3d M.tris) i := by
      intro i
      by_cases h7 : i < 7
      · obtain ⟨M, c', m, k1, k2, k3⟩ := hs i h7 (hq i h7)
        exact ⟨M, fun _ => ⟨⟨c', k1⟩, by rw [k2, mapVerts_cart3d_twice]; exact k3⟩⟩
      · exact ⟨⟨[], []⟩, fun h => absurd h h7⟩
    choose M hM using this
    exact ⟨M, hM⟩
  obtain ⟨M, hM⟩ := pick on a3
  obtain ⟨M', hM'⟩ := pick on' b3
  refine ⟨st, st', g, g', M, M', a1, b1, a2, b2, fun i h7 => (hM i h7).1, fun i h7 => (hM' i h7).1, fun e => ?_⟩
  have A := fun i (h7 : i < 7) => (hM i h7).2
  have B : ∀ i < 7, ReFEXPart p' shift (mapVerts cart3d (M i).tris) i := fun i h7 => by rw [e i h7]; exact (hM' i h7).2
  obtain ⟨x0, -⟩ := A 0 (by norm_num)
  obtain ⟨x0', -⟩ := B 0 (by norm_num)
  obtain ⟨x1, y1, -⟩ := A 1 (by norm_num)
  obtain ⟨x1', y1', -⟩ := B 1 (by norm_num)
  have eh := (y1.unique y1').2
  have eT := (x0.unique x0').2
  rw [← eh] at eT
  obtain ⟨r1, r2, r3, r4⟩ := refex_compare eh (A 4 (by norm_num)) (A 6 (by norm_num)) (B 4 (by norm_num)) (B 6 (by norm_num))
  obtain ⟨s1, s2, s3, s4⟩ := refex_compare eh.symm (B 4 (by norm_num)) (B 6 (by norm_num)) (A 4 (by norm_num)) (A 6 (by norm_num))
  exact ⟨by have := (x1.unique x1').1; linarith, eh, by have := (x0.unique x0').1; linarith,
    radii_linked hp.blunt hp.ogive (eh ▸ hp'.blunt) (eh ▸ hp'.ogive) eT, abs_le.2 ⟨by linarith, by linarith⟩, abs_le.2 ⟨by linarith, by linarith⟩,
    abs_le.2 ⟨by linarith, by linarith⟩, abs_le.2 ⟨by linarith, by linarith⟩⟩

/-- The ReFEX without arguments meets the hypotheses. -/
example : ReFEXArgs [] refexDefault ∧ ReFEXOk refexDefault ReFEX.defaultShift ∧ ∀ i < 7, refexOn refexDefault i = true := by
  refine ⟨refexDefault_ok.1, refexDefault_ok.2, fun i h7 => ?_⟩
  interval_cases i <;> simp [refexOn, refexDefault]

end HV
