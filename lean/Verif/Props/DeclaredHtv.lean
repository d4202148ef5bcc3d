import Verif.Props.DeclaredUsed
import Verif.Props.HtvSize

/-!
# C172: four parameters of the HTV are used
-/

namespace HV
open Spec Veh

/-- One direction of the comparison of two bodies. -/
theorem htv_compare {p p' : HTV.Params} {m : TriMesh ℝ} (hl : 0 < p.L) (hb : 2 * p.t_LE < p.body_width) (ht' : p'.t_LE ≤ p'.h)
    (a : HTVBody p m) (b : HTVBody p' m) :
    p.L ≤ p'.L ∧ p.body_width ≤ p'.body_width ∧ p.t_LE ≤ p'.t_LE + 5e-12 ∧ (p.L = p'.L → p.h ≤ p'.h + 2e-11) := by
  obtain ⟨z, hz⟩ := a.nose
  have k1 := (b.within _ hz).2.1
  have k2 := (abs_le.1 (b.within _ (a.sides 1 (.inl rfl))).2.2.1).2
  have k3 := (b.within _ a.rear).2.2.2.2
  have k4 := (b.within _ (a.back hb)).2.2.2.1
  rw [max_eq_left ht'] at k4
  simp only at k1 k2 k3 k4
  refine ⟨by linarith, by linarith, by linarith, fun e => ?_⟩
  rw [← e] at k4
  by_contra hc
  have : 2e-11 < p.h - p'.h := by linarith
  nlinarith

/-- C172 for four of the seven parameters of the HTV which have an effect: two vehicles, each with an edge no thicker than the vehicle is high
and thinner than half its width, have the same mesh of the body only if they agree in length and width, and, within the tolerances of the model, in height
and thickness of the edge (missing: the nominal length and width and the angle of the flaps; `h_nom` and `t_LE_nom` have no effect, see
`C172_violated`). -/
theorem C172_htv_used_partial (ptan : ℝ → ℝ) (hT : FloatTan ptan) (h : Heap) (ids : ℕ → ℕ) (hi : Function.Injective ids) (kw kw' : Dict String ℝ)
    (p p' : HTV.Params) (ha : HTVArgs kw p) (ha' : HTVArgs kw' p') (hp : HTVOk p) (hp' : HTVOk p') (hn : 0 < p.L_nom) (hn' : 0 < p'.L_nom)
    (hw : 0.0125 ≤ p.body_width_nom) (hw' : 0.0125 ≤ p'.body_width_nom) (hb : 2 * p.t_LE < p.body_width) (hb' : 2 * p'.t_LE < p'.body_width)
    (ht : p.t_LE ≤ p.h) (ht' : p'.t_LE ≤ p'.h) :
    ∃ st st', HTV.instanceOf bisect01 ptan h ids kw = .ok st ∧ HTV.instanceOf bisect01 ptan h ids kw' = .ok st' ∧
      ∀ s s' lib depth, Rescaled st s → Rescaled st' s' → ∃ g g' M M' c c', generate lib depth s = (.ok (), g) ∧
        generate lib depth s' = (.ok (), g') ∧ (g.heap (ids 0)).mesh = (.ok M, c) ∧ (g'.heap (ids 0)).mesh = (.ok M', c') ∧
        (M.tris = M'.tris → p.L = p'.L ∧ p.body_width = p'.body_width ∧ |p.t_LE - p'.t_LE| ≤ 5e-12 ∧ |p.h - p'.h| ≤ 2e-11) := by
  obtain ⟨st, a1, -, a2⟩ := C146_partial ptan hT h ids hi kw p ha hp hn hw
  obtain ⟨st', b1, -, b2⟩ := C146_partial ptan hT h ids hi kw' p' ha' hp' hn' hw'
  refine ⟨st, st', a1, b1, fun s s' lib depth hs hs' => ?_⟩
  obtain ⟨g, g1, ⟨M, c, m1, A⟩, -⟩ := a2 s lib depth hs
  obtain ⟨g', g1', ⟨M', c', m1', B⟩, -⟩ := b2 s' lib depth hs'
  refine ⟨g, g', M, M', c, c', g1, g1', m1, m1', fun e => ?_⟩
  rw [← e] at B
  obtain ⟨r1, r2, r3, r4⟩ := htv_compare hp.length hb ht' A B
  obtain ⟨s1, s2, s3, s4⟩ := htv_compare hp'.length hb' ht B A
  have eL := le_antisymm r1 s1
  have := r4 eL
  have := s4 eL.symm
  exact ⟨eL, le_antisymm r2 s2, abs_le.2 ⟨by linarith, by linarith⟩, abs_le.2 ⟨by linarith, by linarith⟩⟩

/-- The HTV without arguments meets the hypotheses. -/
example : HTVArgs [] htvDefault ∧ HTVOk htvDefault ∧ 0 < htvDefault.L_nom ∧ 0.0125 ≤ htvDefault.body_width_nom ∧
    2 * htvDefault.t_LE < htvDefault.body_width ∧ htvDefault.t_LE ≤ htvDefault.h :=
  ⟨htvDefault_ok.1, htvDefault_ok.2, by norm_num [htvDefault], by norm_num [htvDefault], by norm_num [htvDefault], by norm_num [htvDefault]⟩

end HV
