import Verif.Lemmas.WingGrid
import Verif.Lemmas.FinBounds
import Verif.Props.FinSize

/-!
# How far the patches of a wing reach
-/

namespace HV
open Spec

/-- The points of a lifted Coons patch whose edges meet. -/
theorem lifted_at (D : ℝ → ℝ → Prop) (f : OffFn) (h : ℝ → ℝ → ℝ) (hf : HeightFn D f h)
    (n e s w : PathObj) (N E S W : ℝ → V) (hn : ∀ t ∈ Set.Icc (0 : ℝ) 1, n.call t = .ok (N t))
    (he : ∀ t ∈ Set.Icc (0 : ℝ) 1, e.call t = .ok (E t)) (hs : ∀ t ∈ Set.Icc (0 : ℝ) 1, s.call t = .ok (S t))
    (hw : ∀ t ∈ Set.Icc (0 : ℝ) 1, w.call t = .ok (W t)) (k00 : S 0 = W 0) (k10 : S 1 = E 0) (k01 : N 0 = W 1) (k11 : N 1 = E 1)
    (hD : ∀ u ∈ Set.Icc (0 : ℝ) 1, ∀ v ∈ Set.Icc (0 : ℝ) 1, D (blendAt N E S W u v).x (blendAt N E S W u v).y) :
    ∃ F : Surf, CoonsPatch n e s w = .ok F ∧
      ∀ u ∈ Set.Icc (0 : ℝ) 1, ∀ v ∈ Set.Icc (0 : ℝ) 1, OffsetPatchFunction F f u v = .ok (liftBy h (blendAt N E S W u v)) := by
  obtain ⟨F, h1, h2, -⟩ := coons_exact n e s w N E S W hn he hs hw k00 k10 k01 k11
  refine ⟨F, h1, fun u hu v hv => ?_⟩
  rw [offsetPatch_ok]
  exact ⟨_, _, h2 u hu v hv, hf _ _ _ (hD u hu v hv), (liftBy_eq h _).symm⟩

/-- A Coons patch whose edges are defined everywhere is defined everywhere. -/
theorem coons_total {n e s w : PathObj} {F : Surf} (hF : CoonsPatch n e s w = .ok F) {N E S W : ℝ → V} (hn : ∀ t, n.call t = .ok (N t))
    (he : ∀ t, e.call t = .ok (E t)) (hs : ∀ t, s.call t = .ok (S t)) (hw : ∀ t, w.call t = .ok (W t)) (u v : ℝ) : ∃ q, F u v = .ok q := by
  unfold CoonsPatch at hF
  rw [bind_ok] at hF
  obtain ⟨C, hc, hF⟩ := hF
  cases hF
  obtain ⟨a1, a2, a3, a4, a5, a6, a7, a8, -, -, -, -, -, -, -, -, -, -, -, -, rfl⟩ := (Coons.ofEdges_ok_iff n e s w _ C).1 hc
  unfold Coons.call
  simp only [hs, hn, hw, he, ok_bind]
  exact ⟨_, rfl⟩

/-- The points of the planform behind and in front of the chord that ends at the break `t1`. -/
noncomputable def innerPt (A0 A1 : V) (L : ℝ → V) (t1 u v : ℝ) : V := lineAt (lineAt A0 A1 u) (L (u * t1)) v

noncomputable def outerPt (A1 : V) (L : ℝ → V) (t1 t2 r s : ℝ) : V :=
  ⟨(1 - r) * (1 - s) * A1.x + s * (L (t1 + r * (t2 - t1))).x + r * (L (1 + s * (t2 - 1))).x - r * s * (L t2).x,
   (1 - r) * (1 - s) * A1.y + s * (L (t1 + r * (t2 - t1))).y + r * (L (1 + s * (t2 - 1))).y - r * s * (L t2).y,
   (1 - r) * (1 - s) * A1.z + s * (L (t1 + r * (t2 - t1))).z + r * (L (1 + s * (t2 - 1))).z - r * s * (L t2).z⟩

section
variable {D : ℝ → ℝ → Prop} {w : Wing.State} {s : WingShape} {t2 : ℝ} (h : WingBase D w s t2)
include h

/-- The four skins, point by point. -/
theorem wing_skins_at : ∃ F0 F1 F2 F3, Wing.skins w = .ok [("top_patch_0", F0), ("top_patch_1", F1), ("bot_patch_0", F2), ("bot_patch_1", F3)] ∧
    ∀ u ∈ Set.Icc (0 : ℝ) 1, ∀ v ∈ Set.Icc (0 : ℝ) 1,
      F0 u v = .ok (liftBy s.ht (innerPt w.args.A0 w.args.A1 s.L w.t_B1 (1 - u) v)) ∧
      F1 u v = .ok (liftBy s.ht (outerPt w.args.A1 s.L w.t_B1 t2 (1 - u) v)) ∧
      F2 u v = .ok (liftBy s.hb (innerPt w.args.A0 w.args.A1 s.L w.t_B1 u v)) ∧
      F3 u v = .ok (liftBy s.hb (outerPt w.args.A1 s.L w.t_B1 t2 u v)) := by
  have sub : ∀ a b r, (SubRangedPath w.args.line a b).call r = .ok (s.L (a + r * (b - a))) := fun a b r => h.line _
  have sub2 : ∀ a b r, (SubRangedPath (SubRangedPath w.args.line a b) 1 0).call r = .ok (s.L (b + r * (a - b))) := by
    intro a b r
    rw [show b + r * (a - b) = a + (1 + r * (0 - 1)) * (b - a) by ring]
    exact h.line _
  have q0 : ∀ u ∈ Set.Icc (0 : ℝ) 1, ∀ v ∈ Set.Icc (0 : ℝ) 1, D (innerPt w.args.A0 w.args.A1 s.L w.t_B1 u v).x (innerPt w.args.A0 w.args.A1 s.L w.t_B1 u v).y :=
    fun u hu v hv => h.cov.inner _ h.t1mem u hu v hv
  have q1 : ∀ u ∈ Set.Icc (0 : ℝ) 1, ∀ v ∈ Set.Icc (0 : ℝ) 1, D (outerPt w.args.A1 s.L w.t_B1 t2 u v).x (outerPt w.args.A1 s.L w.t_B1 t2 u v).y :=
    fun u hu v hv => h.cov.outer _ h.t1mem t2 ⟨h.t12, h.t2mem.2⟩ u hu v hv
  have flip : ∀ u ∈ Set.Icc (0 : ℝ) 1, 1 - u ∈ Set.Icc (0 : ℝ) 1 := fun u hu => ⟨by linarith [hu.2], by linarith [hu.1]⟩
  have b2 : ∀ u v, blendAt (fun r => s.L (0 + r * (w.t_B1 - 0))) (lineAt w.args.A1 (s.L w.t_B1)) (lineAt w.args.A0 w.args.A1) (lineAt w.args.A0 w.args.B0) u v =
      innerPt w.args.A0 w.args.A1 s.L w.t_B1 u v := by
    intro u v
    rw [← h.L0]
    simp only [blendAt, Coons.blend, sub_zero, zero_add, one_mul, zero_mul, lineAt_zero, lineAt_one]
    ext <;> simp [innerPt, lineAt] <;> ring
  have b3 : ∀ u v, blendAt (fun r => s.L (w.t_B1 + r * (t2 - w.t_B1))) (fun r => s.L (1 + r * (t2 - 1))) (lineAt w.args.A1 w.args.TT)
      (lineAt w.args.A1 (s.L w.t_B1)) u v = outerPt w.args.A1 s.L w.t_B1 t2 u v := by
    intro u v
    simp only [blendAt, Coons.blend, zero_mul, add_zero, one_mul, lineAt_zero, lineAt_one, show w.t_B1 + (t2 - w.t_B1) = t2 by ring]
    ext <;> simp [outerPt, lineAt] <;> ring
  have b0 : ∀ u v, blendAt (fun r => s.L (w.t_B1 + r * (0 - w.t_B1))) (lineAt w.args.A0 w.args.B0) (lineAt w.args.A1 w.args.A0) (lineAt w.args.A1 (s.L w.t_B1))
      u v = innerPt w.args.A0 w.args.A1 s.L w.t_B1 (1 - u) v := by
    intro u v
    rw [← h.L0]
    simp only [blendAt, Coons.blend, zero_mul, add_zero, one_mul, lineAt_zero, lineAt_one, show w.t_B1 + (0 - w.t_B1) = 0 by ring,
      show w.t_B1 + u * (0 - w.t_B1) = (1 - u) * w.t_B1 by ring]
    ext <;> simp [innerPt, lineAt] <;> ring
  have b1 : ∀ u v, blendAt (fun r => s.L (t2 + r * (w.t_B1 - t2))) (lineAt w.args.A1 (s.L w.t_B1)) (lineAt w.args.TT w.args.A1)
      (fun r => s.L (1 + r * (t2 - 1))) u v = outerPt w.args.A1 s.L w.t_B1 t2 (1 - u) v := by
    intro u v
    simp only [blendAt, Coons.blend, zero_mul, add_zero, one_mul, lineAt_zero, lineAt_one, show t2 + (w.t_B1 - t2) = w.t_B1 by ring,
      show t2 + u * (w.t_B1 - t2) = w.t_B1 + (1 - u) * (t2 - w.t_B1) by ring]
    ext <;> simp [outerPt, lineAt] <;> ring
  obtain ⟨p0, c2, v2⟩ := lifted_at D _ _ h.bot (SubRangedPath w.args.line 0 w.t_B1) (Line w.args.A1 (s.L w.t_B1))
    (Line w.args.A0 w.args.A1) (Line w.args.A0 w.args.B0) _ _ _ _ (fun t _ => sub _ _ t) (fun _ _ => rfl) (fun _ _ => rfl) (fun _ _ => rfl)
    (by rw [lineAt_zero, lineAt_zero]) (by rw [lineAt_zero, lineAt_one]) (by rw [lineAt_one, ← h.L0]; congr 1; ring)
    (by rw [lineAt_one]; congr 1; ring) (by intro u hu v hv; rw [b2]; exact q0 u hu v hv)
  obtain ⟨p1, c3, v3⟩ := lifted_at D _ _ h.bot (SubRangedPath w.args.line w.t_B1 t2) (SubRangedPath w.args.line 1 t2)
    (Line w.args.A1 w.args.TT) (Line w.args.A1 (s.L w.t_B1)) _ _ _ _ (fun t _ => sub _ _ t) (fun t _ => sub _ _ t) (fun _ _ => rfl) (fun _ _ => rfl)
    (by rw [lineAt_zero, lineAt_zero]) (by rw [lineAt_one, ← h.L1]; congr 1; ring) (by rw [lineAt_one]; congr 1; ring)
    (by congr 1; ring) (by intro u hu v hv; rw [b3]; exact q1 u hu v hv)
  obtain ⟨f0, c0, v0⟩ := lifted_at D _ _ h.top (SubRangedPath (SubRangedPath w.args.line 0 w.t_B1) 1 0)
    (Line w.args.A0 w.args.B0) (Line w.args.A1 w.args.A0) (Line w.args.A1 (s.L w.t_B1)) _ _ _ _ (fun t _ => sub2 _ _ t) (fun _ _ => rfl) (fun _ _ => rfl)
    (fun _ _ => rfl) (by rw [lineAt_zero, lineAt_zero]) (by rw [lineAt_zero, lineAt_one]) (by rw [lineAt_one]; congr 1; ring)
    (by rw [lineAt_one, ← h.L0]; congr 1; ring) (by intro u hu v hv; rw [b0]; exact q0 _ (flip u hu) v hv)
  obtain ⟨f1, c1, v1⟩ := lifted_at D _ _ h.top (SubRangedPath (SubRangedPath w.args.line w.t_B1 t2) 1 0)
    (Line w.args.A1 (s.L w.t_B1)) (Line w.args.TT w.args.A1) (SubRangedPath w.args.line 1 t2) _ _ _ _ (fun t _ => sub2 _ _ t) (fun _ _ => rfl) (fun _ _ => rfl)
    (fun t _ => sub _ _ t) (by rw [lineAt_zero, ← h.L1]; congr 1; ring) (by rw [lineAt_zero, lineAt_one]) (by congr 1; ring)
    (by rw [lineAt_one]; congr 1; ring) (by intro u hu v hv; rw [b1]; exact q1 _ (flip u hu) v hv)
  refine ⟨OffsetPatchFunction f0 w.args.top_tf, OffsetPatchFunction f1 w.args.top_tf, OffsetPatchFunction p0 w.args.bot_tf,
    OffsetPatchFunction p1 w.args.bot_tf, ?_, fun u hu v hv => ⟨?_, ?_, ?_, ?_⟩⟩
  · unfold Wing.skins Wing.planform
    simp only [h.ty, ne_eq, not_true_eq_false, if_false, h.line, ok_bind, pure_eq, c2, h.t2eq, Wing.num, c3, c0, c1]
  · rw [← b0]; exact v0 u hu v hv
  · rw [← b1]; exact v1 u hu v hv
  · rw [← b2]; exact v2 u hu v hv
  · rw [← b3]; exact v3 u hu v hv

/-- The flap, point by point: straight lines from its end to the trailing edge. -/
theorem wing_flap_at : ∃ F0 F1, Wing.flap w = .ok [("TE_top_patch", F0), ("TE_bot_patch", F1)] ∧
    ∀ u ∈ Set.Icc (0 : ℝ) 1, ∀ v ∈ Set.Icc (0 : ℝ) 1,
      F0 u v = .ok (lineAt (lineAt (flapTip w s w.args.A0) (flapTip w s w.args.B0) u) (liftBy s.ht (lineAt w.args.A0 w.args.B0 u)) v) ∧
      F1 u v = .ok (lineAt (liftBy s.hb (lineAt w.args.A0 w.args.B0 u)) (lineAt (flapTip w s w.args.A0) (flapTip w s w.args.B0) u) v) := by
  obtain ⟨F, c0, v0, -⟩ := coons_exact (Wing.teTop w) (Line (flapTip w s w.args.B0) (liftBy s.ht w.args.B0))
    (Line (flapTip w s w.args.A0) (flapTip w s w.args.B0)) (Line (flapTip w s w.args.A0) (liftBy s.ht w.args.A0)) _ _ _ _
    (fun t ht => (wing_te h t ht).1) (fun _ _ => rfl) (fun _ _ => rfl) (fun _ _ => rfl) (by rw [lineAt_zero, lineAt_zero]) (by rw [lineAt_zero, lineAt_one])
    (by rw [lineAt_zero, lineAt_one]) (by rw [lineAt_one, lineAt_one])
  obtain ⟨G, c1, v1, -⟩ := coons_exact (Line (flapTip w s w.args.A0) (flapTip w s w.args.B0))
    (Line (liftBy s.hb w.args.B0) (flapTip w s w.args.B0)) (Wing.teBot w) (Line (liftBy s.hb w.args.A0) (flapTip w s w.args.A0)) _ _ _ _
    (fun _ _ => rfl) (fun _ _ => rfl) (fun t ht => (wing_te h t ht).2.1) (fun _ _ => rfl) (by rw [lineAt_zero, lineAt_zero]) (by rw [lineAt_one, lineAt_zero])
    (by rw [lineAt_zero, lineAt_one]) (by rw [lineAt_one, lineAt_one])
  have e0 := wing_te h 0 ⟨le_rfl, zero_le_one⟩
  have e1 := wing_te h 1 ⟨zero_le_one, le_rfl⟩
  simp only [lineAt_zero, lineAt_one] at e0 e1
  have tip : ∀ p : V, (⟨(liftBy (midH s.ht s.hb) p).x - w.args.flap_length * Real.cos w.args.flap_angle, (liftBy (midH s.ht s.hb) p).y,
      (liftBy (midH s.ht s.hb) p).z + w.args.flap_length * Real.sin w.args.flap_angle⟩ : V) = flapTip w s p := fun p => rfl
  refine ⟨F, G, ?_, fun u hu v hv => ⟨?_, ?_⟩⟩
  · unfold Wing.flap MeanTrailingEdgePatch
    simp only [h.tail, ne_eq, not_true_eq_false, if_false, true_or, or_true, if_true, e0, e1, ok_bind, pure_eq, tip, line_zero, line_one, c0, c1,
      show ("bot" = "top") = False by decide]
  · rw [v0 u hu v hv]
    generalize flapTip w s w.args.A0 = p
    generalize flapTip w s w.args.B0 = q
    simp only [blendAt, Coons.blend, lineAt_zero, lineAt_one]
    congr 1
    ext <;> simp [lineAt] <;> ring
  · rw [v1 u hu v hv]
    generalize flapTip w s w.args.A0 = p
    generalize flapTip w s w.args.B0 = q
    simp only [blendAt, Coons.blend, lineAt_zero, lineAt_one]
    congr 1
    ext <;> simp [lineAt] <;> ring

end

section
variable {ptan : ℝ → ℝ} {D : ℝ → ℝ → Prop} {S : Set ℝ} {w : Wing.State} {s : WingShape} {t2 g : ℝ} (h : WingOn ptan D S w s t2 g)
include h

/-- The patch at the tip of the flap: between the end of the flap and the end of the leading edge. -/
theorem wing_tele_at : ∃ F, Wing.tele ptan w = .ok [("TELE_patch", F)] ∧ ∀ u ∈ Set.Icc (0 : ℝ) 1, ∀ v ∈ Set.Icc (0 : ℝ) 1,
    ∃ η ζ δ : ℝ, F u v = .ok ((flapTip w s w.args.B0) * (u * (1 - v)) + (s.M 0) * (1 - u * (1 - v)) + ⟨0, η, ζ + δ⟩) ∧ |η| ≤ s.wd 0 ∧
      |ζ| ≤ (1 - u * (1 - v)) * s.half 0 ∧ |δ| ≤ g := by
  have z0 : (0 : ℝ) ∈ Set.Icc (0 : ℝ) 1 := ⟨le_rfl, zero_le_one⟩
  have z1 : (1 : ℝ) ∈ Set.Icc (0 : ℝ) 1 := ⟨zero_le_one, le_rfl⟩
  have hgap := h.shape.gap 0 h.shape.zero
  have hb := h.shape.thick 0 h.shape.zero
  have hwp := h.shape.wpos 0 h.shape.zero
  have hfit := h.shape.fits 0 h.shape.zero
  have hT : liftBy s.ht w.args.B0 = s.M 0 + upBy (-s.half 0) := by rw [← h.L0, liftBy_top s.ht s.hb]; rfl
  have hB : liftBy s.hb w.args.B0 = s.M 0 + upBy (s.half 0) := by rw [← h.L0, liftBy_bot s.ht s.hb]; rfl
  have hM : liftBy (midH s.ht s.hb) w.args.B0 = s.M 0 := by rw [← h.L0]; rfl
  have d1 : (s.M 0).z - (liftBy s.ht w.args.B0).z = s.half 0 := by rw [hT]; simp [upBy]
  have d2 : (s.M 0).z - (liftBy s.hb w.args.B0).z = -s.half 0 := by rw [hB]; simp [upBy]
  obtain ⟨et, eb, e1, e2, v1, v2, n1, n2, c1, c2, c3, c4, g1, g2⟩ := ellipse_tips ptan h.shape.like (s.M 0) (s.half 0) (-s.half 0) (s.half 0) (s.wd 0)
    hb (abs_of_pos hb) (by rw [abs_neg, abs_of_pos hb]) hwp hfit
  obtain ⟨l, P, hl, -⟩ := wing_tele_on h 1 le_rfl
  have hl' := hl
  have q := wing_te h.toWingBase 1 z1
  simp only [lineAt_one] at q
  have tip : (⟨(s.M 0).x - w.args.flap_length * Real.cos w.args.flap_angle, (s.M 0).y,
      (s.M 0).z + w.args.flap_length * Real.sin w.args.flap_angle⟩ : V) = flapTip w s w.args.B0 := by rw [← hM]; rfl
  have q1 : (⟨(s.M 0).x, (s.M 0).y, (liftBy s.ht w.args.B0).z⟩ : V) = liftBy s.ht w.args.B0 := by rw [← hM]; rfl
  have q2 : (⟨(s.M 0).x, (s.M 0).y, (liftBy s.hb w.args.B0).z⟩ : V) = liftBy s.hb w.args.B0 := by rw [← hM]; rfl
  unfold Wing.tele Wing.tipEdges at hl'
  simp only [q, hM, ok_bind, h.le, if_false, d1, d2, neg_eq_zero, hb.ne', or_self, h.width 0 z0, pure_eq, e1, e2, q1, q2, tip] at hl'
  obtain ⟨F, hF, hl'⟩ := bind_ok.1 hl'
  cases hl'
  refine ⟨F, hl, fun u hu v hv => ?_⟩
  generalize htip : flapTip w s w.args.B0 = X at *
  obtain ⟨p, hp⟩ := coons_total hF (E := fun t => lineAt X (liftBy s.hb w.args.B0) t) v2 (fun _ => rfl)
    (S := fun t => lineAt (liftBy s.ht w.args.B0) X t) (fun _ => rfl) v1 u v
  have val := fun A B C D => coons_aff hF (E := fun t => lineAt X (liftBy s.hb w.args.B0) t) v2 (fun _ => rfl)
    (S := fun t => lineAt (liftBy s.ht w.args.B0) X t) (fun _ => rfl) v1 A B C D hp
  have vx := val 1 0 0 0
  have vy := val 0 1 0 0
  have vz := val 0 0 1 0
  have quadr := fun top {r : ℝ} (hr' : r ∈ Set.Icc (0 : ℝ) 1) => ellArc_quadrant h.shape.like hb hwp hfit.1.1 hfit.2 top hr'
  obtain ⟨s0, s1, s2⟩ := quadr false hu
  obtain ⟨t0, t1, t2'⟩ := quadr true hv
  obtain ⟨x0, x1, -⟩ := quadr false z1
  simp only [if_true, Bool.false_eq_true, if_false] at s2 t2'
  have hpole := (vdist_coords _ _).2.2.trans ((g2 (Real.pi / 2)).trans hgap)
  simp only [swing, upBy] at hpole
  have ex : ∀ top r, (ellArc ptan (s.half 0) (s.wd 0) top r).x = 0 := fun _ _ => rfl
  rw [hT, hB] at vx vy vz
  simp only [aff, n2, ex, lineAt, upBy, Vec.add_x, Vec.add_y, Vec.add_z, Vec.mul_x, Vec.mul_y, Vec.mul_z] at vx vy vz
  have hu1 := sub_nonneg.2 hu.2
  have hv1 := sub_nonneg.2 hv.2
  generalize s.M 0 = m at *
  generalize s.half 0 = b at *
  generalize s.wd 0 = wd at *
  set Sz := (ellArc ptan b wd false u).z
  set Tz := (ellArc ptan b wd true v).z
  set Xz := (ellArc ptan b wd false 1).z
  set Sy := (ellArc ptan b wd false u).y
  set Ty := (ellArc ptan b wd true v).y
  set Xy := (ellArc ptan b wd false 1).y
  refine ⟨p.y - (X.y * (u * (1 - v)) + m.y * (1 - u * (1 - v))), v * Sz + (1 - u) * Tz, -(u * v * (Xz - b)), ?_, ?_, ?_, ?_⟩
  · rw [hp]
    congr 1
    ext
    · simp
      linear_combination vx
    · simp
    · simp
      linear_combination vz
  · have := patch_across (u := 1 - u) (v := 1 - v) ⟨hu1, by linarith [hu.1]⟩ ⟨hv1, by linarith [hv.1]⟩ s0 s1 t0 t1 x0 x1
    refine le_trans (le_of_eq ?_) this
    congr 1
    linear_combination vy
  · have k1 := mul_nonneg hv.1 s2.1
    have k2 := mul_le_mul_of_nonneg_left s2.2 hv.1
    have k3 := mul_nonneg hu1 (neg_nonneg.2 t2'.2)
    have k4 := mul_le_mul_of_nonneg_left t2'.1 hu1
    have k5 := mul_nonneg (mul_nonneg hu1 hv1) hb.le
    have k6 := mul_nonneg (mul_nonneg hu.1 hv.1) hb.le
    rw [abs_le]
    constructor <;> nlinarith
  · rw [abs_neg, abs_mul, abs_of_nonneg (mul_nonneg hu.1 hv.1)]
    exact (mul_le_of_le_one_left (abs_nonneg _) (mul_le_one₀ hu.2 hv.1 hv.2)).trans hpole

end

end HV
