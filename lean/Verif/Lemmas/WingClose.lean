import Verif.Lemmas.WingBounds

/-!
# How far the patches that close a wing reach
-/

namespace HV
open Spec

theorem coons_close {n e s w : PathObj} {N E S W : ℝ → V} (hn : ∀ t, n.call t = .ok (N t)) (he : ∀ t, e.call t = .ok (E t))
    (hs : ∀ t, s.call t = .ok (S t)) (hw : ∀ t, w.call t = .ok (W t)) (k00 : CornerClose (S 0) (W 0)) (k10 : CornerClose (S 1) (E 0))
    (k01 : CornerClose (N 0) (W 1)) (k11 : CornerClose (N 1) (E 1)) : ∃ F, CoonsPatch n e s w = .ok F := by
  have hk : Coons.ofEdges n e s w = .ok ⟨n, e, s, w, S 0, S 1, N 1, N 0, false, ⟨0, 0, 0⟩⟩ := by
    rw [Coons.ofEdges_ok_iff]
    exact ⟨_, _, _, _, _, _, _, _, hs 0, hs 1, hn 0, hn 1, hw 0, hw 1, he 0, he 1, k00, k10, k01, k11, rfl⟩
  exact ⟨_, by unfold CoonsPatch; rw [hk, ok_bind]; rfl⟩

section
variable {ptan : ℝ → ℝ} {D : ℝ → ℝ → Prop} {S : Set ℝ} {w : Wing.State} {s : WingShape} {t2 g : ℝ} (h : WingOn ptan D S w s t2 g)
include h

/-- The patches that close the root of a wing: four plane quadrilaterals and the inner half of the section of the leading edge. -/
theorem wing_close_at (F0 F2 : Surf) (hF0 : F0 0 0 = .ok (liftBy s.ht w.args.A1)) (hF2 : F2 1 0 = .ok (liftBy s.hb w.args.A1)) :
    ∃ q1 q2 q3 q4 F, Wing.closeWing ptan w F0 F2 = .ok [("wing_close_top_patch0", q1), ("wing_close_top_patch1", q2), ("wing_close_bot_patch0", q3),
        ("wing_close_bot_patch1", q4), ("interior_ellip", F)] ∧
      (∀ u v, q1 u v = .ok (bil (liftBy s.ht w.args.A0) (liftBy s.ht w.args.A1) (liftBy (midH s.ht s.hb) w.args.A1) (liftBy (midH s.ht s.hb) w.args.A0) u v)) ∧
      (∀ u v, q2 u v = .ok (bil (liftBy s.ht w.args.A1) (s.T 1) (s.M 1) (liftBy (midH s.ht s.hb) w.args.A1) u v)) ∧
      (∀ u v, q3 u v = .ok (bil (liftBy (midH s.ht s.hb) w.args.A0) (liftBy (midH s.ht s.hb) w.args.A1) (liftBy s.hb w.args.A1) (liftBy s.hb w.args.A0) u v)) ∧
      (∀ u v, q4 u v = .ok (bil (liftBy (midH s.ht s.hb) w.args.A1) (s.M 1) (s.B 1) (liftBy s.hb w.args.A1) u v)) ∧
      ∀ u ∈ Set.Icc (0 : ℝ) 1, ∀ v ∈ Set.Icc (0 : ℝ) 1, ∃ η ζ δ : ℝ, F u v = .ok (s.M 1 + ⟨η, 0, ζ + δ⟩) ∧ |η| ≤ s.wd 1 ∧ |ζ| ≤ s.half 1 ∧ |δ| ≤ g := by
  have z1 : (1 : ℝ) ∈ Set.Icc (0 : ℝ) 1 := ⟨zero_le_one, le_rfl⟩
  have hgap := h.shape.gap 1 h.shape.one
  have hb := h.shape.thick 1 h.shape.one
  have hwp := h.shape.wpos 1 h.shape.one
  have hfit := h.shape.fits 1 h.shape.one
  have hT : s.T 1 = s.M 1 + upBy (-s.half 1) := by rw [WingShape.T, liftBy_top s.ht s.hb]; rfl
  have hB : s.B 1 = s.M 1 + upBy (s.half 1) := by rw [WingShape.B, liftBy_bot s.ht s.hb]; rfl
  have d1 : (s.M 1).z - (s.T 1).z = s.half 1 := by rw [hT]; simp [upBy]
  have d2 : (s.M 1).z - (s.B 1).z = -s.half 1 := by rw [hB]; simp [upBy]
  obtain ⟨et, eb, e1, e2, v1, v2, n1, n2, c1, c2, c3, c4, g1, g2⟩ := ellipse_tips ptan h.shape.like (s.M 1) (s.half 1) (-s.half 1) (s.half 1) (s.wd 1)
    hb (abs_of_pos hb) (by rw [abs_neg, abs_of_pos hb]) hwp hfit
  have k : s.M 1 + ellArc ptan (s.half 1) (s.wd 1) true 1 = s.M 1 + ellArc ptan (s.half 1) (s.wd 1) false 0 := by rw [n1, n2]
  have v2' : ∀ r, (SubRangedPath eb 1 0).call r = .ok (s.M 1 + ellArc ptan (s.half 1) (s.wd 1) false (1 - r)) := by
    intro r
    simp only [SubRangedPath]
    rw [← v2]
    congr 1; ring
  obtain ⟨F, hF⟩ := coons_close (s := Line (s.M 1) (s.T 1)) (w := Line (s.M 1) (s.B 1)) v2' v1 (fun _ => rfl) (fun _ => rfl)
    (by rw [lineAt_zero, lineAt_zero]; exact cornerClose_refl _)
    (by rw [lineAt_one, hT]; exact c2) (by rw [lineAt_one, sub_zero, hB]; exact c3) (by rw [sub_self, k]; exact cornerClose_refl _)
  have q := wing_te h.toWingBase 0 ⟨le_rfl, zero_le_one⟩
  simp only [lineAt_zero] at q
  have o1 : w.args.TT + ⟨0, 0, s.ht w.args.TT.x w.args.TT.y⟩ = s.T 1 := by rw [liftBy_eq, ← h.L1]; rfl
  have o2 : w.args.TT + ⟨0, 0, s.hb w.args.TT.x w.args.TT.y⟩ = s.B 1 := by rw [liftBy_eq, ← h.L1]; rfl
  have o3 : (s.T 1 + s.B 1) * (0.5 : ℝ) = s.M 1 := by
    ext <;> simp [WingShape.T, WingShape.B, WingShape.M, liftBy, midH] <;> ring
  have o4 : (⟨(liftBy s.hb w.args.A1).x, (liftBy s.hb w.args.A1).y, ((liftBy s.hb w.args.A1).z + (liftBy s.ht w.args.A1).z) / 2⟩ : V) =
      liftBy (midH s.ht s.hb) w.args.A1 := by
    ext <;> simp [liftBy, midH] <;> ring
  obtain ⟨q1, hq1, vq1⟩ := coons_quad (Line (liftBy (midH s.ht s.hb) w.args.A0) (liftBy (midH s.ht s.hb) w.args.A1))
    (Line (liftBy s.ht w.args.A1) (liftBy (midH s.ht s.hb) w.args.A1)) (Line (liftBy s.ht w.args.A0) (liftBy s.ht w.args.A1))
    (Line (liftBy s.ht w.args.A0) (liftBy (midH s.ht s.hb) w.args.A0)) _ _ _ _ (fun _ => rfl) (fun _ => rfl) (fun _ => rfl) (fun _ => rfl)
  obtain ⟨q2, hq2, vq2⟩ := coons_quad (Line (liftBy (midH s.ht s.hb) w.args.A1) (s.M 1)) (Line (s.T 1) (s.M 1))
    (Line (liftBy s.ht w.args.A1) (s.T 1)) (Line (liftBy s.ht w.args.A1) (liftBy (midH s.ht s.hb) w.args.A1)) _ _ _ _
    (fun _ => rfl) (fun _ => rfl) (fun _ => rfl) (fun _ => rfl)
  obtain ⟨q3, hq3, vq3⟩ := coons_quad (Line (liftBy s.hb w.args.A0) (liftBy s.hb w.args.A1))
    (Line (liftBy (midH s.ht s.hb) w.args.A1) (liftBy s.hb w.args.A1))
    (Line (liftBy (midH s.ht s.hb) w.args.A0) (liftBy (midH s.ht s.hb) w.args.A1))
    (Line (liftBy (midH s.ht s.hb) w.args.A0) (liftBy s.hb w.args.A0)) _ _ _ _ (fun _ => rfl) (fun _ => rfl) (fun _ => rfl) (fun _ => rfl)
  obtain ⟨q4, hq4, vq4⟩ := coons_quad (Line (liftBy s.hb w.args.A1) (s.B 1)) (Line (s.M 1) (s.B 1))
    (Line (liftBy (midH s.ht s.hb) w.args.A1) (s.M 1)) (Line (liftBy (midH s.ht s.hb) w.args.A1) (liftBy s.hb w.args.A1)) _ _ _ _
    (fun _ => rfl) (fun _ => rfl) (fun _ => rfl) (fun _ => rfl)
  refine ⟨q1, q2, q3, q4, RotatedPatch F (-90 * Real.pi / 180) "z" (s.M 1), ?_, vq1, vq2, vq3, vq4, fun u hu v hv => ?_⟩
  · have hD := h.cov.le 1 z1
    rw [h.L1] at hD
    unfold Wing.closeWing
    simp only [h.top _ _ _ hD, h.bot _ _ _ hD, ok_bind, o1, o2, o3, q, hF0, hF2, o4, hq1, hq2, hq3, hq4, h.width 1 z1, d1, d2, e1, e2, hF, pure_eq]
  obtain ⟨p, hp⟩ := coons_total hF v2' v1 (S := fun t => lineAt (s.M 1) (s.T 1) t) (fun _ => rfl) (W := fun t => lineAt (s.M 1) (s.B 1) t) (fun _ => rfl) u v
  have val := fun A B C E => coons_aff hF v2' v1 (S := fun t => lineAt (s.M 1) (s.T 1) t) (fun _ => rfl) (W := fun t => lineAt (s.M 1) (s.B 1) t)
    (fun _ => rfl) A B C E hp
  have hr := RotatedPatch_eq F (-90 * Real.pi / 180) "z" .z (s.M 1) ((namesAxis_iff _ 2).1 (.inl rfl)) _ _ _ hp
  have vx := val 1 0 0 0
  have vy := val 0 1 0 0
  have vz := val 0 0 1 0
  have quadr := fun top {r : ℝ} (hr' : r ∈ Set.Icc (0 : ℝ) 1) => ellArc_quadrant h.shape.like hb hwp hfit.1.1 hfit.2 top hr'
  have hu1 := sub_nonneg.2 hu.2
  have hv1 := sub_nonneg.2 hv.2
  obtain ⟨s0, s1, s2⟩ := quadr false (r := 1 - u) ⟨hu1, by linarith [hu.1]⟩
  obtain ⟨t0, t1, t2'⟩ := quadr true hv
  obtain ⟨x0, x1, -⟩ := quadr false z1
  simp only [if_true, Bool.false_eq_true, if_false] at s2 t2'
  have hpole := (vdist_coords _ _).2.2.trans ((g2 (Real.pi / 2)).trans hgap)
  simp only [swing, upBy] at hpole
  have ex : ∀ top r, (ellArc ptan (s.half 1) (s.wd 1) top r).x = 0 := fun _ _ => rfl
  rw [hT, hB] at vx vy vz
  simp only [aff, sub_self, sub_zero, n2, ex, lineAt, upBy, Vec.add_x, Vec.add_y, Vec.add_z, Vec.mul_x, Vec.mul_y, Vec.mul_z] at vx vy vz
  rw [hr]
  generalize s.M 1 = m at *
  generalize s.half 1 = b at *
  generalize s.wd 1 = wd at *
  set Sz := (ellArc ptan b wd false (1 - u)).z
  set Tz := (ellArc ptan b wd true v).z
  set Xz := (ellArc ptan b wd false 1).z
  set Sy := (ellArc ptan b wd false (1 - u)).y
  set Ty := (ellArc ptan b wd true v).y
  set Xy := (ellArc ptan b wd false 1).y
  have ang : -90 * Real.pi / 180 = -(Real.pi / 2) := by ring
  refine ⟨p.y - m.y, v * Sz + u * Tz, -((1 - u) * v * (Xz - b)), ?_, ?_, ?_, ?_⟩
  · congr 1
    simp only [rotAbout, ang, Real.cos_neg, Real.sin_neg, Real.cos_pi_div_two, Real.sin_pi_div_two]
    ext
    · simp; ring
    · simp; linear_combination -vx
    · simp; linear_combination vz
  · have := patch_across (u := u) (v := 1 - v) hu ⟨hv1, by linarith [hv.1]⟩ s0 s1 t0 t1 x0 x1
    refine le_trans (le_of_eq ?_) this
    congr 1
    linear_combination vy
  · have k1 := mul_nonneg hv.1 s2.1
    have k2 := (mul_le_of_le_one_left s2.1 hv.2).trans s2.2
    have k3 := mul_nonneg hu.1 (neg_nonneg.2 t2'.2)
    have k4 := (mul_le_of_le_one_left (neg_nonneg.2 t2'.2) hu.2)
    rw [abs_le]
    constructor <;> linarith [t2'.1]
  · rw [abs_neg, abs_mul, abs_of_nonneg (mul_nonneg hu1 hv.1)]
    exact (mul_le_of_le_one_left (abs_nonneg _) (mul_le_one₀ (by linarith [hu.1]) hv.1 hv.2)).trans hpole

/-- The patch that closes the flap at the root. -/
theorem wing_closeFlap_at : ∃ F, Wing.closeFlap w = .ok [("interior_flap_patch", F)] ∧
    ∀ u v, F u v = .ok (bil (liftBy (midH s.ht s.hb) w.args.A0) (liftBy s.hb w.args.A0) (flapTip w s w.args.A0) (liftBy s.ht w.args.A0) u v) := by
  have q := wing_te h.toWingBase 0 ⟨le_rfl, zero_le_one⟩
  simp only [lineAt_zero] at q
  have tip : (⟨(liftBy (midH s.ht s.hb) w.args.A0).x - w.args.flap_length * Real.cos w.args.flap_angle, (liftBy (midH s.ht s.hb) w.args.A0).y,
      (liftBy (midH s.ht s.hb) w.args.A0).z + w.args.flap_length * Real.sin w.args.flap_angle⟩ : V) = flapTip w s w.args.A0 := rfl
  obtain ⟨F, hF, vF⟩ := coons_quad (Line (liftBy s.ht w.args.A0) (flapTip w s w.args.A0)) (Line (liftBy s.hb w.args.A0) (flapTip w s w.args.A0))
    (Line (liftBy (midH s.ht s.hb) w.args.A0) (liftBy s.hb w.args.A0)) (Line (liftBy (midH s.ht s.hb) w.args.A0) (liftBy s.ht w.args.A0)) _ _ _ _
    (fun _ => rfl) (fun _ => rfl) (fun _ => rfl) (fun _ => rfl)
  refine ⟨F, ?_, vF⟩
  unfold Wing.closeFlap
  simp only [q, ok_bind, tip, hF, pure_eq]

end

end HV
