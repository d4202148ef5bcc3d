import Verif.Lemmas.EllipseArc
import Verif.Lemmas.Broken
import Verif.Lemmas.Quads
import Verif.Props.Fin

/-!
# The parts of a fin as panels
-/

namespace HV
open Spec

/-- The point with horizontal distance `v.y` in direction `φ` and height `v.z`. -/
noncomputable def swing (φ : ℝ) (v : V) : V := ⟨v.y * Real.cos φ, v.y * Real.sin φ, v.z⟩

/-- The direction of the leading edge ellipse at parameter `t` of the mean line. -/
noncomputable def angAt (PL : ℝ → V) (t : ℝ) : ℝ :=
  if t = 0 then Real.pi / 2 else if t = 1 then 0
  else Arc.arctan2 ((PL (t + min (min 0.001 |1 - t|) |t - 0|)).y - (PL (t - min (min 0.001 |1 - t|) |t - 0|)).y)
    ((PL (t + min (min 0.001 |1 - t|) |t - 0|)).x - (PL (t - min (min 0.001 |1 - t|) |t - 0|)).x) + Real.pi / 2

/-- The value of a width function. -/
noncomputable def widthAt (wf : ℝ → Res ℝ) (t : ℝ) : ℝ := match wf t with
  | .ok w => w
  | .error _ => 1

theorem leAngle_eq {line : PathObj} {PL : ℝ → V} (h : ∀ t, line.call t = .ok (PL t)) (t : ℝ) :
    leAngle line t = .ok (angAt PL t) := by
  unfold leAngle angAt
  split_ifs
  · rfl
  · rfl
  · simp only [h, bind, Except.bind, pure, Except.pure]

/-- The point of a leading edge rim: parameter `t` along the line, `r` along the ellipse. -/
noncomputable def rimAt (ptan : ℝ → ℝ) (b : ℝ) (wf : ℝ → Res ℝ) (PL : ℝ → V) (top : Bool) (t r : ℝ) : V :=
  PL t + swing (angAt PL t) (ellArc ptan b (widthAt wf t) top r)

/-- A leading edge patch with a vertical guide line at distance `b`. -/
theorem le_value (ptan : ℝ → ℝ) (b : ℝ) (hb : 0 < b) (wf : ℝ → Res ℝ) (PL : ℝ → V) (mean guide : PathObj) (top : Bool)
    (hm : ∀ t, mean.call t = .ok (PL t)) (hg : ∀ t, ∃ g, guide.call t = .ok g ∧ |(PL t).z - g.z| = b) (t0 t1 u r : ℝ)
    (hw : ∃ w, wf (t1 - u * (t1 - t0)) = .ok w) :
    MeanLeadingEdgePatchFunction ptan mean guide wf t0 t1 (sideName top) u r =
      .ok (rimAt ptan b wf PL top (t1 - u * (t1 - t0)) r) := by
  unfold MeanLeadingEdgePatchFunction
  set t := t1 - u * (t1 - t0) with ht
  obtain ⟨g, hg, hz⟩ := hg t
  obtain ⟨w, hw⟩ := hw
  obtain ⟨q, hq, hcall⟩ := ellArc_path ptan ⟨0, 0, 0⟩ ((PL t).z - g.z) b w top hb hz
  have hww : widthAt wf t = w := by unfold widthAt; rw [hw]
  simp only [hm, ok_bind, hg, hw, hq, hcall, leAngle_eq hm, Vec.zero_add']
  unfold rimAt swing
  rw [hww]
  rfl

/-- The vertical vector of length `b`. -/
def upBy (b : ℝ) : V := ⟨0, 0, b⟩

/-- What is needed of the numerical tangent and the widths. -/
structure RimOk (ptan : ℝ → ℝ) (b wmin : ℝ) (wf : ℝ → Res ℝ) : Prop where
  like : TanLike ptan
  bpos : 0 < b
  wpos : 0 < wmin
  fits : PoleFits ptan b wmin
  width : ∀ t ∈ Set.Icc (0 : ℝ) 1, ∃ w, wmin ≤ w ∧ wf t = .ok w

namespace RimOk
variable {ptan : ℝ → ℝ} {b wmin : ℝ} {wf : ℝ → Res ℝ} (h : RimOk ptan b wmin wf)
include h

theorem le_width {t : ℝ} (ht : t ∈ Set.Icc (0 : ℝ) 1) : wmin ≤ widthAt wf t := by
  obtain ⟨w, h1, h2⟩ := h.width t ht
  unfold widthAt; rw [h2]; exact h1

theorem width_pos {t : ℝ} (ht : t ∈ Set.Icc (0 : ℝ) 1) : 0 < widthAt wf t := h.wpos.trans_le (h.le_width ht)

theorem width_ok {t : ℝ} (ht : t ∈ Set.Icc (0 : ℝ) 1) : wf t = .ok (widthAt wf t) := by
  obtain ⟨w, h1, h2⟩ := h.width t ht
  unfold widthAt; rw [h2]

theorem gap_nonneg : 0 ≤ poleGap ptan b wmin := by
  have := h.fits.1.1
  have := h.bpos
  have := h.wpos
  unfold poleGap; positivity

theorem fits_at {t : ℝ} (ht : t ∈ Set.Icc (0 : ℝ) 1) : PoleFits ptan b (widthAt wf t) := by
  obtain ⟨⟨h1, h2, h3⟩, h4⟩ := h.fits
  refine ⟨⟨h1, h2, h3.trans ?_⟩, h4⟩
  have := h.le_width ht
  have := h.wpos
  gcongr

theorem nose (top : Bool) {t : ℝ} (ht : t ∈ Set.Icc (0 : ℝ) 1) :
    ellArc ptan b (widthAt wf t) top (if top then 1 else 0) = ⟨0, widthAt wf t, 0⟩ := by
  obtain ⟨h1, h2⟩ := ellArc_nose ptan h.like b (widthAt wf t) h.bpos (h.width_pos ht) h.fits.1.1 h.fits.2
  cases top
  · exact h1
  · exact h2

/-- The gap at the pole, in every direction. -/
theorem pole (φ : ℝ) {t : ℝ} (ht : t ∈ Set.Icc (0 : ℝ) 1) :
    vdist (swing φ (ellArc ptan b (widthAt wf t) false 1)) (upBy b) ≤ poleGap ptan b wmin ∧
    vdist (swing φ (ellArc ptan b (widthAt wf t) true 0)) (upBy (-b)) ≤ poleGap ptan b wmin := by
  obtain ⟨x, z, e1, e2, x0, x1, hz⟩ := ellArc_pole ptan h.like b (widthAt wf t) h.bpos (h.width_pos ht) h.fits.1.1 h.fits.2
  have hT := h.fits.1.1
  have hb := h.bpos
  have hwm := h.wpos
  have hle := h.le_width ht
  have hg : x + |z - b| ≤ poleGap ptan b wmin := by
    unfold poleGap
    refine add_le_add x1 (hz.trans ?_)
    gcongr
  have hcs := Real.sin_sq_add_cos_sq φ
  have key : ∀ s : ℝ, s ^ 2 = 1 → vdist (swing φ ⟨0, x, s * z⟩) (upBy (s * b)) ≤ poleGap ptan b wmin := by
    intro s hs
    refine le_trans ?_ hg
    apply (abs_le_of_sq_le_sq' _ (by positivity)).2
    rw [vdist_sq]
    simp only [swing, upBy]
    have h1 : (x * Real.cos φ - 0) ^ 2 + (x * Real.sin φ - 0) ^ 2 + (s * z - s * b) ^ 2 = x ^ 2 + |z - b| ^ 2 := by
      rw [sq_abs]
      linear_combination x ^ 2 * hcs + (z - b) ^ 2 * hs
    rw [h1]
    nlinarith [mul_nonneg x0 (abs_nonneg (z - b))]
  rw [e1, e2]
  constructor
  · have := key 1 (by norm_num)
    simpa using this
  · have := key (-1) (by norm_num)
    simpa using this

end RimOk

theorem sub_up (v : V) (b : ℝ) : v - upBy b = v + upBy (-b) := by ext <;> simp [upBy, sub_eq_add_neg]

/-- The rim of the top side as a curve that starts exactly at the skin corner `c`. -/
noncomputable def rimTop (ptan : ℝ → ℝ) (b : ℝ) (wf : ℝ → Res ℝ) (PL : ℝ → V) (n : ℕ) (c : V) (t : ℝ) (j : ℕ) : V :=
  if j = 0 then c - upBy b else rimAt ptan b wf PL true t ((j : ℝ) / n)

/-- The rim of the bottom side as a curve that ends exactly at the skin corner `c`. -/
noncomputable def rimBot (ptan : ℝ → ℝ) (b : ℝ) (wf : ℝ → Res ℝ) (PL : ℝ → V) (n : ℕ) (c : V) (t : ℝ) (j : ℕ) : V :=
  if j = n then c + upBy b else rimAt ptan b wf PL false t ((j : ℝ) / n)

/-- The nose curve of a leading edge patch. -/
noncomputable def noseAt (wf : ℝ → Res ℝ) (PL : ℝ → V) (t0 t1 : ℝ) (n i : ℕ) : V :=
  PL (t1 - (i : ℝ) / n * (t1 - t0)) + swing (angAt PL (t1 - (i : ℝ) / n * (t1 - t0))) ⟨0, widthAt wf (t1 - (i : ℝ) / n * (t1 - t0)), 0⟩

/-- A top leading edge patch between the skin corners `c0` (at `t0`) and `c1` (at `t1`). -/
noncomputable def leTop (ptan : ℝ → ℝ) (b : ℝ) (wf : ℝ → Res ℝ) (PL : ℝ → V) (n : ℕ) (t0 t1 : ℝ) (c0 c1 : V) : Panel where
  P i j := rimAt ptan b wf PL true (t1 - (i : ℝ) / n * (t1 - t0)) ((j : ℝ) / n)
  S := seg n (c1 - upBy b) (c0 - upBy b)
  N := noseAt wf PL t0 t1 n
  W := rimTop ptan b wf PL n c1 t1
  E := rimTop ptan b wf PL n c0 t0

/-- A bottom leading edge patch. -/
noncomputable def leBot (ptan : ℝ → ℝ) (b : ℝ) (wf : ℝ → Res ℝ) (PL : ℝ → V) (n : ℕ) (t0 t1 : ℝ) (c0 c1 : V) : Panel where
  P i j := rimAt ptan b wf PL false (t1 - (i : ℝ) / n * (t1 - t0)) ((j : ℝ) / n)
  S := noseAt wf PL t0 t1 n
  N := seg n (c1 + upBy b) (c0 + upBy b)
  W := rimBot ptan b wf PL n c1 t1
  E := rimBot ptan b wf PL n c0 t0

section
variable {ptan : ℝ → ℝ} {b wmin : ℝ} {wf : ℝ → Res ℝ} (h : RimOk ptan b wmin wf) (PL : ℝ → V) (n : ℕ) (hn : 1 ≤ n) (t0 t1 : ℝ)
  (c0 c1 : V) (δ : ℝ) (m0 : t0 ∈ Set.Icc (0 : ℝ) 1) (m1 : t1 ∈ Set.Icc (0 : ℝ) 1)
  (hnear : ∀ u ∈ Set.Icc (0 : ℝ) 1, vdist (PL (t1 - u * (t1 - t0))) (lineAt c1 c0 u) ≤ δ)
include h hn m0 m1 hnear

theorem mem_param (i : ℕ) (hi : i ≤ n) : t1 - (i : ℝ) / n * (t1 - t0) ∈ Set.Icc (0 : ℝ) 1 := by
  have hn0 : (0 : ℝ) < n := by exact_mod_cast hn
  have u0 : (0 : ℝ) ≤ (i : ℝ) / n := by positivity
  have u1 : (i : ℝ) / n ≤ 1 := (div_le_one hn0).2 (by exact_mod_cast hi)
  constructor
  · nlinarith [m0.1, m1.1]
  · nlinarith [m0.2, m1.2]

theorem leTop_good : (leTop ptan b wf PL n t0 t1 c0 c1).Good n (δ + poleGap ptan b wmin) := by
  have hn0 : (n : ℝ) ≠ 0 := by positivity
  have hnn : n ≠ 0 := by omega
  have hgap := h.gap_nonneg
  have hδ : 0 ≤ δ := (vdist_nonneg _ _).trans (hnear 0 ⟨le_rfl, zero_le_one⟩)
  have hε : 0 ≤ δ + poleGap ptan b wmin := by linarith
  have e0 : t1 - 0 * (t1 - t0) = t1 := by ring
  have e1 : t1 - 1 * (t1 - t0) = t0 := by ring
  have close : ∀ i ≤ n, vdist (rimAt ptan b wf PL true (t1 - (i : ℝ) / n * (t1 - t0)) 0) (seg n (c1 - upBy b) (c0 - upBy b) i) ≤
      δ + poleGap ptan b wmin := by
    intro i hi
    have hm := mem_param h PL n hn t0 t1 c0 c1 δ m0 m1 hnear i hi
    have u0 : (0 : ℝ) ≤ (i : ℝ) / n := by positivity
    have u1 : (i : ℝ) / n ≤ 1 := (div_le_one (by positivity)).2 (by exact_mod_cast hi)
    have a := (h.pole (angAt PL (t1 - (i : ℝ) / n * (t1 - t0))) hm).2
    have c := hnear ((i : ℝ) / n) ⟨u0, u1⟩
    unfold rimAt seg
    rw [lineAt_sub, sub_up]
    refine (vdist_triangle _ (PL (t1 - (i : ℝ) / n * (t1 - t0)) + upBy (-b)) _).trans ?_
    rw [vdist_add_left, vdist_add_right]
    linarith
  have nose : ∀ t ∈ Set.Icc (0 : ℝ) 1, ellArc ptan b (widthAt wf t) true 1 = ⟨0, widthAt wf t, 0⟩ := fun t ht => h.nose true ht
  have z : ∀ {u v : V}, u = v → vdist u v ≤ δ + poleGap ptan b wmin := fun h => by rw [h, vdist_self]; exact hε
  constructor
  · simp [leTop, seg_zero, rimTop]
  · simp [leTop, seg_last n hn, rimTop]
  · simp only [leTop, noseAt, rimTop, hnn, if_false, Nat.cast_zero, zero_div, e0, rimAt, div_self hn0, nose t1 m1]
  · simp only [leTop, noseAt, rimTop, hnn, if_false, e1, rimAt, div_self hn0, nose t0 m0]
  · intro i hi
    have := close i hi
    simpa [leTop] using this
  · intro i hi
    have hm := mem_param h PL n hn t0 t1 c0 c1 δ m0 m1 hnear i hi
    apply z
    simp only [leTop, noseAt, rimAt, div_self hn0, nose _ hm]
  · intro j hj
    by_cases hj0 : j = 0
    · subst hj0
      have := close 0 (by omega)
      rw [seg_zero] at this
      simpa [leTop, rimTop] using this
    · apply z
      simp [leTop, rimTop, hj0]
  · intro j hj
    by_cases hj0 : j = 0
    · subst hj0
      have := close n le_rfl
      rw [seg_last n hn] at this
      simpa [leTop, rimTop] using this
    · apply z
      simp [leTop, rimTop, hj0, div_self hn0]

theorem leBot_good : (leBot ptan b wf PL n t0 t1 c0 c1).Good n (δ + poleGap ptan b wmin) := by
  have hn0 : (n : ℝ) ≠ 0 := by positivity
  have hnn : (0 : ℕ) ≠ n := by omega
  have hgap := h.gap_nonneg
  have hδ : 0 ≤ δ := (vdist_nonneg _ _).trans (hnear 0 ⟨le_rfl, zero_le_one⟩)
  have hε : 0 ≤ δ + poleGap ptan b wmin := by linarith
  have e0 : t1 - 0 * (t1 - t0) = t1 := by ring
  have e1 : t1 - 1 * (t1 - t0) = t0 := by ring
  have close : ∀ i ≤ n, vdist (rimAt ptan b wf PL false (t1 - (i : ℝ) / n * (t1 - t0)) 1) (seg n (c1 + upBy b) (c0 + upBy b) i) ≤
      δ + poleGap ptan b wmin := by
    intro i hi
    have hm := mem_param h PL n hn t0 t1 c0 c1 δ m0 m1 hnear i hi
    have u0 : (0 : ℝ) ≤ (i : ℝ) / n := by positivity
    have u1 : (i : ℝ) / n ≤ 1 := (div_le_one (by positivity)).2 (by exact_mod_cast hi)
    have a := (h.pole (angAt PL (t1 - (i : ℝ) / n * (t1 - t0))) hm).1
    have c := hnear ((i : ℝ) / n) ⟨u0, u1⟩
    unfold rimAt seg
    rw [lineAt_add]
    refine (vdist_triangle _ (PL (t1 - (i : ℝ) / n * (t1 - t0)) + upBy b) _).trans ?_
    rw [vdist_add_left, vdist_add_right]
    linarith
  have nose : ∀ t ∈ Set.Icc (0 : ℝ) 1, ellArc ptan b (widthAt wf t) false 0 = ⟨0, widthAt wf t, 0⟩ := fun t ht => h.nose false ht
  have z : ∀ {u v : V}, u = v → vdist u v ≤ δ + poleGap ptan b wmin := fun h => by rw [h, vdist_self]; exact hε
  constructor
  · simp only [leBot, noseAt, rimBot, hnn, if_false, Nat.cast_zero, zero_div, e0, rimAt, nose t1 m1]
  · simp only [leBot, noseAt, rimBot, hnn, if_false, Nat.cast_zero, zero_div, div_self hn0, e1, rimAt, nose t0 m0]
  · simp [leBot, seg_zero, rimBot]
  · simp [leBot, seg_last n hn, rimBot]
  · intro i hi
    have hm := mem_param h PL n hn t0 t1 c0 c1 δ m0 m1 hnear i hi
    apply z
    simp only [leBot, noseAt, rimAt, Nat.cast_zero, zero_div, nose _ hm]
  · intro i hi
    have := close i hi
    simpa [leBot, div_self hn0] using this
  · intro j hj
    by_cases hj0 : j = n
    · subst hj0
      have := close 0 (by omega)
      rw [seg_zero] at this
      simpa [leBot, rimBot, div_self hn0] using this
    · apply z
      simp [leBot, rimBot, hj0]
  · intro j hj
    by_cases hj0 : j = n
    · subst hj0
      have := close j le_rfl
      rw [seg_last j hn] at this
      simpa [leBot, rimBot, div_self hn0] using this
    · apply z
      simp [leBot, rimBot, hj0, div_self hn0]

end

/-- A Coons patch whose edges nearly meet: the west and east sides are exact, the other two are within the corner gap. -/
theorem coons_near (n e s w : PathObj) (N E S W : ℝ → V) (hn : ∀ t, n.call t = .ok (N t)) (he : ∀ t, e.call t = .ok (E t))
    (hs : ∀ t, s.call t = .ok (S t)) (hw : ∀ t, w.call t = .ok (W t)) (k00 : CornerClose (S 0) (W 0)) (k10 : CornerClose (S 1) (E 0))
    (k01 : CornerClose (N 0) (W 1)) (k11 : CornerClose (N 1) (E 1)) (δ : ℝ) (d00 : vdist (S 0) (W 0) ≤ δ) (d10 : vdist (S 1) (E 0) ≤ δ)
    (d01 : vdist (N 0) (W 1) ≤ δ) (d11 : vdist (N 1) (E 1) ≤ δ) :
    ∃ (F : Surf) (G : ℝ → ℝ → V), CoonsPatch n e s w = .ok F ∧ (∀ u v, F u v = .ok (G u v)) ∧ (∀ v, G 0 v = W v) ∧ (∀ v, G 1 v = E v) ∧
      ∀ u ∈ Set.Icc (0 : ℝ) 1, vdist (G u 0) (S u) ≤ δ ∧ vdist (G u 1) (N u) ≤ δ := by
  have hk : Coons.ofEdges n e s w = .ok ⟨n, e, s, w, S 0, S 1, N 1, N 0, false, ⟨0, 0, 0⟩⟩ := by
    rw [Coons.ofEdges_ok_iff]
    exact ⟨S 0, S 1, N 0, N 1, W 0, W 1, E 0, E 1, hs _, hs _, hn _, hn _, hw _, hw _, he _, he _, k00, k10, k01, k11, rfl⟩
  set c : Coons := ⟨n, e, s, w, S 0, S 1, N 1, N 0, false, ⟨0, 0, 0⟩⟩ with hc
  let G : ℝ → ℝ → V := fun u v => Coons.blend (S u) (N u) (W v) (E v) (S 0) (S 1) (N 1) (N 0) ⟨0, 0, 0⟩ u v
  have near : ∀ u ∈ Set.Icc (0 : ℝ) 1, ∀ (a p q p' q' : V), vdist p p' ≤ δ → vdist q q' ≤ δ →
      vdist (a + ((p' - p) * (1 - u) + (q' - q) * u)) a ≤ δ := by
    intro u hu a p q p' q' h1 h2
    unfold vdist at *
    rw [dist_eq_norm] at h1 h2 ⊢
    rw [← norm_neg, neg_sub] at h1 h2
    simp only [Vec.toE_add, Vec.toE_mul, Vec.toE_sub, add_sub_cancel_left]
    refine (norm_add_le _ _).trans ?_
    rw [norm_smul, norm_smul, Real.norm_of_nonneg (by linarith [hu.2]), Real.norm_of_nonneg hu.1]
    nlinarith [hu.1, hu.2]
  refine ⟨c.call, G, by unfold CoonsPatch; rw [hk, ok_bind]; rfl, ?_, ?_, ?_, ?_⟩
  · intro u v
    simp only [Coons.call, hc, hn, he, hs, hw, bind, Except.bind, pure, Except.pure, G]
  · intro v
    simp only [G, Coons.blend]
    ext <;> simp
  · intro v
    simp only [G, Coons.blend]
    ext <;> simp
  · intro u hu
    constructor
    · have : G u 0 = S u + ((W 0 - S 0) * (1 - u) + (E 0 - S 1) * u) := by
        simp only [G, Coons.blend]
        ext <;> simp <;> ring
      rw [this]
      exact near u hu _ _ _ _ _ d00 d10
    · have : G u 1 = N u + ((W 1 - N 0) * (1 - u) + (E 1 - N 1) * u) := by
        simp only [G, Coons.blend]
        ext <;> simp <;> ring
      rw [this]
      exact near u hu _ _ _ _ _ d01 d11

end HV
