import Verif.Lemmas.BisectEnd
import Verif.Lemmas.CubicEdge
import Verif.Lemmas.Assembly
import Verif.Model.Hangar5
import Verif.Props.BentFin
import Verif.Props.Hifire4

/-!
# The body of the waverider
-/

namespace HV
open Spec Veh

namespace Spec

/-- The coefficients of the two parabolas the waverider is bent to. -/
noncomputable def bendX (p : Waverider.Params) : ℝ := 5 * (p.x_curve_mult - p.curve_zero) * 0.05
noncomputable def bendY (p : Waverider.Params) : ℝ := 5 * (p.y_curve_mult - p.curve_zero) * 0.1

/-- A box that holds every part of the waverider before it is bent. -/
noncomputable def waveriderX (p : Waverider.Params) : ℝ := 2 * p.length + |p.w1x| + |p.w2x| + p.le_width + 1
noncomputable def waveriderY (p : Waverider.Params) : ℝ :=
  p.width / 2 + |p.flap_height| + |p.w1y - p.zero_offset| + |p.w2y - p.zero_offset| + p.le_width + 1
noncomputable def waveriderZ (p : Waverider.Params) : ℝ := p.length + p.width + p.LE_thickness + 1

/-- The factor by which the curvatures enlarge small distances in that box. -/
noncomputable def waveriderFactor (p : Waverider.Params) : ℝ := parabolaFactor (bendX p) (bendY p) (waveriderX p) (waveriderY p) (waveriderZ p)

/-- Sensible dimensions of the waverider. -/
structure WaveriderOk (p : Waverider.Params) : Prop where
  length : 0 < p.length
  width : 0 < p.width
  small : p.width ≤ 50
  nose : p.length / 8 ≤ p.f1x ∧ p.f1x ≤ p.length
  radius1 : 0 ≤ p.f1y ∧ p.f1y ≤ p.width / 2
  radius2 : 0 ≤ p.f2y ∧ p.f2y ≤ p.width / 2
  px : 0 < p.p2x ∧ p.p2x ≤ p.p3x ∧ p.p3x ≤ p.length
  py : p.width / 20 ≤ p.p3y ∧ p.p3y ≤ p.p2y ∧ p.p2y ≤ p.width / 2
  sect : 0 < p.u1y ∧ 0 ≤ p.u3y ∧ p.u3y ≤ p.u1y
  thick : p.width / 1000 ≤ p.LE_thickness ∧ p.LE_thickness ≤ 50
  edge : 1 / 1000 ≤ p.le_width
  flap : 0 ≤ p.a0_t ∧ p.a0_t ≤ p.tt_t ∧ p.tt_t ≤ 1
  bend : waveriderFactor p ≤ 5e6

end Spec

/-- The height of a section where the parameter may pass the end: at most the height of the body, and below zero by no more than a thousandth. -/
theorem Cubic.tip {u v s h F : ℝ} (hu : 0 < u) (hv : 0 ≤ v) (huv : v ≤ u) (hs : 0 ≤ s) (h0 : 0 ≤ h) (hF : h ≤ F)
    (h1 : 1 ≤ s → s ≤ 120 ∧ (s - 1) * h ≤ 1e-8 * F) :
    |Cubic.bez u u v 0 s * (h / u)| ≤ F ∧ -(1e-3 * F) ≤ Cubic.bez u u v 0 s * (h / u) := by
  have hF0 := h0.trans hF
  obtain ⟨l, r⟩ := Cubic.section_bounds hv huv hs
  have e : Cubic.bez u u v 0 s * (h / u) = Cubic.bez u u v 0 s / u * h := by field_simp
  rw [e]
  rcases le_total s 1 with hs1 | hs1
  · obtain ⟨l1, l2⟩ := l hs1
    have k1 : 0 ≤ Cubic.bez u u v 0 s / u := by positivity
    have k2 : Cubic.bez u u v 0 s / u ≤ 1 := (div_le_one hu).2 l2
    have k3 := mul_le_mul k2 hF h0 zero_le_one
    have k4 := mul_nonneg k1 h0
    rw [abs_of_nonneg k4]
    constructor <;> linarith
  · obtain ⟨r1, r2⟩ := r hs1
    obtain ⟨q1, q2⟩ := h1 hs1
    have hd := sub_nonneg.2 hs1
    have k1 : -(3 * s ^ 2 * (s - 1)) ≤ Cubic.bez u u v 0 s / u := by rw [le_div_iff₀ hu]; nlinarith
    have k2 : Cubic.bez u u v 0 s / u ≤ (s - 1) ^ 2 * (2 * s + 1) := by rw [div_le_iff₀ hu]; nlinarith
    have k3 := mul_le_mul_of_nonneg_right k1 h0
    have k4 := mul_le_mul_of_nonneg_right k2 h0
    have m0 : 0 ≤ (s - 1) * h := mul_nonneg hd h0
    have s2 : s ^ 2 ≤ 14400 := by nlinarith
    have s3 : (s - 1) * (2 * s + 1) ≤ 29000 := by nlinarith
    have b1 : s ^ 2 * ((s - 1) * h) ≤ 14400 * (1e-8 * F) := mul_le_mul s2 q2 m0 (by norm_num)
    have b2 : (s - 1) * (2 * s + 1) * ((s - 1) * h) ≤ 29000 * (1e-8 * F) := mul_le_mul s3 q2 m0 (by norm_num)
    have c1 : -(3 * s ^ 2 * (s - 1)) * h = -3 * (s ^ 2 * ((s - 1) * h)) := by ring
    have c2 : (s - 1) ^ 2 * (2 * s + 1) * h = (s - 1) * (2 * s + 1) * ((s - 1) * h) := by ring
    rw [c1] at k3
    rw [c2] at k4
    constructor
    · rw [abs_le]; constructor <;> linarith
    · linarith

namespace Waverider
variable {p : Params}

theorem localY_spec (line : PathObj) (X Y Z : ℝ → ℝ) (hl : ∀ t, line.call t = .ok ⟨X t, Y t, Z t⟩) (hc : Continuous X) (x : ℝ) (h0 : X 0 ≤ x) (h1 : x ≤ X 1) :
    ∃ t ∈ Set.Icc (0 : ℝ) 1, localY bisect01 line x = .ok (Y t) ∧ (∃ r ∈ Set.Icc (0 : ℝ) 1, X r = x ∧ |t - r| ≤ 3e-12) ∧
      (X 0 = x → t = 0) ∧ (t = 1 ∧ X 1 = x ∨ 1e-12 ≤ 1 - t) := by
  obtain ⟨t, ht, he, ⟨r, hr, hg, hd⟩, k0, k1⟩ := scipyBisect_end (fun t => do let q ← line.call t; return q.x - x) (fun t => X t - x)
    (fun t _ => by simp only [hl, ok_bind]; rfl) (hc.sub continuous_const).continuousOn (mul_nonpos_of_nonpos_of_nonneg (by linarith) (by linarith))
  refine ⟨t, ht, ?_, ⟨r, hr, by linarith, hd⟩, fun h => k0 (by linarith), k1.imp (fun h => ⟨h.1, by linarith [h.2]⟩) id⟩
  unfold localY bisect01
  rw [he, ok_bind, hl, ok_bind]
  rfl

theorem fuse_call (p : Params) (t : ℝ) : (fuseLine p).call t = .ok ⟨Cubic.fuseX p.f1x p.length t, Cubic.fuseY p.f1y p.f2y t, 0⟩ := by
  unfold fuseLine
  rw [bezier5]
  simp only [Cubic.fuseX, Cubic.fuseY, Except.ok.injEq]
  ext <;> simp <;> ring

/-- The leading edge. -/
noncomputable def lead (p : Params) (y2 y3 : ℝ) : PathObj := Bezier [B0 p, ⟨p.p2x, y2, 0⟩, ⟨p.p3x, y3, 0⟩, TT p]

noncomputable def leadX (p : Params) : ℝ → ℝ := Cubic.bez 0 p.p2x p.p3x p.length
noncomputable def leadY (p : Params) (y2 y3 : ℝ) : ℝ → ℝ := Cubic.bez (p.width / 2) y2 y3 0

theorem lead_call (p : Params) (y2 y3 t : ℝ) : (lead p y2 y3).call t = .ok ⟨leadX p t, leadY p y2 y3 t, 0⟩ := by
  unfold lead
  rw [bezier4]
  simp only [leadX, leadY, Cubic.bez, B0, TT, Except.ok.injEq]
  ext <;> simp

theorem fuse_height (hp : WaveriderOk p) (x : ℝ) (h0 : 0 ≤ x) (h1 : x ≤ p.length) :
    ∃ t ∈ Set.Icc (0 : ℝ) 1, localY bisect01 (fuseLine p) x = .ok (Cubic.fuseY p.f1y p.f2y t) ∧ (0 = x → t = 0) ∧
      ∃ r ∈ Set.Icc (0 : ℝ) 1, Cubic.fuseX p.f1x p.length r = x ∧ |t - r| ≤ 3e-12 := by
  obtain ⟨t, ht, a, b, c, -⟩ := localY_spec (fuseLine p) _ _ (fun _ => 0) (fuse_call p) (Cubic.fuseX_continuous _ _) x (by rw [Cubic.fuseX_zero]; exact h0)
    (by rw [Cubic.fuseX_one]; exact h1)
  exact ⟨t, ht, a, fun h => c (by rw [Cubic.fuseX_zero]; exact h), b⟩

/-- The leading edge of the wings: its inner points are raised to the height of the fuselage, but not beyond the width. -/
theorem edge_ok (hp : WaveriderOk p) : ∃ y2 y3, edge bisect01 p = .ok (lead p y2 y3) ∧ p.width / 20 ≤ y3 ∧ y3 ≤ y2 ∧ y2 ≤ p.width / 2 := by
  obtain ⟨t, ht, a, -⟩ := fuse_height hp p.p2x hp.px.1.le (hp.px.2.1.trans hp.px.2.2)
  obtain ⟨b0, b1, -⟩ := Cubic.fuseY_bounds hp.radius1.1 hp.radius2.1 hp.radius1.2 hp.radius2.2 ht
  refine ⟨max p.p2y (Cubic.fuseY p.f1y p.f2y t), max p.p3y (Cubic.fuseY p.f1y p.f2y t), ?_, ?_, ?_, ?_⟩
  · unfold edge
    rw [a, ok_bind, ok_bind]
    rfl
  · exact hp.py.1.trans (le_max_left _ _)
  · exact max_le_max hp.py.2.1 le_rfl
  · exact max_le hp.py.2.2 b1

/-- The number in a result. -/
noncomputable def num (r : Res ℝ) : ℝ := match r with
  | .ok x => x
  | .error _ => 0

/-- The parameter of the section. -/
noncomputable def ratio (w y : ℝ) : ℝ := if w = 0 then 0 else y / w

theorem sectParam_ok (w y : ℝ) : sectParam w y = .ok (ratio w y) := by
  unfold sectParam ratio
  by_cases h : w = 0
  · rw [if_pos h, if_pos h]; rfl
  · rw [if_neg h, if_neg h, pdiv_ok _ _ h]

/-- The parameter of the section above a point. -/
noncomputable def param (line : PathObj) (x y : ℝ) : ℝ := ratio (num (localY bisect01 line x)) y

/-- The height of the section. -/
noncomputable def rise (line : PathObj) (p : Params) (x y : ℝ) : ℝ :=
  Cubic.bez p.u1y p.u1y p.u3y 0 (param line x y) * (num (localY bisect01 (fuseLine p) x) / p.u1y)

noncomputable def topH (line : PathObj) (p : Params) (x y : ℝ) : ℝ := -rise line p x y - p.LE_thickness / 2
noncomputable def botH (p : Params) (_x _y : ℝ) : ℝ := p.LE_thickness / 2

section
variable {y2 y3 : ℝ} (hp : WaveriderOk p) (h3 : p.width / 20 ≤ y3) (h32 : y3 ≤ y2) (h2 : y2 ≤ p.width / 2)
include hp h3 h32 h2

omit hp h3 h32 h2 in
/-- The width of the planform at a station. -/
theorem lead_width (x : ℝ) (h0 : 0 ≤ x) (h1 : x ≤ p.length) :
    ∃ t ∈ Set.Icc (0 : ℝ) 1, localY bisect01 (lead p y2 y3) x = .ok (leadY p y2 y3 t) ∧
      (∃ r ∈ Set.Icc (0 : ℝ) 1, leadX p r = x ∧ |t - r| ≤ 3e-12) ∧ (leadY p y2 y3 t = 0 ∨ 1e-12 ≤ 1 - t) := by
  obtain ⟨t, ht, a, b, c, d⟩ := localY_spec (lead p y2 y3) _ _ (fun _ => 0) (lead_call p y2 y3) (Cubic.bez_continuous _ _ _ _) x
    (by rw [leadX, Cubic.bez_zero]; exact h0) (by rw [leadX, Cubic.bez_one]; exact h1)
  refine ⟨t, ht, a, b, d.imp (fun h => ?_) id⟩
  rw [h.1, leadY, Cubic.bez_one]

theorem lead_decr {t u : ℝ} (ht : t ∈ Set.Icc (0 : ℝ) 1) (hu : u ∈ Set.Icc (0 : ℝ) 1) (h : t ≤ u) :
    0 ≤ leadY p y2 y3 t - leadY p y2 y3 u ∧ leadY p y2 y3 t - leadY p y2 y3 u ≤ 3 * (p.width / 2) * (u - t) := by
  have hw := hp.width
  have := Cubic.bez_decr h2 h32 (by linarith : (0 : ℝ) ≤ y3) ht hu h
  rw [sub_zero] at this
  exact this

theorem lead_low {t : ℝ} (ht : t ∈ Set.Icc (0 : ℝ) 1) : p.width / 20 * (1 - t) ≤ leadY p y2 y3 t := by
  have hw := hp.width
  refine le_trans ?_ (Cubic.bez_low h2 h32 (by linarith) ht)
  exact mul_le_mul_of_nonneg_right h3 (by linarith [ht.2])

theorem lead_near {t u : ℝ} (ht : t ∈ Set.Icc (0 : ℝ) 1) (hu : u ∈ Set.Icc (0 : ℝ) 1) {d : ℝ} (h : |u - t| ≤ d) :
    leadY p y2 y3 t - leadY p y2 y3 u ≤ 3 * (p.width / 2) * d := by
  have hw := hp.width
  rcases le_total t u with h' | h'
  · have := (lead_decr hp h3 h32 h2 ht hu h').2
    rw [abs_of_nonneg (by linarith)] at h
    nlinarith
  · have := (lead_decr hp h3 h32 h2 hu ht h').1
    have := (abs_nonneg _).trans h
    nlinarith

/-- The functions of the code are those heights over the rectangle around the planform. -/
theorem top_ok : HeightFn (fun x y => 0 ≤ x ∧ x ≤ p.length ∧ 0 ≤ y) (wingTop bisect01 (lead p y2 y3) p) (topH (lead p y2 y3) p) := by
  rintro x y z ⟨h0, h1, hy⟩
  obtain ⟨t, ht, a, -⟩ := lead_width x h0 h1
  obtain ⟨u, hu, b, -⟩ := fuse_height hp x h0 h1
  have hb := (Cubic.fuseY_bounds hp.radius1.1 hp.radius2.1 hp.radius1.2 hp.radius2.2 hu).1
  have hs : sectParam (leadY p y2 y3 t) y = .ok (param (lead p y2 y3) x y) := by
    unfold param
    rw [a]
    exact sectParam_ok _ _
  have hsect := hp.sect.1.ne'
  unfold wingTop topH rise
  rw [a, ok_bind, hs, ok_bind, b, contour, bezier4, ok_bind, ok_bind, pdiv_ok _ _ hsect, ok_bind, abs_of_nonneg hb]
  simp only [num, pure, Except.pure, Cubic.bez]

theorem bot_ok : HeightFn (fun x y => 0 ≤ x ∧ x ≤ p.length ∧ 0 ≤ y) (wingBot bisect01 (lead p y2 y3) p) (botH p) := by
  rintro x y z ⟨h0, h1, hy⟩
  obtain ⟨t, ht, a, -⟩ := lead_width x h0 h1
  unfold wingBot botH
  rw [a, ok_bind, sectParam_ok, ok_bind]
  simp [pure, Except.pure]

/-- Along the leading edge the section has almost no height below zero. -/
theorem rise_edge (t : ℝ) (ht : t ∈ Set.Icc (0 : ℝ) 1) : |rise (lead p y2 y3) p (leadX p t) (leadY p y2 y3 t)| ≤ p.width / 2 ∧
    -(1e-3 * (p.width / 2)) ≤ rise (lead p y2 y3) p (leadX p t) (leadY p y2 y3 t) := by
  have hw := hp.width
  have hL := hp.length
  have z0 : (0 : ℝ) ∈ Set.Icc (0 : ℝ) 1 := by simp
  have z1 : (1 : ℝ) ∈ Set.Icc (0 : ℝ) 1 := by simp
  have x0 := (Cubic.bez_incr hp.px.1.le hp.px.2.1 hp.px.2.2 z0 ht ht.1).1
  obtain ⟨x1, x2⟩ := Cubic.bez_incr hp.px.1.le hp.px.2.1 hp.px.2.2 ht z1 ht.2
  rw [Cubic.bez_zero] at x0
  rw [Cubic.bez_one] at x1 x2
  rw [sub_zero] at x2
  obtain ⟨s, hs, a, ⟨r, hr, hrx, hsr⟩, hend⟩ := lead_width (leadX p t) (by unfold leadX; linarith) (by unfold leadX; linarith)
  have hrt : r = t := by
    rcases lt_trichotomy r t with h | h | h
    · exact absurd hrx (Cubic.bez_strict hp.px.1 hp.px.2.1 hp.px.2.2 hr ht h).ne
    · exact h
    · exact absurd hrx (Cubic.bez_strict hp.px.1 hp.px.2.1 hp.px.2.2 ht hr h).ne'
  subst hrt
  obtain ⟨u, hu, b, -, v, hv, hvx, huv⟩ := fuse_height hp (leadX p r) (by unfold leadX; linarith) (by unfold leadX; linarith)
  obtain ⟨b0, b1, b2⟩ := Cubic.fuseY_bounds hp.radius1.1 hp.radius2.1 hp.radius1.2 hp.radius2.2 hu
  have hv2 := Cubic.fuseX_end hL.le hp.nose.1 hp.nose.2 hv
  rw [hvx] at hv2
  have hlx : leadX p r = Cubic.bez 0 p.p2x p.p3x p.length r := rfl
  have hv3 : 1 - v ≤ 6 * (1 - r) := by nlinarith
  have hy0 := lead_low hp h3 h32 h2 ht
  have hy1 := lead_low hp h3 h32 h2 hs
  have hy2 := lead_near hp h3 h32 h2 ht hs hsr
  have hy3 := (lead_decr hp h3 h32 h2 ht z1 ht.2).2
  have e1 : leadY p y2 y3 1 = 0 := by rw [leadY, Cubic.bez_one]
  rw [e1, sub_zero] at hy3
  have yn : 0 ≤ leadY p y2 y3 r := le_trans (mul_nonneg (by linarith) (by linarith [ht.2])) hy0
  have hpar : param (lead p y2 y3) (leadX p r) (leadY p y2 y3 r) = ratio (leadY p y2 y3 s) (leadY p y2 y3 r) := by unfold param; rw [a]; rfl
  have hnum : num (localY bisect01 (fuseLine p) (leadX p r)) = Cubic.fuseY p.f1y p.f2y u := by rw [b]; rfl
  unfold rise
  rw [hpar, hnum]
  unfold ratio
  refine Cubic.tip hp.sect.1 hp.sect.2.1 hp.sect.2.2 ?_ b0 b1 ?_
  · split_ifs with hz
    · exact le_rfl
    · exact div_nonneg yn (le_trans (mul_nonneg (by linarith) (by linarith [hs.2])) hy1)
  · split_ifs with hz
    · intro h; norm_num at h
    · intro h
      have q := hend.resolve_left hz
      have qp : 0 < 1 - s := by linarith
      have hlow : 0 < leadY p y2 y3 s := lt_of_lt_of_le (by positivity) hy1
      rw [abs_le] at hsr huv
      have hr4 : 1 - r ≤ 4 * (1 - s) := by linarith [hsr.1, hsr.2]
      have hu27 : 1 - u ≤ 27 * (1 - s) := by linarith [huv.1, huv.2]
      constructor
      · rw [div_le_iff₀ hlow]
        nlinarith [mul_le_mul_of_nonneg_left hr4 hw.le]
      · have hb : Cubic.fuseY p.f1y p.f2y u ≤ 4 * (p.width / 2) * (27 * (1 - s)) := b2.trans (mul_le_mul_of_nonneg_left hu27 (by linarith))
        have he : leadY p y2 y3 r / leadY p y2 y3 s - 1 = (leadY p y2 y3 r - leadY p y2 y3 s) / leadY p y2 y3 s := by
          rw [sub_div, div_self hlow.ne']
        have hee : leadY p y2 y3 r / leadY p y2 y3 s - 1 ≤ 90e-12 / (1 - s) := by
          rw [he, div_le_div_iff₀ hlow qp]
          nlinarith [mul_le_mul_of_nonneg_right hy2 qp.le]
        have h0' : 0 ≤ leadY p y2 y3 r / leadY p y2 y3 s - 1 := by linarith
        calc _ ≤ 90e-12 / (1 - s) * (4 * (p.width / 2) * (27 * (1 - s))) := mul_le_mul hee hb b0 (by positivity)
          _ = 90e-12 * 108 * (p.width / 2) := by field_simp; ring
          _ ≤ 1e-8 * (p.width / 2) := by linarith

/-- Wherever the section parameter does not pass the end by more than a tenth, the section is no higher than the body. -/
theorem rise_within (x y : ℝ) (h0 : 0 ≤ x) (h1 : x ≤ p.length) (hy : 0 ≤ y) (hs : param (lead p y2 y3) x y ≤ 1.1) :
    |rise (lead p y2 y3) p x y| ≤ p.width / 2 := by
  have hw := hp.width
  obtain ⟨u, hu, b, -⟩ := fuse_height hp x h0 h1
  obtain ⟨b0, b1, -⟩ := Cubic.fuseY_bounds hp.radius1.1 hp.radius2.1 hp.radius1.2 hp.radius2.2 hu
  obtain ⟨t, ht, a, -⟩ := lead_width x h0 h1
  have hy1 := lead_low hp h3 h32 h2 ht
  have yn : 0 ≤ leadY p y2 y3 t := le_trans (mul_nonneg (by linarith) (by linarith [ht.2])) hy1
  have ps : 0 ≤ param (lead p y2 y3) x y := by
    rw [show param (lead p y2 y3) x y = ratio (leadY p y2 y3 t) y by unfold param; rw [a]; rfl]
    unfold ratio
    split_ifs
    · exact le_rfl
    · exact div_nonneg hy yn
  have hu1 := hp.sect.1
  unfold rise
  rw [b, abs_mul]
  simp only [num]
  rw [abs_of_nonneg (div_nonneg b0 hu1.le)]
  calc _ ≤ p.u1y * (Cubic.fuseY p.f1y p.f2y u / p.u1y) :=
        mul_le_mul_of_nonneg_right (Cubic.section_small hp.sect.2.1 hp.sect.2.2 ps hs) (div_nonneg b0 hu1.le)
    _ = Cubic.fuseY p.f1y p.f2y u := by field_simp
    _ ≤ _ := b1

end
end Waverider
end HV
