import Verif.Model.Geometry
import Verif.Lemmas.Vec
import Mathlib.Analysis.SpecialFunctions.Trigonometric.Deriv

/-!
# Properties C20, C21: ellipse, offset and mean paths
-/

namespace HV

open Spec

/-- What is assumed of the numerical `tan`: the exact value inside the quarter turns, and the right
sign at the end points (where the exact function has a pole and IEEE `tan` returns a large number). -/
structure Spec.TanLike (ptan : ℝ → ℝ) : Prop where
  exact : ∀ θ, |θ| < Real.pi / 2 → ptan θ = Real.tan θ
  right : 0 ≤ ptan (Real.pi / 2)
  left : ptan (-(Real.pi / 2)) ≤ 0

namespace Elipse

theorem denom_pos {a b T : ℝ} (hb : b ≠ 0) : 0 < b * b + (a * T) ^ 2 := by
  have := mul_self_pos.2 hb
  positivity

/-- The angle of the ellipse point for each side. -/
noncomputable def angle (top : Bool) (r : ℝ) : ℝ :=
  if top then -Real.pi / 2 + r * Real.pi / 2 else r * Real.pi / 2

theorem at_eq (ptan : ℝ → ℝ) (centre : V) (th w : ℝ) (top : Bool) (r : ℝ) (hth : th ≠ 0) :
    elipseAt ptan centre th w (if top then "top" else "bot") r =
      .ok (centre + (⟨0, w * |th| / Real.sqrt (th ^ 2 + (w * ptan (angle top r)) ^ 2),
        w * |th| / Real.sqrt (th ^ 2 + (w * ptan (angle top r)) ^ 2) * ptan (angle top r)⟩ : V)) := by
  have hb : |th| ≠ 0 := abs_ne_zero.2 hth
  have hs : ∀ T, Real.sqrt (|th| * |th| + (w * T) ^ 2) ≠ 0 := fun T =>
    (Real.sqrt_pos.2 (denom_pos hb)).ne'
  have e : |th| * |th| = th ^ 2 := by rw [abs_mul_abs_self]; ring
  cases top
  · simp [elipseAt, pdiv, angle, bind, Except.bind, pure, Except.pure, hs, e] at hs ⊢
    rw [if_neg (hs _)]
  · simp [elipseAt, pdiv, angle, bind, Except.bind, pure, Except.pure, hs, e] at hs ⊢
    rw [if_neg (hs _)]

end Elipse

open Elipse

/-- C20: every point of an ellipse path lies in the plane x = centre.x on the ellipse with semi-axes
`LE_width` in y and `|thickness|` in z, whatever the numerical `tan` returns. -/
theorem C20_on_ellipse (ptan : ℝ → ℝ) (centre : V) (thickness LE_width : ℝ) (side : String) (r : ℝ)
    (ht : thickness ≠ 0) (hw : LE_width ≠ 0) (hside : side = "top" ∨ side = "bot") :
    ∃ p, (ElipsePath ptan centre thickness LE_width side).call r = .ok p ∧ p.x = centre.x ∧
      ((p.y - centre.y) / LE_width) ^ 2 + ((p.z - centre.z) / thickness) ^ 2 = 1 := by
  obtain ⟨top, rfl⟩ : ∃ top : Bool, side = if top then "top" else "bot" := by
    rcases hside with rfl | rfl
    · exact ⟨true, rfl⟩
    · exact ⟨false, rfl⟩
  refine ⟨_, at_eq ptan centre thickness LE_width top r ht, by simp, ?_⟩
  set T := ptan (angle top r)
  have hD : 0 < thickness ^ 2 + (LE_width * T) ^ 2 := by positivity
  have hs := Real.sq_sqrt hD.le
  set S := Real.sqrt (thickness ^ 2 + (LE_width * T) ^ 2)
  have hS : S ≠ 0 := (Real.sqrt_pos.2 hD).ne'
  simp only [Vec.add_y, Vec.add_z, add_sub_cancel_left]
  have h2 : |thickness| ^ 2 = thickness ^ 2 := sq_abs _
  rw [div_pow, div_pow, div_pow, mul_pow, h2]
  have h3 : LE_width ^ 2 * thickness ^ 2 / S ^ 2 / LE_width ^ 2 = thickness ^ 2 / S ^ 2 := by
    field_simp
  have h4 : (LE_width ^ 2 * thickness ^ 2 / S ^ 2) * T ^ 2 / thickness ^ 2 = (LE_width * T) ^ 2 / S ^ 2 := by
    field_simp
  rw [h3, mul_pow, div_pow, mul_pow, h2, h4, ← add_div, ← hs, div_self (pow_ne_zero 2 hS)]

/-- C20: for positive semi-axes the path stays on the nose side (y above the centre), `"bot"` has
z ≥ centre.z and `"top"` z ≤ centre.z for `r` in `[0,1]`; the end at angle 0 (`r=0` for `"bot"`,
`r=1` for `"top"`) is exactly the nose point; away from the pole the polar angle is `r π/2`,
respectively `(r-1) π/2`. -/
theorem C20_sides (ptan : ℝ → ℝ) (hT : TanLike ptan) (centre : V) (thickness LE_width : ℝ)
    (ht : thickness ≠ 0) (hw : 0 < LE_width) :
    (∀ r, 0 ≤ r → r ≤ 1 → ∃ p, (ElipsePath ptan centre thickness LE_width "bot").call r = .ok p ∧
      centre.y < p.y ∧ centre.z ≤ p.z ∧
      (r < 1 → p.z - centre.z = (p.y - centre.y) * Real.tan (r * Real.pi / 2))) ∧
    (∀ r, 0 ≤ r → r ≤ 1 → ∃ p, (ElipsePath ptan centre thickness LE_width "top").call r = .ok p ∧
      centre.y < p.y ∧ p.z ≤ centre.z ∧
      (0 < r → p.z - centre.z = (p.y - centre.y) * Real.tan ((r - 1) * Real.pi / 2))) ∧
    (ElipsePath ptan centre thickness LE_width "bot").call 0 = .ok (centre + ⟨0, LE_width, 0⟩) ∧
    (ElipsePath ptan centre thickness LE_width "top").call 1 = .ok (centre + ⟨0, LE_width, 0⟩) := by
  have hpi := Real.pi_pos
  have hy : ∀ T, 0 < LE_width * |thickness| / Real.sqrt (thickness ^ 2 + (LE_width * T) ^ 2) := by
    intro T
    have hD : 0 < thickness ^ 2 + (LE_width * T) ^ 2 := by positivity
    have := Real.sqrt_pos.2 hD
    have := abs_pos.2 ht
    positivity
  have hT0 : ptan 0 = 0 := by rw [hT.exact 0 (by simpa using by positivity)]; simp
  refine ⟨?_, ?_, ?_, ?_⟩
  · intro r h0 h1
    have hE : r < 1 → ptan (r * Real.pi / 2) = Real.tan (r * Real.pi / 2) := by
      intro h; apply hT.exact
      rw [abs_of_nonneg (by positivity)]; nlinarith
    refine ⟨_, at_eq ptan centre thickness LE_width false r ht, ?_, ?_, ?_⟩
    · have := hy (ptan (angle false r)); simpa using this
    · have h : 0 ≤ ptan (angle false r) := by
        simp only [angle]
        rcases h1.lt_or_eq with h | rfl
        · rw [if_neg (by simp), hE h]
          exact Real.tan_nonneg_of_nonneg_of_le_pi_div_two (by positivity) (by nlinarith)
        · simpa using hT.right
      have := mul_nonneg (hy (ptan (angle false r))).le h
      simpa using this
    · intro h
      simp [angle, hE h]
  · intro r h0 h1
    have e : -Real.pi / 2 + r * Real.pi / 2 = (r - 1) * Real.pi / 2 := by ring
    have hE : 0 < r → ptan ((r - 1) * Real.pi / 2) = Real.tan ((r - 1) * Real.pi / 2) := by
      intro h; apply hT.exact
      rw [abs_lt]; constructor <;> nlinarith
    refine ⟨_, at_eq ptan centre thickness LE_width true r ht, ?_, ?_, ?_⟩
    · have := hy (ptan (angle true r)); simpa using this
    · have h : ptan (angle true r) ≤ 0 := by
        simp only [angle, if_true, e]
        rcases h0.lt_or_eq with h | rfl
        · rw [hE h]
          have hneg : (r - 1) * Real.pi / 2 ≤ 0 := by nlinarith
          exact Real.tan_nonpos_of_nonpos_of_neg_pi_div_two_le hneg (by nlinarith)
        · have e2 : ((0 : ℝ) - 1) * Real.pi / 2 = -(Real.pi / 2) := by ring
          rw [e2]; exact hT.left
      have := mul_nonneg_of_nonpos_of_nonpos (neg_nonpos.2 (hy (ptan (angle true r))).le) h
      simp only [Vec.add_z]
      linarith
    · intro h
      simp [angle, e, hE h]
  · have := at_eq ptan centre thickness LE_width false 0 ht
    have e : LE_width * |thickness| / |thickness| = LE_width := by
      have := abs_pos.2 ht; field_simp
    simp [angle, hT0, Real.sqrt_sq_eq_abs, e] at this
    exact this
  · have := at_eq ptan centre thickness LE_width true 1 ht
    have e : LE_width * |thickness| / |thickness| = LE_width := by
      have := abs_pos.2 ht; field_simp
    have e2 : -Real.pi / 2 + Real.pi / 2 = 0 := by ring
    simp [angle, hT0, Real.sqrt_sq_eq_abs, e, e2] at this
    exact this

/-- C20: an unknown side raises, also when sampling the length. -/
theorem C20_unknown_side (ptan : ℝ → ℝ) (centre : V) (thickness LE_width : ℝ) (side : String) (r : ℝ)
    (h1 : side ≠ "top") (h2 : side ≠ "bot") :
    (ElipsePath ptan centre thickness LE_width side).call r = .error .exc ∧
    (ElipsePath ptan centre thickness LE_width side).length = .error .exc := by
  have : ∀ r, elipseAt ptan centre thickness LE_width side r = .error .exc := by
    intro r
    simp only [elipseAt, h1, h2, if_false, bind, Except.bind, throw, throwThe, MonadExceptOf.throw]
  exact ⟨this r, by simp [ElipsePath, Path.length, this, bind, Except.bind]⟩

/-- A `tan` returning a large number at the poles, as IEEE arithmetic does. -/
example : TanLike (fun θ => if θ = Real.pi / 2 then 10 ^ 16 else if θ = -(Real.pi / 2) then -10 ^ 16
    else Real.tan θ) := by
  have hpi := Real.pi_pos
  refine ⟨?_, by norm_num, ?_⟩
  · intro θ h
    have := abs_lt.1 h
    rw [if_neg (by linarith), if_neg (by linarith)]
  · rw [if_neg (by linarith)]
    norm_num

/-! ## C21 -/

/-- C21: an offset path is the underlying point plus the offset evaluated at its x, y; it raises
exactly when the underlying path or the offset function raises.  The trailing edge path is the offset
path over the line between its end points. -/
theorem C21_offset (p : PathObj) (f : OffFn) (t : ℝ) (q : V) :
    ((OffsetPathFunction p f).call t = .ok q ↔
      ∃ pos off, p.call t = .ok pos ∧ f pos.x pos.y 0 = .ok off ∧ toE q = toE pos + toE off) ∧
    (∀ A0 B0, (TrailingEdgePath A0 B0 f).call t = .ok q ↔
      ∃ off, f (A0.x * (1 - t) + B0.x * t) (A0.y * (1 - t) + B0.y * t) 0 = .ok off ∧
        toE q = ((1 - t) • toE A0 + t • toE B0) + toE off) := by
  constructor
  · simp only [OffsetPathFunction, offsetPathAt, bind, Except.bind, pure, Except.pure]
    constructor
    · intro h
      cases hp : p.call t with
      | error e => simp [hp] at h
      | ok pos =>
        simp only [hp] at h
        cases hf : f pos.x pos.y 0 with
        | error e => simp [hf] at h
        | ok off =>
          simp only [hf, Except.ok.injEq] at h
          exact ⟨pos, off, rfl, hf, by rw [← h, Vec.toE_add]⟩
    · rintro ⟨pos, off, h1, h2, h3⟩
      simp only [h1, h2, Except.ok.injEq]
      apply Vec.toE_injective
      rw [h3, Vec.toE_add]
  · intro A0 B0
    simp only [TrailingEdgePath, offsetPathAt, Line, lineAt, bind, Except.bind, pure, Except.pure,
      Vec.add_x, Vec.add_y, Vec.mul_x, Vec.mul_y]
    constructor
    · intro h
      cases hf : f (A0.x * (1 - t) + B0.x * t) (A0.y * (1 - t) + B0.y * t) 0 with
      | error e => simp [hf] at h
      | ok off =>
        simp only [hf, Except.ok.injEq] at h
        exact ⟨off, rfl, by rw [← h, Vec.toE_add, Vec.toE_add, Vec.toE_mul, Vec.toE_mul]⟩
    · rintro ⟨off, h1, h2⟩
      simp only [h1, Except.ok.injEq]
      apply Vec.toE_injective
      rw [h2, Vec.toE_add, Vec.toE_add, Vec.toE_mul, Vec.toE_mul]

/-- C21: a mean path is the midpoint of the two underlying points, symmetric in them, and the mean of a
path with itself is the path. -/
theorem C21_mean (p q : PathObj) (t : ℝ) :
    (∀ m, (GeometricMeanPathFunction p q).call t = .ok m ↔
      ∃ a b, p.call t = .ok a ∧ q.call t = .ok b ∧ toE m = midpoint ℝ (toE a) (toE b)) ∧
    (GeometricMeanPathFunction p p).call t = p.call t := by
  constructor
  · intro m
    simp only [GeometricMeanPathFunction, meanPathAt, bind, Except.bind, pure, Except.pure]
    constructor
    · intro h
      cases hp : p.call t with
      | error e => simp [hp] at h
      | ok a =>
        cases hq : q.call t with
        | error e => simp [hp, hq] at h
        | ok b =>
          simp only [hp, hq, Except.ok.injEq] at h
          refine ⟨a, b, rfl, rfl, ?_⟩
          rw [← h, Vec.toE_mul, Vec.toE_add, midpoint_eq_smul_add]
          norm_num
    · rintro ⟨a, b, h1, h2, h3⟩
      simp only [h1, h2, Except.ok.injEq]
      apply Vec.toE_injective
      rw [h3, Vec.toE_mul, Vec.toE_add, midpoint_eq_smul_add]
      norm_num
  · simp only [GeometricMeanPathFunction, meanPathAt, bind, Except.bind, pure, Except.pure]
    cases p.call t with
    | error e => rfl
    | ok a =>
      simp only [Except.ok.injEq]
      ext <;> simp <;> ring

example : (OffsetPathFunction (Line ⟨0, 0, 0⟩ ⟨2, 4, 6⟩) (fun x y z => .ok ⟨0, 0, x + y + z⟩)).call 0.5 =
    .ok ⟨1, 2, 6⟩ := by
  simp only [OffsetPathFunction, offsetPathAt, Line, lineAt, bind, Except.bind, pure, Except.pure]
  congr 1
  ext <;> simp <;> norm_num

end HV
