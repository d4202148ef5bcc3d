import Verif.Props.Cover
import Verif.Props.AreaLimit
import Mathlib.MeasureTheory.Function.Jacobian
import Mathlib.MeasureTheory.Measure.Haar.Unique
import Mathlib.MeasureTheory.Measure.Lebesgue.EqHaar
import Mathlib.MeasureTheory.Integral.Prod
import Mathlib.Analysis.SpecialFunctions.Sqrt
import Mathlib.Analysis.SpecialFunctions.Trigonometric.ArctanDeriv
import Mathlib.MeasureTheory.Integral.IntervalIntegral.FundThmCalculus
import Mathlib.LinearAlgebra.Matrix.ToLin
import Mathlib.Topology.Algebra.Module.FiniteDimension
import Mathlib.LinearAlgebra.Determinant

/-! The map from a face of the cube to the sphere and the area it covers. -/

namespace HV
open Spec Filter Topology MeasureTheory

/-- The square `[-1, 1]²`. -/
def sq2 : Set (ℝ × ℝ) := Set.Icc (-1) 1 ×ˢ Set.Icc (-1) 1

noncomputable def qb (t : ℝ) : ℝ := √(sfac 1 (t ^ 2))
noncomputable def qx (u v : ℝ) : ℝ := √(sfac (u ^ 2) (v ^ 2))
/-- The point of the unit sphere for the point `(1, u, v)` of the cube, and its partial derivatives. -/
noncomputable def qq (u v : ℝ) : Fin 3 → ℝ := ![qx u v, u * qb v, v * qb u]
noncomputable def qu (u v : ℝ) : Fin 3 → ℝ := ![u * (v ^ 2 / 3 - 1 / 2) / qx u v, qb v, v * (-(u / 6) / qb u)]
noncomputable def qv (u v : ℝ) : Fin 3 → ℝ := ![v * (u ^ 2 / 3 - 1 / 2) / qx u v, u * (-(v / 6) / qb v), qb u]

theorem sq_of_mem {t : ℝ} (h : t ∈ Set.Icc (-1 : ℝ) 1) : 0 ≤ t ^ 2 ∧ t ^ 2 ≤ 1 := ⟨sq_nonneg _, by nlinarith [h.1, h.2]⟩

theorem sfac1_pos {t : ℝ} (h : t ∈ Set.Icc (-1 : ℝ) 1) : 0 < sfac 1 (t ^ 2) := sfac_pos ⟨zero_le_one, le_rfl⟩ (sq_of_mem h)
theorem qb_pos {t : ℝ} (h : t ∈ Set.Icc (-1 : ℝ) 1) : 0 < qb t := Real.sqrt_pos.2 (sfac1_pos h)
theorem qx_pos {u v : ℝ} (hu : u ∈ Set.Icc (-1 : ℝ) 1) (hv : v ∈ Set.Icc (-1 : ℝ) 1) : 0 < qx u v :=
  Real.sqrt_pos.2 (sfac_pos (sq_of_mem hu) (sq_of_mem hv))
theorem qb_sq {t : ℝ} (h : t ∈ Set.Icc (-1 : ℝ) 1) : qb t ^ 2 = 1 / 2 - t ^ 2 / 6 := by
  unfold qb; rw [Real.sq_sqrt (sfac1_pos h).le]; unfold sfac; ring
theorem qx_sq {u v : ℝ} (hu : u ∈ Set.Icc (-1 : ℝ) 1) (hv : v ∈ Set.Icc (-1 : ℝ) 1) :
    qx u v ^ 2 = 1 - u ^ 2 / 2 - v ^ 2 / 2 + u ^ 2 * v ^ 2 / 3 := by
  unfold qx; rw [Real.sq_sqrt (sfac_pos (sq_of_mem hu) (sq_of_mem hv)).le]; rfl

theorem continuous_qb : Continuous qb := by unfold qb sfac; fun_prop
theorem continuous_qx : Continuous fun p : ℝ × ℝ => qx p.1 p.2 := by unfold qx sfac; fun_prop

theorem continuous_qq : Continuous fun p : ℝ × ℝ => qq p.1 p.2 := by
  refine continuous_pi fun k => ?_
  fin_cases k
  · exact continuous_qx
  · exact continuous_fst.mul (continuous_qb.comp continuous_snd)
  · exact continuous_snd.mul (continuous_qb.comp continuous_fst)

theorem cont_qu : ContinuousOn (fun p : ℝ × ℝ => qu p.1 p.2) sq2 := by
  refine continuousOn_pi.2 fun k => ?_
  fin_cases k
  · exact ContinuousOn.div (by fun_prop) continuous_qx.continuousOn fun p hp => (qx_pos hp.1 hp.2).ne'
  · exact (continuous_qb.comp continuous_snd).continuousOn
  · exact continuousOn_snd.mul (ContinuousOn.div (by fun_prop) (continuous_qb.comp continuous_fst).continuousOn fun p hp => (qb_pos hp.1).ne')

theorem cont_qv : ContinuousOn (fun p : ℝ × ℝ => qv p.1 p.2) sq2 := by
  refine continuousOn_pi.2 fun k => ?_
  fin_cases k
  · exact ContinuousOn.div (by fun_prop) continuous_qx.continuousOn fun p hp => (qx_pos hp.1 hp.2).ne'
  · exact continuousOn_fst.mul (ContinuousOn.div (by fun_prop) (continuous_qb.comp continuous_snd).continuousOn fun p hp => (qb_pos hp.2).ne')
  · exact (continuous_qb.comp continuous_fst).continuousOn

theorem qb_deriv {t : ℝ} (h : t ∈ Set.Icc (-1 : ℝ) 1) : HasDerivAt qb (-(t / 6) / qb t) t := by
  have h1 : HasDerivAt (fun t : ℝ => sfac 1 (t ^ 2)) (-(t / 3)) t := by
    have : (fun t : ℝ => sfac 1 (t ^ 2)) = fun t => 1 / 2 - t ^ 2 / 6 := by funext t; unfold sfac; ring
    rw [this]
    have := (((hasDerivAt_id t).pow 2).div_const 6).const_sub (1 / 2)
    refine this.congr_deriv ?_
    simp
    ring
  have := h1.sqrt (sfac1_pos h).ne'
  refine this.congr_deriv ?_
  rw [show √(sfac 1 (t ^ 2)) = qb t from rfl]
  have := (qb_pos h).ne'
  field_simp
  ring

theorem qx_deriv {u v : ℝ} (hu : u ∈ Set.Icc (-1 : ℝ) 1) (hv : v ∈ Set.Icc (-1 : ℝ) 1) :
    HasFDerivAt (fun p : ℝ × ℝ => qx p.1 p.2) (qu u v 0 • ContinuousLinearMap.fst ℝ ℝ ℝ + qv u v 0 • ContinuousLinearMap.snd ℝ ℝ ℝ) (u, v) := by
  have f1 : HasFDerivAt (fun p : ℝ × ℝ => p.1 ^ 2) ((2 * u) • ContinuousLinearMap.fst ℝ ℝ ℝ) (u, v) := by
    have := (hasFDerivAt_fst (𝕜 := ℝ) (p := ((u, v) : ℝ × ℝ))).pow 2
    refine this.congr_fderiv ?_
    ext <;> simp
  have f2 : HasFDerivAt (fun p : ℝ × ℝ => p.2 ^ 2) ((2 * v) • ContinuousLinearMap.snd ℝ ℝ ℝ) (u, v) := by
    have := (hasFDerivAt_snd (𝕜 := ℝ) (p := ((u, v) : ℝ × ℝ))).pow 2
    refine this.congr_fderiv ?_
    ext <;> simp
  have h1 : HasFDerivAt (fun p : ℝ × ℝ => sfac (p.1 ^ 2) (p.2 ^ 2)) ((-u + 2 * u * v ^ 2 / 3) • ContinuousLinearMap.fst ℝ ℝ ℝ +
      (-v + 2 * v * u ^ 2 / 3) • ContinuousLinearMap.snd ℝ ℝ ℝ) (u, v) := by
    have e : (fun p : ℝ × ℝ => sfac (p.1 ^ 2) (p.2 ^ 2)) = fun p => 1 - (1 / 2) * p.1 ^ 2 - (1 / 2) * p.2 ^ 2 + (1 / 3) * (p.1 ^ 2 * p.2 ^ 2) := by
      funext p; unfold sfac; ring
    rw [e]
    have := (((f1.const_mul (1 / 2)).const_sub 1).sub (f2.const_mul (1 / 2))).add ((f1.mul f2).const_mul (1 / 3))
    refine this.congr_fderiv ?_
    ext <;> simp <;> ring
  have := h1.sqrt (sfac_pos (sq_of_mem hu) (sq_of_mem hv)).ne'
  refine this.congr_fderiv ?_
  have h0 := (qx_pos hu hv).ne'
  unfold qx at h0
  ext <;> simp [qu, qv, qx] <;> field_simp <;> ring

theorem qy_deriv {u v : ℝ} (hv : v ∈ Set.Icc (-1 : ℝ) 1) :
    HasFDerivAt (fun p : ℝ × ℝ => p.1 * qb p.2) (qu u v 1 • ContinuousLinearMap.fst ℝ ℝ ℝ + qv u v 1 • ContinuousLinearMap.snd ℝ ℝ ℝ) (u, v) := by
  have h2 := (qb_deriv hv).hasFDerivAt.comp (u, v) (hasFDerivAt_snd (𝕜 := ℝ) (p := ((u, v) : ℝ × ℝ)))
  have := (hasFDerivAt_fst (𝕜 := ℝ) (p := ((u, v) : ℝ × ℝ))).mul h2
  refine this.congr_fderiv ?_
  ext <;> simp [qu, qv]

theorem qz_deriv {u v : ℝ} (hu : u ∈ Set.Icc (-1 : ℝ) 1) :
    HasFDerivAt (fun p : ℝ × ℝ => p.2 * qb p.1) (qu u v 2 • ContinuousLinearMap.fst ℝ ℝ ℝ + qv u v 2 • ContinuousLinearMap.snd ℝ ℝ ℝ) (u, v) := by
  have h2 := (qb_deriv hu).hasFDerivAt.comp (u, v) (hasFDerivAt_fst (𝕜 := ℝ) (p := ((u, v) : ℝ × ℝ)))
  have := (hasFDerivAt_snd (𝕜 := ℝ) (p := ((u, v) : ℝ × ℝ))).mul h2
  refine this.congr_fderiv ?_
  ext <;> simp [qu, qv]

theorem qq_fderiv {u v : ℝ} (hu : u ∈ Set.Icc (-1 : ℝ) 1) (hv : v ∈ Set.Icc (-1 : ℝ) 1) (k : Fin 3) :
    HasFDerivAt (fun p : ℝ × ℝ => qq p.1 p.2 k) (qu u v k • ContinuousLinearMap.fst ℝ ℝ ℝ + qv u v k • ContinuousLinearMap.snd ℝ ℝ ℝ) (u, v) := by
  fin_cases k
  · exact qx_deriv hu hv
  · exact qy_deriv hv
  · exact qz_deriv hu

theorem qq_du {u v : ℝ} (hu : u ∈ Set.Icc (-1 : ℝ) 1) (hv : v ∈ Set.Icc (-1 : ℝ) 1) (k : Fin 3) : HasDerivAt (fun u => qq u v k) (qu u v k) u := by
  have := (qq_fderiv hu hv k).comp_hasDerivAt u ((hasDerivAt_id u).prodMk (hasDerivAt_const u v))
  simpa [Function.comp_def] using this

theorem qq_dv {u v : ℝ} (hu : u ∈ Set.Icc (-1 : ℝ) 1) (hv : v ∈ Set.Icc (-1 : ℝ) 1) (k : Fin 3) : HasDerivAt (fun v => qq u v k) (qv u v k) v := by
  have := (qq_fderiv hu hv k).comp_hasDerivAt v ((hasDerivAt_const v u).prodMk (hasDerivAt_id v))
  simpa [Function.comp_def] using this

/-! ### The normal -/

theorem qq_unit {u v : ℝ} (hu : u ∈ Set.Icc (-1 : ℝ) 1) (hv : v ∈ Set.Icc (-1 : ℝ) 1) : qq u v 0 ^ 2 + qq u v 1 ^ 2 + qq u v 2 ^ 2 = 1 := by
  have h1 := qx_sq hu hv
  have h2 := qb_sq hu
  have h3 := qb_sq hv
  show qx u v ^ 2 + (u * qb v) ^ 2 + (v * qb u) ^ 2 = 1
  linear_combination h1 + u ^ 2 * h3 + v ^ 2 * h2

theorem qq_perp_u {u v : ℝ} (hu : u ∈ Set.Icc (-1 : ℝ) 1) (hv : v ∈ Set.Icc (-1 : ℝ) 1) : qq u v 0 * qu u v 0 + qq u v 1 * qu u v 1 + qq u v 2 * qu u v 2 = 0 := by
  have h1 := (qx_pos hu hv).ne'
  have h2 := (qb_pos hu).ne'
  have h3 := qb_sq hv
  show qx u v * (u * (v ^ 2 / 3 - 1 / 2) / qx u v) + u * qb v * qb v + v * qb u * (v * (-(u / 6) / qb u)) = 0
  rw [mul_div_cancel₀ _ h1, show v * qb u * (v * (-(u / 6) / qb u)) = v * v * (-(u / 6)) by field_simp]
  linear_combination u * h3

theorem qq_perp_v {u v : ℝ} (hu : u ∈ Set.Icc (-1 : ℝ) 1) (hv : v ∈ Set.Icc (-1 : ℝ) 1) : qq u v 0 * qv u v 0 + qq u v 1 * qv u v 1 + qq u v 2 * qv u v 2 = 0 := by
  have h1 := (qx_pos hu hv).ne'
  have h2 := (qb_pos hv).ne'
  have h3 := qb_sq hu
  show qx u v * (v * (u ^ 2 / 3 - 1 / 2) / qx u v) + u * qb v * (u * (-(v / 6) / qb v)) + v * qb u * qb u = 0
  rw [mul_div_cancel₀ _ h1, show u * qb v * (u * (-(v / 6) / qb v)) = u * u * (-(v / 6)) by field_simp]
  linear_combination v * h3

/-- The oriented area element. -/
noncomputable def qw (u v : ℝ) : ℝ := dotF (qq u v) (crossF (qu u v) (qv u v))

theorem len_normal {a b c : Fin 3 → ℝ} (h1 : a 0 ^ 2 + a 1 ^ 2 + a 2 ^ 2 = 1) (h2 : a 0 * b 0 + a 1 * b 1 + a 2 * b 2 = 0)
    (h3 : a 0 * c 0 + a 1 * c 1 + a 2 * c 2 = 0) : lenF (crossF b c) = |dotF a (crossF b c)| := by
  rw [← Real.sqrt_sq_eq_abs]
  unfold lenF
  congr 1
  simp only [dotF, crossF, Matrix.cons_val_zero, Matrix.cons_val_one, Matrix.cons_val]
  generalize a 0 = x at *
  generalize a 1 = y at *
  generalize a 2 = z at *
  generalize b 0 = p at *
  generalize b 1 = q at *
  generalize b 2 = r at *
  generalize c 0 = s at *
  generalize c 1 = t at *
  generalize c 2 = w at *
  -- `|N|² |a|² = (N·a)² + |N × a|²`, and `a × (b × c) = b (a·c) - c (a·b) = 0`
  have k1 : y * (p * t - q * s) - z * (r * s - p * w) = 0 := by linear_combination p * h3 - s * h2
  have k2 : z * (q * w - r * t) - x * (p * t - q * s) = 0 := by linear_combination q * h3 - t * h2
  have k3 : x * (r * s - p * w) - y * (q * w - r * t) = 0 := by linear_combination r * h3 - w * h2
  linear_combination -((q * w - r * t) ^ 2 + (r * s - p * w) ^ 2 + (p * t - q * s) ^ 2) * h1 +
    (y * (p * t - q * s) - z * (r * s - p * w)) * k1 + (z * (q * w - r * t) - x * (p * t - q * s)) * k2 + (x * (r * s - p * w) - y * (q * w - r * t)) * k3

theorem qw_len {u v : ℝ} (hu : u ∈ Set.Icc (-1 : ℝ) 1) (hv : v ∈ Set.Icc (-1 : ℝ) 1) : lenF (crossF (qu u v) (qv u v)) = |qw u v| :=
  len_normal (qq_unit hu hv) (qq_perp_u hu hv) (qq_perp_v hu hv)

/-! ### The projection onto the plane of the face -/

noncomputable def gno (p : ℝ × ℝ) : ℝ × ℝ := (qq p.1 p.2 1 / qq p.1 p.2 0, qq p.1 p.2 2 / qq p.1 p.2 0)

noncomputable def gnoD (p : ℝ × ℝ) : ℝ × ℝ →L[ℝ] ℝ × ℝ :=
  LinearMap.toContinuousLinearMap (Matrix.toLin (.finTwoProd ℝ) (.finTwoProd ℝ)
    !![(qu p.1 p.2 1 * qq p.1 p.2 0 - qq p.1 p.2 1 * qu p.1 p.2 0) / qq p.1 p.2 0 ^ 2, (qv p.1 p.2 1 * qq p.1 p.2 0 - qq p.1 p.2 1 * qv p.1 p.2 0) / qq p.1 p.2 0 ^ 2;
      (qu p.1 p.2 2 * qq p.1 p.2 0 - qq p.1 p.2 2 * qu p.1 p.2 0) / qq p.1 p.2 0 ^ 2, (qv p.1 p.2 2 * qq p.1 p.2 0 - qq p.1 p.2 2 * qv p.1 p.2 0) / qq p.1 p.2 0 ^ 2])

theorem quot_fderiv {f g : ℝ × ℝ → ℝ} {p : ℝ × ℝ} {a b c d : ℝ}
    (hf : HasFDerivAt f (a • ContinuousLinearMap.fst ℝ ℝ ℝ + b • ContinuousLinearMap.snd ℝ ℝ ℝ) p)
    (hg : HasFDerivAt g (c • ContinuousLinearMap.fst ℝ ℝ ℝ + d • ContinuousLinearMap.snd ℝ ℝ ℝ) p) (h0 : g p ≠ 0) :
    HasFDerivAt (fun p => f p / g p) (((a * g p - f p * c) / g p ^ 2) • ContinuousLinearMap.fst ℝ ℝ ℝ +
      ((b * g p - f p * d) / g p ^ 2) • ContinuousLinearMap.snd ℝ ℝ ℝ) p := by
  have := hf.mul ((hasDerivAt_inv h0).comp_hasFDerivAt p hg)
  refine (this.congr_of_eventuallyEq (Eventually.of_forall fun p => by simp [div_eq_mul_inv])).congr_fderiv ?_
  ext <;> simp <;> field_simp <;> ring

theorem gno_fderiv {p : ℝ × ℝ} (hp : p ∈ sq2) : HasFDerivAt gno (gnoD p) p := by
  obtain ⟨u, v⟩ := p
  have h0 : qq u v 0 ≠ 0 := (qx_pos hp.1 hp.2).ne'
  unfold gnoD
  rw [Matrix.toLin_finTwoProd_toContinuousLinearMap]
  exact (quot_fderiv (qq_fderiv hp.1 hp.2 1) (qq_fderiv hp.1 hp.2 0) h0).prodMk (quot_fderiv (qq_fderiv hp.1 hp.2 2) (qq_fderiv hp.1 hp.2 0) h0)

theorem gno_det {p : ℝ × ℝ} (hp : p ∈ sq2) : (gnoD p).det = qw p.1 p.2 / qq p.1 p.2 0 ^ 3 := by
  obtain ⟨u, v⟩ := p
  have h0 : qq u v 0 ≠ 0 := (qx_pos hp.1 hp.2).ne'
  unfold gnoD
  rw [LinearMap.det_toContinuousLinearMap, LinearMap.det_toLin, Matrix.det_fin_two_of]
  simp only [qw, dotF, crossF, Matrix.cons_val_zero, Matrix.cons_val_one, Matrix.cons_val]
  field_simp
  ring

theorem onUnit_face {u v : ℝ} (hu : u ∈ Set.Icc (-1 : ℝ) 1) (hv : v ∈ Set.Icc (-1 : ℝ) 1) : OnUnit ⟨1, u, v⟩ := by
  unfold OnUnit
  exact ⟨by norm_num, (sq_of_mem hu).2, (sq_of_mem hv).2, .inl (by norm_num)⟩

theorem toSphere_face (u v : ℝ) : toSphere ⟨1, u, v⟩ = ⟨qq u v 0, qq u v 1, qq u v 2⟩ := by
  simp [toSphere, qq, qx, qb]

theorem gno_unit {p : ℝ × ℝ} (hp : p ∈ sq2) : 1 + (gno p).1 ^ 2 + (gno p).2 ^ 2 = 1 / qq p.1 p.2 0 ^ 2 := by
  have h0 : qq p.1 p.2 0 ≠ 0 := (qx_pos hp.1 hp.2).ne'
  have h1 := qq_unit hp.1 hp.2
  unfold gno
  field_simp
  linear_combination h1

theorem gno_inj : Set.InjOn gno sq2 := by
  intro p hp p' hp' e
  have k := gno_unit hp
  have k' := gno_unit hp'
  rw [e, k'] at k
  have h0 : 0 < qq p.1 p.2 0 := qx_pos hp.1 hp.2
  have h0' : 0 < qq p'.1 p'.2 0 := qx_pos hp'.1 hp'.2
  have e0 : qq p.1 p.2 0 = qq p'.1 p'.2 0 := by
    have : qq p.1 p.2 0 ^ 2 = qq p'.1 p'.2 0 ^ 2 := by
      field_simp at k
      linarith
    exact (sq_eq_sq₀ h0.le h0'.le).1 this
  have e1 := congrArg Prod.fst e
  have e2 := congrArg Prod.snd e
  simp only [gno] at e1 e2
  rw [e0] at e1 e2
  have e1 := (div_left_inj' h0'.ne').1 e1
  have e2 := (div_left_inj' h0'.ne').1 e2
  have := toSphere_inj (onUnit_face hp.1 hp.2) (onUnit_face hp'.1 hp'.2) (by rw [toSphere_face, toSphere_face, e0, e1, e2])
  simp only [Vec.mk.injEq, true_and] at this
  exact Prod.ext this.1 this.2

theorem mem_of_sq {t : ℝ} (h : t ^ 2 ≤ 1) : t ∈ Set.Icc (-1 : ℝ) 1 := ⟨by nlinarith, by nlinarith⟩

theorem gno_onto : gno '' sq2 = sq2 := by
  apply Set.Subset.antisymm
  · rintro _ ⟨p, hp, rfl⟩
    have h0 : 0 < qq p.1 p.2 0 := qx_pos hp.1 hp.2
    have hx := qx_sq hp.1 hp.2
    have hbu := qb_sq hp.1
    have hbv := qb_sq hp.2
    have su := sq_of_mem hp.1
    have sv := sq_of_mem hp.2
    refine ⟨mem_of_sq ?_, mem_of_sq ?_⟩
    · show (p.1 * qb p.2 / qx p.1 p.2) ^ 2 ≤ 1
      rw [div_pow, div_le_one (by rw [show (0 : ℝ) < qx p.1 p.2 ^ 2 ↔ 0 < qq p.1 p.2 0 ^ 2 from Iff.rfl]; positivity), mul_pow, hbv, hx]
      nlinarith [mul_nonneg (sub_nonneg.2 su.2) (sub_nonneg.2 sv.2)]
    · show (p.2 * qb p.1 / qx p.1 p.2) ^ 2 ≤ 1
      rw [div_pow, div_le_one (by rw [show (0 : ℝ) < qx p.1 p.2 ^ 2 ↔ 0 < qq p.1 p.2 0 ^ 2 from Iff.rfl]; positivity), mul_pow, hbu, hx]
      nlinarith [mul_nonneg (sub_nonneg.2 su.2) (sub_nonneg.2 sv.2)]
  · rintro ⟨a, b⟩ ⟨ha, hb⟩
    have sa := sq_of_mem ha
    have sb := sq_of_mem hb
    simp only at sa sb
    set S := √(1 + a ^ 2 + b ^ 2) with hS
    have hS2 : S ^ 2 = 1 + a ^ 2 + b ^ 2 := Real.sq_sqrt (by positivity)
    have hS0 : 0 < S := Real.sqrt_pos.2 (by positivity)
    obtain ⟨p, hp, e⟩ := toSphere_onto ⟨1 / S, a / S, b / S⟩ (by simp only; field_simp; linarith)
    obtain ⟨x, y, z⟩ := p
    have k := hp.sq3
    simp only [toSphere, Vec.mk.injEq] at e k
    obtain ⟨e1, e2, e3⟩ := e
    have s1 := congrArg (· ^ 2) e1
    have s2 := congrArg (· ^ 2) e2
    have s3 := congrArg (· ^ 2) e3
    simp only [coord_sq (sfac_pos k.2.1 k.2.2.1), coord_sq (sfac_pos k.1 k.2.2.1), coord_sq (sfac_pos k.1 k.2.1), div_pow, one_pow] at s1 s2 s3
    have d1 := sfac_diff (x ^ 2) (y ^ 2) (z ^ 2)
    have d2 := sfac_diff (x ^ 2) (z ^ 2) (y ^ 2)
    rw [s1, s2] at d1
    rw [sfac_comm (z ^ 2) (y ^ 2), s1, s3] at d2
    have g1 : 0 ≤ 1 / S ^ 2 - a ^ 2 / S ^ 2 := by rw [← sub_div]; exact div_nonneg (by linarith) (by positivity)
    have g2 : 0 ≤ 1 / S ^ 2 - b ^ 2 / S ^ 2 := by rw [← sub_div]; exact div_nonneg (by linarith) (by positivity)
    have x1 : y ^ 2 ≤ x ^ 2 := by
      rw [d1] at g1
      have : 0 < 1 - z ^ 2 / 2 := by linarith [k.2.2.1.2]
      linarith [nonneg_of_mul_nonneg_left g1 this]
    have x2 : z ^ 2 ≤ x ^ 2 := by
      rw [d2] at g2
      have : 0 < 1 - y ^ 2 / 2 := by linarith [k.2.1.2]
      linarith [nonneg_of_mul_nonneg_left g2 this]
    have hx1 : x ^ 2 = 1 := by
      rcases k.2.2.2 with h | h | h
      · exact h
      · linarith [k.1.2]
      · linarith [k.1.2]
    have hx : x = 1 := by
      rcases sq_eq_sq_iff_eq_or_eq_neg.1 (hx1.trans (one_pow 2).symm) with h | h
      · exact h
      · exfalso
        rw [h] at e1
        have h5 : 0 < 1 / S := by positivity
        have h6 := Real.sqrt_nonneg (sfac (y ^ 2) (z ^ 2))
        linarith
    subst hx
    refine ⟨(y, z), ⟨mem_of_sq k.2.1.2, mem_of_sq k.2.2.1.2⟩, ?_⟩
    have q0 : qq y z 0 = 1 / S := by rw [← e1, one_mul]; rfl
    have q1 : qq y z 1 = a / S := by rw [← e2]; simp [qq, qb]
    have q2 : qq y z 2 = b / S := by rw [← e3]; simp [qq, qb]
    simp only [gno, q0, q1, q2]
    ext <;> simp <;> field_simp

/-! ### The area of a face -/

theorem sq2_integral (f : ℝ → ℝ → ℝ) (hf : ContinuousOn (fun p : ℝ × ℝ => f p.1 p.2) sq2) :
    ∫ u in (-1 : ℝ)..1, ∫ v in (-1 : ℝ)..1, f u v = ∫ p in sq2, f p.1 p.2 := by
  have hc : IsCompact sq2 := isCompact_Icc.prod isCompact_Icc
  have hi := hf.integrableOn_compact (μ := volume) hc
  unfold sq2 at *
  rw [Measure.volume_eq_prod] at hi ⊢
  rw [setIntegral_prod _ hi, intervalIntegral.integral_of_le (by norm_num), integral_Icc_eq_integral_Ioc]
  refine setIntegral_congr_fun measurableSet_Ioc fun u _ => ?_
  simp only
  rw [intervalIntegral.integral_of_le (by norm_num), integral_Icc_eq_integral_Ioc]

noncomputable def solid (a b : ℝ) : ℝ := 1 / √(1 + a ^ 2 + b ^ 2) ^ 3

theorem solid_cont : Continuous fun p : ℝ × ℝ => solid p.1 p.2 := by
  unfold solid
  refine Continuous.div (by fun_prop) (by fun_prop) fun p => ?_
  have : 0 < 1 + p.1 ^ 2 + p.2 ^ 2 := by positivity
  have := Real.sqrt_pos.2 this
  positivity

theorem solid_inner (a : ℝ) : ∫ b in (-1 : ℝ)..1, solid a b = 2 / ((1 + a ^ 2) * √(2 + a ^ 2)) := by
  have hd : ∀ b ∈ Set.uIcc (-1 : ℝ) 1, HasDerivAt (fun b => b / ((1 + a ^ 2) * √(1 + a ^ 2 + b ^ 2))) (solid a b) b := by
    intro b _
    have hp : 0 < 1 + a ^ 2 + b ^ 2 := by positivity
    have hs := Real.sqrt_pos.2 hp
    have h1 : HasDerivAt (fun b : ℝ => 1 + a ^ 2 + b ^ 2) (2 * b) b := by
      have := ((hasDerivAt_id b).pow 2).const_add (1 + a ^ 2)
      refine this.congr_deriv ?_
      simp
    have h2 := (h1.sqrt hp.ne').const_mul (1 + a ^ 2)
    have := (hasDerivAt_id b).div h2 (by positivity)
    refine this.congr_deriv ?_
    unfold solid
    have hsq := Real.sq_sqrt hp.le
    set S := √(1 + a ^ 2 + b ^ 2)
    have ha : (1 + a ^ 2) ≠ 0 := by positivity
    simp only [id]
    field_simp
    linear_combination hsq
  rw [intervalIntegral.integral_eq_sub_of_hasDerivAt hd ((solid_cont.comp (by fun_prop : Continuous fun b : ℝ => (a, b))).intervalIntegrable _ _)]
  rw [show 1 + a ^ 2 + (-1 : ℝ) ^ 2 = 2 + a ^ 2 by ring, show 1 + a ^ 2 + (1 : ℝ) ^ 2 = 2 + a ^ 2 by ring]
  ring

theorem solid_integral : ∫ a in (-1 : ℝ)..1, ∫ b in (-1 : ℝ)..1, solid a b = 2 * Real.pi / 3 := by
  simp only [solid_inner]
  have hd : ∀ a ∈ Set.uIcc (-1 : ℝ) 1, HasDerivAt (fun a => 2 * Real.arctan (a / √(2 + a ^ 2))) (2 / ((1 + a ^ 2) * √(2 + a ^ 2))) a := by
    intro a _
    have hp : 0 < 2 + a ^ 2 := by positivity
    have hs := Real.sqrt_pos.2 hp
    have h1 : HasDerivAt (fun a : ℝ => 2 + a ^ 2) (2 * a) a := by
      have := ((hasDerivAt_id a).pow 2).const_add 2
      refine this.congr_deriv ?_
      simp
    have := (((hasDerivAt_id a).div (h1.sqrt hp.ne') hs.ne').arctan).const_mul 2
    refine this.congr_deriv ?_
    have hsq := Real.sq_sqrt hp.le
    simp only [id, Pi.div_apply]
    set S := √(2 + a ^ 2)
    have ha : (1 + a ^ 2) ≠ 0 := by positivity
    have hb : S ^ 2 + a ^ 2 ≠ 0 := by positivity
    field_simp
    rw [hsq]
    ring
  have hc : Continuous fun a : ℝ => 2 / ((1 + a ^ 2) * √(2 + a ^ 2)) := by
    refine Continuous.div (by fun_prop) (by fun_prop) fun a => ?_
    have : 0 < 2 + a ^ 2 := by positivity
    have := Real.sqrt_pos.2 this
    positivity
  rw [intervalIntegral.integral_eq_sub_of_hasDerivAt hd (hc.intervalIntegrable _ _)]
  have h3 : √(2 + (1 : ℝ) ^ 2) = √3 := by norm_num
  have h3' : √(2 + (-1 : ℝ) ^ 2) = √3 := by norm_num
  rw [h3, h3', neg_div, Real.arctan_neg]
  have : Real.arctan (1 / √3) = Real.pi / 6 := by
    rw [← Real.tan_pi_div_six, Real.arctan_tan] <;> linarith [Real.pi_pos]
  rw [this]
  ring

theorem face_area : ∫ u in (-1 : ℝ)..1, ∫ v in (-1 : ℝ)..1, lenF (crossF (qu u v) (qv u v)) = 2 * Real.pi / 3 := by
  have hlen : Continuous lenF := by unfold lenF; fun_prop
  rw [sq2_integral _ (hlen.comp_continuousOn (crossF_cont cont_qu cont_qv))]
  rw [← solid_integral, sq2_integral _ solid_cont.continuousOn]
  have hm : MeasurableSet sq2 := measurableSet_Icc.prod measurableSet_Icc
  haveI : Measure.IsAddHaarMeasure (volume : Measure (ℝ × ℝ)) := Measure.prod.instIsAddHaarMeasure _ _
  have := integral_image_eq_integral_abs_det_fderiv_smul volume hm (fun p hp => (gno_fderiv hp).hasFDerivWithinAt) gno_inj (fun p => solid p.1 p.2)
  rw [gno_onto] at this
  rw [this]
  refine setIntegral_congr_fun hm fun p hp => ?_
  have h0 : 0 < qq p.1 p.2 0 := qx_pos hp.1 hp.2
  show lenF (crossF (qu p.1 p.2) (qv p.1 p.2)) = |(gnoD p).det| • solid (gno p).1 (gno p).2
  rw [qw_len hp.1 hp.2, gno_det hp, smul_eq_mul, solid, gno_unit hp, Real.sqrt_div zero_le_one, Real.sqrt_one, Real.sqrt_sq h0.le, abs_div, abs_of_pos (by positivity : 0 < qq p.1 p.2 0 ^ 3)]
  field_simp

end HV
