import Verif.Model.Path
import Verif.Lemmas.Vec
import Verif.Props.Vec
import Mathlib.Geometry.Euclidean.Angle.Unoriented.Affine
import Mathlib.LinearAlgebra.AffineSpace.FiniteDimensional

/-!
# Properties C13, C14: circular arcs
-/

namespace HV

open Spec

namespace Arc

theorem cross_eq_zero_iff_collinear (a b c : V) :
    (Vec.cross (a - c) (b - c)).abs = 0 ↔ Collinear ℝ ({toE c, toE a, toE b} : Set E3) := by
  rw [collinear_iff_of_mem (p₀ := toE c) (by simp), Vec.abs_eq_zero_iff]
  constructor
  · intro h
    have hx := congrArg Vec.x h
    have hy := congrArg Vec.y h
    have hz := congrArg Vec.z h
    simp only [Vec.cross_x, Vec.cross_y, Vec.cross_z, Vec.sub_x, Vec.sub_y, Vec.sub_z] at hx hy hz
    by_cases h0 : a - c = ⟨0, 0, 0⟩
    · have hac : a = c := (Vec.sub_eq_zero_iff a c).1 ((Vec.abs_eq_zero_iff _).2 h0)
      refine ⟨toE b - toE c, ?_⟩
      intro p hp
      rcases hp with rfl | rfl | rfl
      · exact ⟨0, by simp⟩
      · exact ⟨0, by simp [hac]⟩
      · exact ⟨1, by simp⟩
    · refine ⟨toE a - toE c, ?_⟩
      intro p hp
      rcases hp with rfl | rfl | rfl
      · exact ⟨0, by simp⟩
      · exact ⟨1, by simp⟩
      · have hd : (a - c).dot (a - c) ≠ 0 := by
          rw [← Vec.abs_sq]
          exact pow_ne_zero 2 fun h => h0 ((Vec.abs_eq_zero_iff _).1 h)
        refine ⟨(a - c).dot (b - c) / (a - c).dot (a - c), ?_⟩
        rw [← Vec.toE_sub, ← Vec.toE_mul, vadd_eq_add, ← Vec.toE_add]
        congr 1
        simp only [Vec.dot, Vec.sub_x, Vec.sub_y, Vec.sub_z] at hd ⊢
        ext <;> simp only [Vec.add_x, Vec.add_y, Vec.add_z, Vec.mul_x, Vec.mul_y, Vec.mul_z, Vec.sub_x,
          Vec.sub_y, Vec.sub_z] <;> rw [mul_div_assoc', div_add' _ _ _ hd, eq_div_iff hd]
        · linear_combination (-(a.y - c.y)) * hz + (a.z - c.z) * hy
        · linear_combination (a.x - c.x) * hz - (a.z - c.z) * hx
        · linear_combination (-(a.x - c.x)) * hy + (a.y - c.y) * hx
  · rintro ⟨v, hv⟩
    obtain ⟨r, hr⟩ := hv (toE a) (by simp)
    obtain ⟨s, hs⟩ := hv (toE b) (by simp)
    have er : ∀ i, toF a i = r * v.ofLp i + toF c i := by
      intro i
      have := congrArg (fun e : E3 => e.ofLp i) hr
      fin_cases i <;> simpa [toE, toF] using this
    have es : ∀ i, toF b i = s * v.ofLp i + toF c i := by
      intro i
      have := congrArg (fun e : E3 => e.ofLp i) hs
      fin_cases i <;> simpa [toE, toF] using this
    have r0 := er 0; have r1 := er 1; have r2 := er 2
    have s0 := es 0; have s1 := es 1; have s2 := es 2
    simp [toF] at r0 r1 r2 s0 s1 s2
    ext <;> simp [r0, r1, r2, s0, s1, s2] <;> ring

/-- What `Arc` computes on admissible input. -/
theorem eval_ok (a b c : V) (t : ℝ) (hr : |vdist a c - vdist b c| ≤ 1 / 10 ^ 5)
    (hc : ¬ Collinear ℝ ({toE c, toE a, toE b} : Set E3)) :
    ∃ t1 t2 n : V, Orthonormal3 t1 t2 n ∧ a - c = t1 * vdist a c ∧
      n * (Vec.cross (a - c) (b - c)).abs = Vec.cross (a - c) (b - c) ∧
      let θ := EuclideanGeometry.angle (toE a) (toE c) (toE b)
      b - c = t1 * (vdist b c * Real.cos θ) + t2 * (vdist b c * Real.sin θ) ∧ 0 < θ ∧ θ < Real.pi ∧
      0 < vdist b c ∧
      eval a b c t = .ok (c + t1 * (vdist b c * Real.cos (θ * t)) + t2 * (vdist b c * Real.sin (θ * t))
        + ⟨0, vdist b c * Real.sin (θ * t) * n.y, 0⟩, θ * vdist b c) := by
  have hcr : (Vec.cross (a - c) (b - c)).abs ≠ 0 := fun h => hc ((cross_eq_zero_iff_collinear a b c).1 h)
  have hcr' : 0 < (Vec.cross (a - c) (b - c)).abs := lt_of_le_of_ne (Vec.abs_nonneg _) hcr.symm
  have ha0 : (a - c).abs ≠ 0 := by
    intro h
    rw [Vec.abs_eq_zero_iff] at h
    apply hcr; rw [h]; simp [Vec.abs]
  have hb0 : (b - c).abs ≠ 0 := by
    intro h
    rw [Vec.abs_eq_zero_iff] at h
    apply hcr; rw [h]; simp [Vec.abs]
  have hap : 0 < (a - c).abs := lt_of_le_of_ne (Vec.abs_nonneg _) ha0.symm
  have hbp : 0 < (b - c).abs := lt_of_le_of_ne (Vec.abs_nonneg _) hb0.symm
  set A := (a - c).abs with hA
  set B := (b - c).abs with hB
  set ca := a - c with hca
  set cb := b - c with hcb
  set N := (Vec.cross ca cb).abs with hN
  set t1 : V := ⟨ca.x / A, ca.y / A, ca.z / A⟩ with ht1
  set n : V := ⟨(Vec.cross ca cb).x / N, (Vec.cross ca cb).y / N, (Vec.cross ca cb).z / N⟩ with hn
  set t2 : V := Vec.cross n t1 with ht2
  have hA2 : A ^ 2 = ca.x * ca.x + ca.y * ca.y + ca.z * ca.z := Vec.abs_sq ca
  have hB2 : B ^ 2 = cb.x * cb.x + cb.y * cb.y + cb.z * cb.z := Vec.abs_sq cb
  have hN2 : N ^ 2 = (ca.y * cb.z - cb.y * ca.z) * (ca.y * cb.z - cb.y * ca.z)
      + (cb.x * ca.z - ca.x * cb.z) * (cb.x * ca.z - ca.x * cb.z)
      + (ca.x * cb.y - cb.x * ca.y) * (ca.x * cb.y - cb.x * ca.y) := Vec.abs_sq _
  have e1 : ca = t1 * A := by
    ext <;> simp [ht1, ha0]
  have en : n * N = Vec.cross ca cb := by
    ext <;> simp [hn, hcr]
  -- dot products
  have d11 : t1.dot t1 = 1 := by
    simp only [ht1, Vec.dot]; field_simp; linarith
  have dnn : n.dot n = 1 := by
    simp only [hn, Vec.dot, Vec.cross_x, Vec.cross_y, Vec.cross_z]; field_simp; linarith
  have d1n : t1.dot n = 0 := by
    simp only [ht1, hn, Vec.dot, Vec.cross_x, Vec.cross_y, Vec.cross_z]; field_simp; ring
  have dbn : cb.dot n = 0 := by
    simp only [hn, Vec.dot, Vec.cross_x, Vec.cross_y, Vec.cross_z]; field_simp; ring
  have d12 : t1.dot t2 = 0 := by simp [ht2, Vec.dot]; ring
  have d2n : t2.dot n = 0 := by simp [ht2, Vec.dot]; ring
  have d22 : t2.dot t2 = 1 := by
    have : t2.dot t2 = n.dot n * t1.dot t1 - (t1.dot n) ^ 2 := by simp [ht2, Vec.dot]; ring
    rw [this, dnn, d11, d1n]; norm_num
  have hb1 : cb.dot t1 = ca.dot cb / A := by
    simp only [ht1, Vec.dot]; field_simp
  have hb2 : cb.dot t2 = N / A := by
    simp only [ht2, hn, ht1, Vec.dot, Vec.cross_x, Vec.cross_y, Vec.cross_z]
    field_simp
    linear_combination (-1 : ℝ) * hN2
  have horth : Orthonormal3 t1 t2 n := by
    constructor
    · intro i
      have h1 : ∀ v : V, v.dot v = 1 → ‖toE v‖ = 1 := fun v hv => by
        rw [← Vec.abs_eq_norm, Vec.abs_eq_sqrt_dot, hv, Real.sqrt_one]
      fin_cases i
      · exact h1 _ d11
      · exact h1 _ d22
      · exact h1 _ dnn
    · intro i j hij
      have d21 : t2.dot t1 = 0 := by rw [← d12]; simp [Vec.dot]; ring
      have dn1 : n.dot t1 = 0 := by rw [← d1n]; simp [Vec.dot]; ring
      have dn2 : n.dot t2 = 0 := by rw [← d2n]; simp [Vec.dot]; ring
      fin_cases i <;> fin_cases j <;>
        first
        | (exact absurd rfl hij)
        | (first
           | (simpa [← Vec.dot_eq_inner] using d12) | (simpa [← Vec.dot_eq_inner] using d1n)
           | (simpa [← Vec.dot_eq_inner] using d2n) | (simpa [← Vec.dot_eq_inner] using d21)
           | (simpa [← Vec.dot_eq_inner] using dn1) | (simpa [← Vec.dot_eq_inner] using dn2))
  -- the angle
  have hAd : vdist a c = A := (Vec.abs_sub_eq_vdist a c).symm
  have hBd : vdist b c = B := (Vec.abs_sub_eq_vdist b c).symm
  set θ := EuclideanGeometry.angle (toE a) (toE c) (toE b) with hθ
  have hang : θ = InnerProductGeometry.angle (toE ca) (toE cb) := by
    rw [hθ]; unfold EuclideanGeometry.angle
    rw [hca, hcb, Vec.toE_sub, Vec.toE_sub]; rfl
  have hcos : Real.cos θ = ca.dot cb / (A * B) := by
    rw [hang, InnerProductGeometry.cos_angle, ← Vec.dot_eq_inner, ← Vec.abs_eq_norm, ← Vec.abs_eq_norm]
  have hs0 : 0 ≤ Real.sin θ := by
    rw [hang]; exact InnerProductGeometry.sin_angle_nonneg _ _
  have hsin : Real.sin θ = N / (A * B) := by
    have h2 : Real.sin θ ^ 2 = (N / (A * B)) ^ 2 := by
      rw [Real.sin_sq, hcos, div_pow, div_pow, eq_div_iff (by positivity)]
      have : (1 - ca.dot cb ^ 2 / (A * B) ^ 2) * (A * B) ^ 2 = A ^ 2 * B ^ 2 - ca.dot cb ^ 2 := by
        field_simp
      rw [this, hA2, hB2, hN2]
      simp only [Vec.dot]; ring
    have h3 : 0 ≤ N / (A * B) := by positivity
    exact (pow_left_inj₀ hs0 h3 (by norm_num)).1 h2
  have hθ0 : 0 < θ := by
    refine lt_of_le_of_ne (EuclideanGeometry.angle_nonneg _ _ _) fun h => ?_
    have : Real.sin θ = 0 := by rw [← h]; simp
    rw [hsin] at this
    have : 0 < N / (A * B) := by positivity
    linarith
  have hθπ : θ < Real.pi := by
    refine lt_of_le_of_ne (EuclideanGeometry.angle_le_pi _ _ _) fun h => ?_
    have : Real.sin θ = 0 := by rw [h]; simp
    rw [hsin] at this
    have : 0 < N / (A * B) := by positivity
    linarith
  have hbc : cb.dot t1 = B * Real.cos θ := by rw [hb1, hcos]; field_simp
  have hbs : cb.dot t2 = B * Real.sin θ := by rw [hb2, hsin]; field_simp
  have harg : arctan2 (cb.dot t2) (cb.dot t1) = θ := by
    unfold arctan2
    have : (⟨cb.dot t1, cb.dot t2⟩ : ℂ) = (B : ℂ) * (Complex.cos (θ : ℂ) + Complex.sin (θ : ℂ) * Complex.I) := by
      rw [hbc, hbs]
      apply Complex.ext
      · simp [← Complex.ofReal_cos, ← Complex.ofReal_sin]
      · simp [← Complex.ofReal_cos, ← Complex.ofReal_sin]
    rw [this, Complex.arg_mul_cos_add_sin_mul_I hbp ⟨by linarith [Real.pi_pos], hθπ.le⟩]
  have hcbexp : cb = t1 * (B * Real.cos θ) + t2 * (B * Real.sin θ) := by
    obtain ⟨-, c1, c2, c3, c4, c5, c6⟩ := orthonormal_cols horth
    rw [← hbc, ← hbs]
    have dbn' := dbn
    simp only [Vec.dot] at dbn' ⊢
    ext <;> simp
    · linear_combination (-cb.x) * c1 - cb.y * c4 - cb.z * c5 + n.x * dbn'
    · linear_combination (-cb.x) * c4 - cb.y * c2 - cb.z * c6 + n.y * dbn'
    · linear_combination (-cb.x) * c5 - cb.y * c6 - cb.z * c3 + n.z * dbn'
  refine ⟨t1, t2, n, horth, by rw [hAd]; exact e1, en, by rw [hBd]; exact hcbexp, hθ0, hθπ,
    by rw [hBd]; exact hbp, ?_⟩
  rw [hAd, hBd] at hr
  rw [hBd]
  unfold eval
  have hnorm1 : ca.normalize = .ok t1 := by
    unfold Vec.normalize; rw [if_neg ha0]
  have hnormn : (Vec.cross ca cb).normalize = .ok n := by
    unfold Vec.normalize; rw [if_neg hcr]
  simp only [← hca, ← hcb, ← hA, ← hB, gt_iff_lt, not_lt.2 hr, if_false, hnorm1, bind, Except.bind,
    pure, Except.pure, hcr', ← hN, if_true, hnormn, ← ht2, Vec.toLocal, dbn, abs_zero, harg]
  rw [if_neg (by norm_num)]
  simp only [Vec.toGlobal, Except.ok.injEq, Prod.mk.injEq, and_true]
  ext <;> simp <;> ring

theorem call_of_eval {a b c : V} {t : ℝ} {p : V} {l : ℝ} (h : eval a b c t = .ok (p, l)) :
    (HV.Arc a b c).call t = .ok p := by
  simp only [HV.Arc, h, bind, Except.bind, pure, Except.pure]

/-- Failure cases of `Arc`. -/
theorem eval_error (a b c : V) (t : ℝ)
    (h : 1 / 10 ^ 5 < |vdist a c - vdist b c| ∨ Collinear ℝ ({toE c, toE a, toE b} : Set E3)) :
    ∃ e, eval a b c t = .error e := by
  unfold eval
  rw [← Vec.abs_sub_eq_vdist, ← Vec.abs_sub_eq_vdist] at h
  simp only [bind, Except.bind, gt_iff_lt]
  by_cases hr : 1 / 10 ^ 5 < |(a - c).abs - (b - c).abs|
  · rw [if_pos hr]; exact ⟨_, rfl⟩
  · have hcol := h.resolve_left hr
    have h0 : (Vec.cross (a - c) (b - c)).abs = 0 := (cross_eq_zero_iff_collinear a b c).2 hcol
    rw [if_neg hr]
    simp only [pure, Except.pure]
    cases (a - c).normalize with
    | error e => exact ⟨e, rfl⟩
    | ok t1 => exact ⟨.exc, by simp [h0]; rfl⟩

end Arc

/-! ## C13 -/

/-- C13 is violated, in general: with exactly equal radii, an arc whose plane normal has a non-zero
y component misses its end point `b` by `(0, r sin θ n_y, 0)`, although nothing is raised. -/
theorem C13_arc_violated (a b c : V) (hr : vdist a c = vdist b c)
    (hc : ¬ Collinear ℝ ({toE c, toE a, toE b} : Set E3))
    (hy : (Vec.cross (a - c) (b - c)).y ≠ 0) : ∃ q, (Arc a b c).call 1 = .ok q ∧ q ≠ b := by
  obtain ⟨t1, t2, n, -, -, hn, hb, h0, hpi, hB, he⟩ := Arc.eval_ok a b c 1 (by rw [hr]; simp) hc
  refine ⟨_, Arc.call_of_eval he, ?_⟩
  intro hq
  have h1 := congrArg Vec.y hq
  have h2 := congrArg Vec.y hb
  have h3 := congrArg Vec.y hn
  simp only [mul_one, Vec.add_y, Vec.mul_y, Vec.sub_y] at h1 h2 h3
  have hs : 0 < Real.sin (EuclideanGeometry.angle (toE a) (toE c) (toE b)) :=
    Real.sin_pos_of_pos_of_lt_pi h0 hpi
  have hny : n.y = 0 := by
    have h4 : vdist b c * Real.sin (EuclideanGeometry.angle (toE a) (toE c) (toE b)) * n.y = 0 := by
      linarith
    rcases mul_eq_zero.1 h4 with h | h
    · exact absurd h (by positivity)
    · exact h
  rw [hny, zero_mul] at h3
  exact hy h3.symm

/-- C13, concrete instance: the quarter circle from (1,0,0) to (0,0,1) around the origin. -/
theorem C13_arc_violated_witness :
    ¬ ∀ a b c q : V, vdist a c = vdist b c → (Arc a b c).call 1 = .ok q → q = b := by
  intro h
  have hc : ¬ Collinear ℝ ({toE (⟨0, 0, 0⟩ : V), toE ⟨1, 0, 0⟩, toE ⟨0, 0, 1⟩} : Set E3) := by
    rw [← Arc.cross_eq_zero_iff_collinear, Vec.abs_eq_zero_iff]
    intro h
    have := congrArg Vec.y h
    simp at this
  have hr : vdist (⟨1, 0, 0⟩ : V) ⟨0, 0, 0⟩ = vdist (⟨0, 0, 1⟩ : V) ⟨0, 0, 0⟩ := by
    simp [← Vec.abs_sub_eq_vdist, Vec.abs]
  obtain ⟨q, h1, h2⟩ := C13_arc_violated ⟨1, 0, 0⟩ ⟨0, 0, 1⟩ ⟨0, 0, 0⟩ hr hc (by simp)
  exact h2 (h _ _ _ q hr h1)

/-- C13, what holds: if the plane normal has no y component, the arc stays at distance `|b-c|` from
the centre, ends in `b` and starts within `1e-5` of `a` (exactly in `a` for equal radii).
Missing: planes with `n.y ≠ 0`, where the property fails. -/
theorem C13_arc_partial (a b c : V) (hr : |vdist a c - vdist b c| ≤ 1 / 10 ^ 5)
    (hc : ¬ Collinear ℝ ({toE c, toE a, toE b} : Set E3))
    (hy : (Vec.cross (a - c) (b - c)).y = 0) :
    (∀ t, ∃ q, (Arc a b c).call t = .ok q ∧ vdist q c = vdist b c) ∧
    (∃ q, (Arc a b c).call 0 = .ok q ∧ vdist q a = |vdist a c - vdist b c|) ∧
    (Arc a b c).call 1 = .ok b := by
  have key : ∀ t, ∃ t1 t2 n : V, Orthonormal3 t1 t2 n ∧ a - c = t1 * vdist a c ∧
      let θ := EuclideanGeometry.angle (toE a) (toE c) (toE b)
      b - c = t1 * (vdist b c * Real.cos θ) + t2 * (vdist b c * Real.sin θ) ∧
      (Arc a b c).call t = .ok (c + t1 * (vdist b c * Real.cos (θ * t))
        + t2 * (vdist b c * Real.sin (θ * t))) := by
    intro t
    obtain ⟨t1, t2, n, ho, ha, hn, hb, h0, hpi, hB, he⟩ := Arc.eval_ok a b c t hr hc
    refine ⟨t1, t2, n, ho, ha, hb, ?_⟩
    have h3 := congrArg Vec.y hn
    have hN : (Vec.cross (a - c) (b - c)).abs ≠ 0 :=
      fun h => hc ((Arc.cross_eq_zero_iff_collinear a b c).1 h)
    rw [hy] at h3
    have hny : n.y = 0 := by
      simp only [Vec.mul_y] at h3
      exact (mul_eq_zero.1 h3).resolve_right hN
    simp only [Arc, he, bind, Except.bind, pure, Except.pure, hny, mul_zero, Except.ok.injEq]
    ext <;> simp
  refine ⟨?_, ?_, ?_⟩
  · intro t
    obtain ⟨t1, t2, n, ho, -, -, he⟩ := key t
    refine ⟨_, he, ?_⟩
    obtain ⟨⟨d11, d22, -, d12, -, -⟩, -⟩ := orthonormal_cols ho
    rw [← Vec.abs_sub_eq_vdist]
    set θ := EuclideanGeometry.angle (toE a) (toE c) (toE b)
    set R := vdist b c with hR
    have hR0 : 0 ≤ R := dist_nonneg
    have : (c + t1 * (R * Real.cos (θ * t)) + t2 * (R * Real.sin (θ * t)) - c).abs ^ 2 = R ^ 2 := by
      rw [Vec.abs_sq]
      simp only [Vec.dot] at d11 d22 d12
      simp only [Vec.dot, Vec.sub_x, Vec.sub_y, Vec.sub_z, Vec.add_x, Vec.add_y, Vec.add_z, Vec.mul_x,
        Vec.mul_y, Vec.mul_z]
      have hcs := Real.sin_sq_add_cos_sq (θ * t)
      linear_combination (R * Real.cos (θ * t)) ^ 2 * d11 + (R * Real.sin (θ * t)) ^ 2 * d22
        + 2 * (R * Real.cos (θ * t)) * (R * Real.sin (θ * t)) * d12 + R ^ 2 * hcs
    exact (pow_left_inj₀ (Vec.abs_nonneg _) hR0 (by norm_num)).1 this
  · obtain ⟨t1, t2, n, ho, ha, -, he⟩ := key 0
    refine ⟨_, he, ?_⟩
    obtain ⟨⟨d11, -⟩, -⟩ := orthonormal_cols ho
    have e : c + t1 * (vdist b c * Real.cos (EuclideanGeometry.angle (toE a) (toE c) (toE b) * 0))
        + t2 * (vdist b c * Real.sin (EuclideanGeometry.angle (toE a) (toE c) (toE b) * 0)) - a
        = t1 * (vdist b c - vdist a c) := by
      have hx := congrArg Vec.x ha
      have hy := congrArg Vec.y ha
      have hz := congrArg Vec.z ha
      simp only [Vec.sub_x, Vec.sub_y, Vec.sub_z, Vec.mul_x, Vec.mul_y, Vec.mul_z] at hx hy hz
      ext <;> simp <;> linarith
    have h1 : t1.abs = 1 := by rw [Vec.abs_eq_sqrt_dot, d11, Real.sqrt_one]
    rw [← Vec.abs_sub_eq_vdist, e, Vec.abs_mul, h1, mul_one, abs_sub_comm]
  · obtain ⟨t1, t2, n, ho, -, hb, he⟩ := key 1
    rw [he]
    congr 1
    have hx := congrArg Vec.x hb
    have hy := congrArg Vec.y hb
    have hz := congrArg Vec.z hb
    simp only [Vec.sub_x, Vec.sub_y, Vec.sub_z, Vec.mul_x, Vec.mul_y, Vec.mul_z, Vec.add_x, Vec.add_y,
      Vec.add_z] at hx hy hz
    ext <;> simp <;> linarith

/-- A quarter circle in the x-y plane meets the hypotheses of `C13_arc_partial`. -/
example : ¬ Collinear ℝ ({toE (⟨0, 0, 0⟩ : V), toE ⟨1, 0, 0⟩, toE ⟨0, 1, 0⟩} : Set E3) ∧
    (Vec.cross ((⟨1, 0, 0⟩ : V) - ⟨0, 0, 0⟩) (⟨0, 1, 0⟩ - ⟨0, 0, 0⟩)).y = 0 := by
  constructor
  · rw [← Arc.cross_eq_zero_iff_collinear, Vec.abs_eq_zero_iff]
    intro h
    have := congrArg Vec.z h
    simp at this
  · simp

/-! ## C14 -/

/-- C14: `Arc` evaluates exactly when the radii agree to `1e-5` and the points are not collinear; then
its length is the radius `|b-c|` times the angle subtended at `c`, which lies in `(0, π)`. -/
theorem C14_arc_admissible (a b c : V) (t : ℝ) :
    ((∃ q, (Arc a b c).call t = .ok q) ↔
      |vdist a c - vdist b c| ≤ 1 / 10 ^ 5 ∧ ¬ Collinear ℝ ({toE c, toE a, toE b} : Set E3)) ∧
    ((∃ q, (Arc a b c).call t = .ok q) → (Arc a b c).length =
      .ok (EuclideanGeometry.angle (toE a) (toE c) (toE b) * vdist b c) ∧
      0 < EuclideanGeometry.angle (toE a) (toE c) (toE b) ∧
      EuclideanGeometry.angle (toE a) (toE c) (toE b) < Real.pi) := by
  have hiff : (∃ q, (Arc a b c).call t = .ok q) ↔
      |vdist a c - vdist b c| ≤ 1 / 10 ^ 5 ∧ ¬ Collinear ℝ ({toE c, toE a, toE b} : Set E3) := by
    constructor
    · rintro ⟨q, hq⟩
      by_contra hcon
      obtain ⟨e, he⟩ := Arc.eval_error a b c t (by
        by_cases h : 1 / 10 ^ 5 < |vdist a c - vdist b c|
        · exact .inl h
        · right; by_contra h2; exact hcon ⟨not_lt.1 h, h2⟩)
      simp [Arc, he, bind, Except.bind] at hq
    · rintro ⟨h1, h2⟩
      obtain ⟨t1, t2, n, -, -, -, -, -, -, -, he⟩ := Arc.eval_ok a b c t h1 h2
      exact ⟨_, Arc.call_of_eval he⟩
  refine ⟨hiff, fun h => ?_⟩
  obtain ⟨h1, h2⟩ := hiff.1 h
  obtain ⟨t1, t2, n, -, -, -, -, h0, hpi, -, he⟩ := Arc.eval_ok a b c 1 h1 h2
  exact ⟨by simp only [Arc, he, bind, Except.bind, pure, Except.pure], h0, hpi⟩

example : |vdist (⟨1, 0, 0⟩ : V) ⟨0, 0, 0⟩ - vdist (⟨0, 1, 0⟩ : V) ⟨0, 0, 0⟩| ≤ 1 / 10 ^ 5 := by
  simp [← Vec.abs_sub_eq_vdist, Vec.abs]

end HV
