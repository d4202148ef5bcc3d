import Verif.Lemmas.Vec
import Mathlib.LinearAlgebra.Matrix.NonsingularInverse
import Mathlib.Tactic.FinCases

/-!
# Properties C01–C05: vectors
-/

namespace HV

open Spec

/-! ## C01 -/

/-- C01: the operators are the vector space operations of Euclidean 3-space, `abs` is its norm, `dot`
its inner product, `cross_product` its cross product, and division is defined exactly for non-zero
divisors. -/
theorem C01_vector_laws :
    (∀ u v : V, toE (u + v) = toE u + toE v) ∧
    (∀ u v : V, toE (u - v) = toE u - toE v) ∧
    (∀ v : V, toE (-v) = -toE v) ∧
    (∀ (v : V) (a : ℝ), toE (v * a) = a • toE v) ∧
    (∀ v : V, v.abs = ‖toE v‖) ∧
    (∀ u v : V, u.dot v = inner ℝ (toE u) (toE v)) ∧
    (∀ u v : V, toF (Vec.cross u v) = crossProduct (toF u) (toF v)) ∧
    (∀ (v w : V) (a : ℝ), v.div a = .ok w ↔ a ≠ 0 ∧ toE w = a⁻¹ • toE v) ∧
    Function.Injective toE := by
  refine ⟨Vec.toE_add, Vec.toE_sub, ?_, Vec.toE_mul, Vec.abs_eq_norm, Vec.dot_eq_inner, ?_, ?_,
    Vec.toE_injective⟩
  · intro v; unfold toE; ext i; fin_cases i <;> simp
  · intro u v
    rw [cross_apply]
    unfold toF
    ext i; fin_cases i <;> simp <;> ring
  · intro v w a
    have key : toE (⟨v.x / a, v.y / a, v.z / a⟩ : V) = a⁻¹ • toE v := by
      unfold toE; ext i; fin_cases i <;> simp <;> ring
    unfold Vec.div
    by_cases h : a = 0
    · simp [h]
    · simp only [h, if_false, Except.ok.injEq, ne_eq, not_false_eq_true, true_and]
      rw [← key]
      exact ⟨fun e => by rw [e], fun e => (Vec.toE_injective e).symm⟩

/-- C01: geometric laws of `cross_product` and `abs`, spelled out. -/
theorem C01_cross_product_laws (a b : V) :
    (Vec.cross a b).dot a = 0 ∧ (Vec.cross a b).dot b = 0 ∧ Vec.cross a b = -Vec.cross b a ∧
    (Vec.cross a b).abs ^ 2 = a.abs ^ 2 * b.abs ^ 2 - (a.dot b) ^ 2 ∧ a.abs ^ 2 = a.dot a := by
  refine ⟨by simp [Vec.dot]; ring, by simp [Vec.dot]; ring, by ext <;> simp, ?_, Vec.abs_sq a⟩
  simp only [Vec.abs_sq]; simp [Vec.dot]; ring

example : Vec.cross ⟨1, 0, 0⟩ ⟨0, 1, 0⟩ = (⟨0, 0, 1⟩ : V) := by ext <;> simp
example : Vec.div ⟨2, 4, 6⟩ 2 = .ok ⟨1, 2, 3⟩ := by unfold Vec.div; norm_num

/-- C01: `==` on vectors is equality of the points they denote. -/
theorem C01_eq_iff (u v : V) : u.eq v = true ↔ toE u = toE v := by
  rw [Vec.toE_injective.eq_iff]
  constructor
  · intro h; simp [Vec.eq] at h; exact Vec.ext h.1.1 h.1.2 h.2
  · rintro rfl; simp [Vec.eq]

example : Vec.eq (⟨1, 2, 3⟩ : V) ⟨1, 2, 3⟩ = true := (C01_eq_iff _ _).2 rfl

/-! ## C02 -/

/-- C02: `unit` and `normalize` succeed exactly on non-zero vectors, with a result of length one
pointing in the same direction. -/
theorem C02_normalise (v : V) :
    (toE v ≠ 0 → ∃ u, v.unit = .ok u ∧ v.normalize = .ok u ∧ ‖toE u‖ = 1 ∧ toE v = ‖toE v‖ • toE u) ∧
    (toE v = 0 → (∀ u, v.unit ≠ .ok u) ∧ (∀ u, v.normalize ≠ .ok u)) := by
  constructor
  · intro h
    have ha : v.abs ≠ 0 := by rw [Vec.abs_eq_norm]; exact norm_ne_zero_iff.2 h
    have key : toE (⟨v.x / v.abs, v.y / v.abs, v.z / v.abs⟩ : V) = v.abs⁻¹ • toE v := by
      unfold toE; ext i; fin_cases i <;> simp <;> ring
    refine ⟨⟨v.x / v.abs, v.y / v.abs, v.z / v.abs⟩, ?_, ?_, ?_, ?_⟩
    · simp [Vec.unit, Vec.div, ha]
    · simp [Vec.normalize, ha]
    · rw [key, norm_smul, ← Vec.abs_eq_norm, norm_inv, Real.norm_eq_abs,
        abs_of_nonneg (Vec.abs_nonneg v)]
      exact inv_mul_cancel₀ ha
    · rw [key, ← Vec.abs_eq_norm, smul_smul, mul_inv_cancel₀ ha, one_smul]
  · intro h
    have ha : v.abs = 0 := by rw [Vec.abs_eq_norm, h, norm_zero]
    constructor
    · intro u; simp [Vec.unit, Vec.div, ha]
    · intro u; simp [Vec.normalize, ha]

example : toE ⟨0, 3, 4⟩ ≠ 0 := by
  intro h
  have := congrArg (fun e : E3 => e.ofLp 1) h
  simp [toE] at this

/-! ## C03 -/

/-- Row and column relations of an orthonormal frame. -/
theorem orthonormal_cols {n t1 t2 : V} (h : Orthonormal3 n t1 t2) :
    (n.dot n = 1 ∧ t1.dot t1 = 1 ∧ t2.dot t2 = 1 ∧ n.dot t1 = 0 ∧ n.dot t2 = 0 ∧ t1.dot t2 = 0) ∧
    (n.x * n.x + t1.x * t1.x + t2.x * t2.x = 1 ∧ n.y * n.y + t1.y * t1.y + t2.y * t2.y = 1 ∧
     n.z * n.z + t1.z * t1.z + t2.z * t2.z = 1 ∧ n.x * n.y + t1.x * t1.y + t2.x * t2.y = 0 ∧
     n.x * n.z + t1.x * t1.z + t2.x * t2.z = 0 ∧ n.y * n.z + t1.y * t1.z + t2.y * t2.z = 0) := by
  have hr : n.dot n = 1 ∧ t1.dot t1 = 1 ∧ t2.dot t2 = 1 ∧ n.dot t1 = 0 ∧ n.dot t2 = 0 ∧
      t1.dot t2 = 0 := by
    obtain ⟨h1, h2⟩ := h
    refine ⟨?_, ?_, ?_, ?_, ?_, ?_⟩
    · rw [← Vec.abs_sq, Vec.abs_eq_norm]; have := h1 0; simp at this; rw [this]; ring
    · rw [← Vec.abs_sq, Vec.abs_eq_norm]; have := h1 1; simp at this; rw [this]; ring
    · rw [← Vec.abs_sq, Vec.abs_eq_norm]; have := h1 2; simp at this; rw [this]; ring
    · rw [Vec.dot_eq_inner]; exact h2 (i := 0) (j := 1) (by decide)
    · rw [Vec.dot_eq_inner]; exact h2 (i := 0) (j := 2) (by decide)
    · rw [Vec.dot_eq_inner]; exact h2 (i := 1) (j := 2) (by decide)
  refine ⟨hr, ?_⟩
  obtain ⟨a1, a2, a3, a4, a5, a6⟩ := hr
  unfold Vec.dot at a1 a2 a3 a4 a5 a6
  let M : Matrix (Fin 3) (Fin 3) ℝ := !![n.x, n.y, n.z; t1.x, t1.y, t1.z; t2.x, t2.y, t2.z]
  have hM : M * M.transpose = 1 := by
    ext i j
    fin_cases i <;> fin_cases j <;>
      simp [M, Matrix.mul_apply, Fin.sum_univ_three] <;> linarith
  have hM' : M.transpose * M = 1 := mul_eq_one_comm.1 hM
  have e := fun i j => congrFun (congrFun hM' i) j
  have e00 := e 0 0
  have e11 := e 1 1
  have e22 := e 2 2
  have e01 := e 0 1
  have e02 := e 0 2
  have e12 := e 1 2
  simp [M, Matrix.mul_apply, Fin.sum_univ_three] at e00 e11 e22 e01 e02 e12
  exact ⟨e00, e11, e22, e01, e02, e12⟩

/-- The documented global frame transformation: the point with local coordinates `v` in the frame. -/
noncomputable def globalSpec (v n t1 t2 c : V) : E3 :=
  toE c + v.x • toE n + v.y • toE t1 + v.z • toE t2

/-- The frame used in the counterexample is orthonormal and right handed. -/
theorem C03_witness_frame : Orthonormal3 (⟨1, 0, 0⟩ : V) ⟨0, 0, -1⟩ ⟨0, 1, 0⟩ ∧
    Vec.cross ⟨1, 0, 0⟩ ⟨0, 0, -1⟩ = (⟨0, 1, 0⟩ : V) := by
  constructor
  · constructor
    · intro i
      fin_cases i <;> simp [← Vec.abs_eq_norm, Vec.abs]
    · intro i j hij
      fin_cases i <;> fin_cases j <;>
        first
        | (exact absurd rfl hij)
        | (simp [← Vec.dot_eq_inner, Vec.dot])
  · ext <;> simp

/-- C03 is violated: there is a right handed orthonormal frame and a vector that does not survive the
round trip (the receiver of `transform_to_global_frame` is the result of the local transformation). -/
theorem C03_roundtrip_violated :
    ¬ ∀ n t1 t2 v c : V, Orthonormal3 n t1 t2 → Vec.cross n t1 = t2 →
      ((v.toLocal n t1 t2 (some c)).2.toGlobal n t1 t2 (some c)).2 = v := by
  intro h
  have := h ⟨1, 0, 0⟩ ⟨0, 0, -1⟩ ⟨0, 1, 0⟩ ⟨0, 1, 0⟩ ⟨0, 0, 0⟩ C03_witness_frame.1 C03_witness_frame.2
  have := congrArg Vec.y this
  simp [Vec.toLocal, Vec.toGlobal, Vec.dot] at this

/-- C03, what does hold: for every orthonormal frame the round trip error is exactly
`((v-c)·t1 - (v-c)·t2) * t2.y` in the y coordinate and nothing elsewhere.
Missing: the identity itself, which fails whenever this number is not zero. -/
theorem C03_roundtrip_partial (n t1 t2 v c : V) (h : Orthonormal3 n t1 t2) :
    toE ((v.toLocal n t1 t2 (some c)).2.toGlobal n t1 t2 (some c)).2 =
      toE v + ((inner ℝ (toE v - toE c) (toE t1) - inner ℝ (toE v - toE c) (toE t2)) * t2.y) •
        EuclideanSpace.single 1 (1 : ℝ) := by
  obtain ⟨-, b1, b2, b3, b4, b5, b6⟩ := orthonormal_cols h
  rw [← Vec.toE_sub, ← Vec.dot_eq_inner, ← Vec.dot_eq_inner]
  unfold toE
  ext i
  fin_cases i <;> simp [Vec.toLocal, Vec.toGlobal, Vec.dot]
  · linear_combination (v.x - c.x) * b1 + (v.y - c.y) * b4 + (v.z - c.z) * b5
  · linear_combination (v.x - c.x) * b4 + (v.y - c.y) * b2 + (v.z - c.z) * b6
  · linear_combination (v.x - c.x) * b5 + (v.y - c.y) * b6 + (v.z - c.z) * b3

/-- C03, consequence: the round trip is the identity exactly when `t2.y = 0` or the two tangential
components agree. -/
theorem C03_roundtrip_iff_partial (n t1 t2 v c : V) (h : Orthonormal3 n t1 t2) :
    ((v.toLocal n t1 t2 (some c)).2.toGlobal n t1 t2 (some c)).2 = v ↔
      t2.y = 0 ∨ inner ℝ (toE v - toE c) (toE t1) = inner ℝ (toE v - toE c) (toE t2) := by
  rw [← Vec.toE_injective.eq_iff, C03_roundtrip_partial n t1 t2 v c h, add_eq_left, smul_eq_zero,
    mul_eq_zero, sub_eq_zero]
  constructor
  · rintro ((h | h) | h)
    · exact .inr h
    · exact .inl h
    · have := congrArg (fun e : E3 => e.ofLp 1) h
      simp at this
  · rintro (h | h)
    · exact .inl (.inr h)
    · exact .inl (.inl h)

/-- C03: `transform_to_local_frame` itself is correct: it is the coordinate map of the frame, i.e. it
preserves distances, and the result read in the frame gives back the vector. -/
theorem C03_toLocal_correct (n t1 t2 v w c : V) (h : Orthonormal3 n t1 t2) :
    globalSpec (v.toLocal n t1 t2 (some c)).2 n t1 t2 c = toE v ∧
    vdist (v.toLocal n t1 t2 (some c)).2 (w.toLocal n t1 t2 (some c)).2 = vdist v w := by
  obtain ⟨-, b1, b2, b3, b4, b5, b6⟩ := orthonormal_cols h
  constructor
  · unfold globalSpec toE
    ext i
    fin_cases i <;> simp [Vec.toLocal, Vec.dot]
    · linear_combination (v.x - c.x) * b1 + (v.y - c.y) * b4 + (v.z - c.z) * b5
    · linear_combination (v.x - c.x) * b4 + (v.y - c.y) * b2 + (v.z - c.z) * b6
    · linear_combination (v.x - c.x) * b5 + (v.y - c.y) * b6 + (v.z - c.z) * b3
  · rw [← Vec.abs_sub_eq_vdist, ← Vec.abs_sub_eq_vdist]
    rw [Vec.abs_eq_sqrt_dot, Vec.abs_eq_sqrt_dot]
    congr 1
    simp [Vec.toLocal, Vec.dot]
    linear_combination (v.x - w.x) ^ 2 * b1 + (v.y - w.y) ^ 2 * b2 + (v.z - w.z) ^ 2 * b3 +
      2 * (v.x - w.x) * (v.y - w.y) * b4 + 2 * (v.x - w.x) * (v.z - w.z) * b5 +
      2 * (v.y - w.y) * (v.z - w.z) * b6

/-- C03: what `transform_to_global_frame` computes, for every frame: the documented point plus an
error `(v.y - v.z) * t2.y` in the y coordinate. -/
theorem C03_toGlobal_partial (n t1 t2 v c : V) :
    toE (v.toGlobal n t1 t2 (some c)).2 =
      globalSpec v n t1 t2 c + ((v.y - v.z) * t2.y) • EuclideanSpace.single 1 (1 : ℝ) := by
  unfold globalSpec toE
  ext i
  fin_cases i <;> simp [Vec.toGlobal] <;> ring

example : Orthonormal3 (⟨1, 0, 0⟩ : V) ⟨0, 0, -1⟩ ⟨0, 1, 0⟩ := C03_witness_frame.1

/-- C03: effect on the receiver object.  Without an origin, and for the global transformation, the
receiver becomes the result; the local transformation with an origin leaves it as it was. -/
theorem C03_receiver (v n t1 t2 c : V) (o : Option V) :
    (v.toGlobal n t1 t2 o).1 = (v.toGlobal n t1 t2 o).2 ∧
    (v.toLocal n t1 t2 none).1 = (v.toLocal n t1 t2 none).2 ∧
    (v.toLocal n t1 t2 (some c)).1 = v := ⟨rfl, rfl, rfl⟩

/-! ## C04 -/

/-- C04: which constructor calls succeed and with what result. -/
theorem C04_constructor (a : Vec.Arg) (y z : Option ℝ) :
    ((∃ v, Vec.init a y z = .ok v) ↔ (∃ w, a = .vec w) ∨ ∃ x, a = .num x) ∧
    (∀ w, a = .vec w → Vec.init a y z = .ok w) ∧
    (∀ x, a = .num x → ∃ v, Vec.init a y z = .ok v ∧ v.x = x ∧
      (∀ b, y = some b → v.y = b) ∧ (y = none → v.y = 0) ∧
      (∀ b, z = some b → v.z = b) ∧ (z = none → v.z = 0)) ∧
    ((¬ ∃ v, Vec.init a y z = .ok v) → Vec.init a y z = .error .value) := by
  refine ⟨?_, ?_, ?_, ?_⟩
  · cases a <;> simp [Vec.init]
  · rintro w rfl; rfl
  · rintro x rfl
    refine ⟨_, rfl, rfl, ?_, ?_, ?_, ?_⟩ <;> intros <;> simp_all
  · cases a <;> simp [Vec.init]

example : Vec.init (.num 1) none (some 3) = .ok ⟨1, 0, 3⟩ := rfl

/-- C04: `from_coordinates` undoes `vec`. -/
theorem C04_from_coordinates (v : V) (l : List ℝ) :
    Vec.fromCoordinates v.vec = .ok v ∧
    ((∃ u, Vec.fromCoordinates l = .ok u) ↔ 1 ≤ l.length ∧ l.length ≤ 3) := by
  refine ⟨rfl, ?_⟩
  rcases l with _ | ⟨a, _ | ⟨b, _ | ⟨c, _ | ⟨d, l⟩⟩⟩⟩ <;> simp [Vec.fromCoordinates, Vec.init]

example : Vec.fromCoordinates [1, 2] = .ok ⟨1, 2, 0⟩ := rfl

/-! ## C05 -/

/-- C05: the test is the stated component-wise tolerance test, reflexive and monotone.
Missing (see `C05_symmetry_violated`): independence of the argument order. -/
theorem C05_tolerance_partial (u v : V) (rt at' : ℝ) :
    (u.approxEq v rt at' ↔ ∀ i, |toF u i - toF v i| ≤ at' + rt * |toF v i|) ∧
    (0 ≤ rt → 0 ≤ at' → u.approxEq u rt at') ∧
    (∀ rt2 at2, rt ≤ rt2 → at' ≤ at2 → u.approxEq v rt at' → u.approxEq v rt2 at2) ∧
    (0 ≤ rt → rt < 1 → u.approxEq v rt at' → v.approxEq u (rt / (1 - rt)) (at' / (1 - rt))) := by
  refine ⟨?_, ?_, ?_, ?_⟩
  · constructor
    · rintro ⟨h1, h2, h3⟩ i
      fin_cases i
      · exact h1
      · exact h2
      · exact h3
    · intro h; exact ⟨h 0, h 1, h 2⟩
  · intro h1 h2
    refine ⟨?_, ?_, ?_⟩ <;> simp only [Vec.isclose, sub_self, abs_zero] <;> positivity
  · rintro rt2 at2 h1 h2 ⟨a, b, c⟩
    have key : ∀ p q, Vec.isclose p q rt at' → Vec.isclose p q rt2 at2 := by
      intro p q h
      unfold Vec.isclose at *
      have := mul_le_mul_of_nonneg_right h1 (abs_nonneg q)
      linarith
    exact ⟨key _ _ a, key _ _ b, key _ _ c⟩
  · rintro h0 h1 ⟨a, b, c⟩
    have key : ∀ p q, Vec.isclose p q rt at' → Vec.isclose q p (rt / (1 - rt)) (at' / (1 - rt)) := by
      intro p q h
      unfold Vec.isclose at *
      have hp : 0 < 1 - rt := by linarith
      have e : at' / (1 - rt) + rt / (1 - rt) * |p| = (at' + rt * |p|) / (1 - rt) := by ring
      rw [e, le_div_iff₀ hp, abs_sub_comm]
      have h3 : |q| ≤ |p| + |p - q| := by
        have := abs_sub_abs_le_abs_sub q p
        rw [abs_sub_comm q p] at this; linarith
      nlinarith
    exact ⟨key _ _ a, key _ _ b, key _ _ c⟩

/-- C05 is violated as to symmetry: with the default tolerances the test depends on argument order. -/
theorem C05_symmetry_violated : ¬ ∀ u v : V, u.approxEq v → v.approxEq u := by
  intro h
  have := (h ⟨1, 0, 0⟩ ⟨1.0101, 0, 0⟩ (by
    refine ⟨?_, ?_, ?_⟩ <;> simp only [Vec.isclose] <;> norm_num [abs_of_nonneg, abs_of_neg])).1
  simp only [Vec.isclose] at this
  norm_num [abs_of_nonneg, abs_of_neg] at this

example : Vec.approxEq ⟨1, 2, 3⟩ ⟨1.001, 2, 3⟩ := by
  refine ⟨?_, ?_, ?_⟩ <;> simp only [Vec.isclose] <;> norm_num [abs_of_nonneg, abs_of_neg]

end HV
