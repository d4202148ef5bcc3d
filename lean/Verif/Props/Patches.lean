import Verif.Model.Geometry
import Verif.Lemmas.Vec
import Verif.Spec.Rigid
import Verif.Props.Rigid

/-!
# Properties C28, C29, C33, C36: curved, revolved, cone, cube, sphere and blunt cone patches
-/

namespace HV

open Spec Matrix

/-! ## C28 -/

theorem cos_sin_arctan2_one (m : ℝ) :
    Real.cos (Arc.arctan2 m 1) = 1 / Real.sqrt (1 + m ^ 2) ∧
    Real.sin (Arc.arctan2 m 1) = m / Real.sqrt (1 + m ^ 2) := by
  have hn : ‖(⟨1, m⟩ : ℂ)‖ = Real.sqrt (1 + m ^ 2) := by
    rw [Complex.norm_eq_sqrt_sq_add_sq]; simp
  unfold Arc.arctan2
  constructor
  · rw [Complex.cos_arg (by intro h; have := congrArg Complex.re h; simp at this), hn]
  · rw [Complex.sin_arg, hn]

/-- C28: curving in direction x (or y) places the surface point at signed distance z, along the unit
normal `ν` of the curve (orthogonal to the tangent given by the derivative, pointing to +z, in the
x-z respectively y-z plane), from the point of the curve above its own x and y. -/
theorem C28_curved (surf : Surf) (d : String) (fn fn' : ℝ → ℝ → Res ℝ) (r s : ℝ) (p : V) (f m : ℝ)
    (hd : d = "x" ∨ d = "y") (hp : surf r s = .ok p) (hf : fn p.x p.y = .ok f)
    (hm : fn' p.x p.y = .ok m) :
    ∃ q ν : V, CurvedPatch surf (some d) (some fn) (some fn') r s = .ok q ∧
      toE q = toE ⟨p.x, p.y, f⟩ + p.z • toE ν ∧ ‖toE ν‖ = 1 ∧ 0 < ν.z ∧
      (d = "x" → ν.y = 0 ∧ inner ℝ (toE ν) (toE ⟨1, 0, m⟩) = 0) ∧
      (d = "y" → ν.x = 0 ∧ inner ℝ (toE ν) (toE ⟨0, 1, m⟩) = 0) ∧
      vdist q ⟨p.x, p.y, f⟩ = |p.z| := by
  obtain ⟨hc, hs⟩ := cos_sin_arctan2_one m
  have hN : 0 < Real.sqrt (1 + m ^ 2) := Real.sqrt_pos.2 (by positivity)
  have hN2 : Real.sqrt (1 + m ^ 2) ^ 2 = 1 + m ^ 2 := Real.sq_sqrt (by positivity)
  have h1 := Real.sin_sq_add_cos_sq (Arc.arctan2 m 1)
  have habs : ∀ v : V, v.x ^ 2 + v.y ^ 2 + v.z ^ 2 = 1 → v.abs = 1 := by
    intro v hv; unfold Vec.abs; rw [hv, Real.sqrt_one]
  rcases hd with rfl | rfl
  · set ν : V := ⟨-Real.sin (Arc.arctan2 m 1), 0, Real.cos (Arc.arctan2 m 1)⟩ with hν
    have hn : ν.abs = 1 := habs _ (by simp only [hν]; linarith)
    refine ⟨(⟨p.x, p.y, f⟩ : V) + ν * p.z, ν, ?_, ?_, ?_, ?_, ?_, by simp, ?_⟩
    · simp only [CurvedPatch, hp, hf, hm, bind, Except.bind, pure, Except.pure, if_true, Except.ok.injEq]
      ext <;> simp [hν] <;> ring
    · rw [Vec.toE_add, Vec.toE_mul]
    · rw [← Vec.abs_eq_norm, hn]
    · simp only [hν]; rw [hc]; positivity
    · intro _
      refine ⟨rfl, ?_⟩
      rw [← Vec.dot_eq_inner]
      simp only [Vec.dot, hν, hc, hs]; ring
    · rw [← Vec.abs_sub_eq_vdist]
      have : (⟨p.x, p.y, f⟩ : V) + ν * p.z - ⟨p.x, p.y, f⟩ = ν * p.z := by ext <;> simp
      rw [this, Vec.abs_mul, hn, mul_one]
  · set ν : V := ⟨0, -Real.sin (Arc.arctan2 m 1), Real.cos (Arc.arctan2 m 1)⟩ with hν
    have hn : ν.abs = 1 := habs _ (by simp only [hν]; linarith)
    refine ⟨(⟨p.x, p.y, f⟩ : V) + ν * p.z, ν, ?_, ?_, ?_, ?_, by simp, ?_, ?_⟩
    · have : ¬ (some "y" : Option String) = some "x" := by decide
      simp only [CurvedPatch, hp, hf, hm, bind, Except.bind, pure, Except.pure, this, if_false, if_true,
        Except.ok.injEq]
      ext <;> simp [hν] <;> ring
    · rw [Vec.toE_add, Vec.toE_mul]
    · rw [← Vec.abs_eq_norm, hn]
    · simp only [hν]; rw [hc]; positivity
    · intro _
      refine ⟨rfl, ?_⟩
      rw [← Vec.dot_eq_inner]
      simp only [Vec.dot, hν, hc, hs]; ring
    · rw [← Vec.abs_sub_eq_vdist]
      have : (⟨p.x, p.y, f⟩ : V) + ν * p.z - ⟨p.x, p.y, f⟩ = ν * p.z := by ext <;> simp
      rw [this, Vec.abs_mul, hn, mul_one]

/-- C28: zero curvature leaves the patch unchanged; missing functions, or another direction, give no
point. -/
theorem C28_degenerate (surf : Surf) (r s : ℝ) :
    (∀ d, d = "x" ∨ d = "y" →
      CurvedPatch surf (some d) (some fun _ _ => .ok 0) (some fun _ _ => .ok 0) r s = surf r s) ∧
    (∀ d fn fn', fn = none ∨ fn' = none → CurvedPatch surf d fn fn' r s = .error .exc) ∧
    (∀ d fn fn', d ≠ some "x" → d ≠ some "y" → ∀ q, CurvedPatch surf d fn fn' r s ≠ .ok q) := by
  refine ⟨?_, ?_, ?_⟩
  · intro d hd
    have h0 : Arc.arctan2 0 1 = 0 := by
      unfold Arc.arctan2
      have : (⟨1, 0⟩ : ℂ) = 1 := rfl
      rw [this, Complex.arg_one]
    cases hp : surf r s with
    | error e => simp [CurvedPatch, hp, bind, Except.bind]
    | ok p =>
      rcases hd with rfl | rfl
      · simp [CurvedPatch, hp, h0, bind, Except.bind, pure, Except.pure]
      · simp [CurvedPatch, hp, h0, bind, Except.bind, pure, Except.pure]
  · intro d fn fn' h
    rcases h with rfl | rfl
    · rfl
    · cases fn <;> rfl
  · intro d fn fn' h1 h2 q
    cases fn with
    | none => simp [CurvedPatch]
    | some fn =>
      cases fn' with
      | none => simp [CurvedPatch]
      | some fn' =>
        simp only [CurvedPatch, bind, Except.bind, h1, h2, if_false]
        cases surf r s with
        | error e => simp
        | ok p =>
          simp only []
          cases fn p.x p.y with
          | error e => simp
          | ok a =>
            simp only []
            cases fn' p.x p.y with
            | error e => simp
            | ok b => simp [throw, throwThe, MonadExceptOf.throw]

/-- A parabola z = x²/2 bends the plane z = 1 over x = 1. -/
example : ∃ q, CurvedPatch (fun r s => .ok ⟨r, s, 1⟩) (some "x") (some fun x _ => .ok (x ^ 2 / 2))
    (some fun x _ => .ok x) 1 3 = .ok q ∧ vdist q ⟨1, 3, 1 / 2⟩ = 1 := by
  obtain ⟨q, ν, h, -, -, -, -, -, hd⟩ := C28_curved (fun r s => .ok ⟨r, s, 1⟩) "x" (fun x _ => .ok (x ^ 2 / 2))
    (fun x _ => .ok x) 1 3 ⟨1, 3, 1⟩ (1 / 2) 1 (.inl rfl) rfl (by simp) rfl
  exact ⟨q, h, by simpa using hd⟩

/-! ## C29 -/

theorem RevolvedPatch_eq (line : PathObj) (a0 a1 r s : ℝ) (p : V) (hp : line.call r = .ok p) :
    RevolvedPatch line a0 a1 r s = .ok ⟨p.x,
      p.y * Real.cos (a0 * (1 - s) + a1 * s) + p.z * Real.sin (a0 * (1 - s) + a1 * s),
      p.z * Real.cos (a0 * (1 - s) + a1 * s) - p.y * Real.sin (a0 * (1 - s) + a1 * s)⟩ := by
  simp only [RevolvedPatch, hp, bind, Except.bind, pure, Except.pure]

/-- C29: a point of a revolved patch is the line point turned about the x axis by minus the linearly
interpolated angle; so x and the distance to the axis are kept, and axis points are fixed. -/
theorem C29_revolved (line : PathObj) (a0 a1 r s : ℝ) (p : V) (hp : line.call r = .ok p) :
    ∃ q, RevolvedPatch line a0 a1 r s = .ok q ∧
      toF q = rodrigues ![1, 0, 0] (toF p) (-(a0 * (1 - s) + a1 * s)) ∧
      q.x = p.x ∧ q.y ^ 2 + q.z ^ 2 = p.y ^ 2 + p.z ^ 2 ∧ (p.y = 0 → p.z = 0 → q = p) := by
  refine ⟨_, RevolvedPatch_eq line a0 a1 r s p hp, ?_, rfl, ?_, ?_⟩
  · funext j
    obtain ⟨c0, c1, c2⟩ := cross_apply' ![1, 0, 0] (toF p)
    generalize a0 * (1 - s) + a1 * s = θ
    rw [rodrigues_apply]
    fin_cases j <;> simp only [Fin.zero_eta, Fin.mk_one, Fin.reduceFinMk] <;> simp only [c0, c1, c2] <;>
      simp [toF] <;> ring
  · have h := Real.sin_sq_add_cos_sq (a0 * (1 - s) + a1 * s)
    simp only []
    linear_combination (p.y ^ 2 + p.z ^ 2) * h
  · intro h1 h2
    ext <;> simp [h1, h2]

/-- C29: neighbouring revolved patches share their seam, and a revolution by a full number of turns
closes, for every line (also where the line fails to evaluate). -/
theorem C29_seams (line : PathObj) (a b c r : ℝ) (k : ℤ) :
    RevolvedPatch line a b r 1 = RevolvedPatch line b c r 0 ∧
    RevolvedPatch line a (a + k * (2 * Real.pi)) r 1 = RevolvedPatch line a b r 0 := by
  constructor
  · simp [RevolvedPatch]
  · have e : a * (1 - 1) + (a + k * (2 * Real.pi)) * 1 = a + k * (2 * Real.pi) := by ring
    have e0 : a * (1 - 0) + b * 0 = a := by ring
    simp only [RevolvedPatch, e, e0, Real.cos_add_int_mul_two_pi, Real.sin_add_int_mul_two_pi]

/-- C29: cone patches interpolate x and the radius linearly, at the interpolated angle. -/
theorem C29_cone (x0 x1 r0 r1 a0 a1 r s : ℝ) :
    ∃ q, ConePatch x0 x1 r0 r1 a0 a1 r s = .ok q ∧ q.x = x0 * (1 - r) + x1 * r ∧
      Real.sqrt (q.y ^ 2 + q.z ^ 2) = |r0 * (1 - r) + r1 * r| ∧
      toF q = rodrigues ![1, 0, 0] ![q.x, r0 * (1 - r) + r1 * r, 0] (a0 * (1 - s) + a1 * s) := by
  refine ⟨_, rfl, rfl, ?_, ?_⟩
  · rw [← Real.sqrt_sq_eq_abs]
    congr 1
    have h := Real.sin_sq_add_cos_sq (a0 * (1 - s) + a1 * s)
    simp only []
    linear_combination (r0 * (1 - r) + r1 * r) ^ 2 * h
  · funext j
    obtain ⟨c0, c1, c2⟩ := cross_apply' ![1, 0, 0] ![x0 * (1 - r) + x1 * r, r0 * (1 - r) + r1 * r, 0]
    rw [rodrigues_apply]
    fin_cases j <;> simp only [Fin.zero_eta, Fin.mk_one, Fin.reduceFinMk] <;> simp only [c0, c1, c2] <;>
      simp [toF] <;> ring

theorem C29_cone_seams (x0 x1 r0 r1 a b c r : ℝ) (k : ℤ) :
    ConePatch x0 x1 r0 r1 a b r 1 = ConePatch x0 x1 r0 r1 b c r 0 ∧
    ConePatch x0 x1 r0 r1 a (a + k * (2 * Real.pi)) r 1 = ConePatch x0 x1 r0 r1 a b r 0 := by
  constructor
  · simp [ConePatch]
  · have e : a * (1 - 1) + (a + k * (2 * Real.pi)) * 1 = a + k * (2 * Real.pi) := by ring
    have e0 : a * (1 - 0) + b * 0 = a := by ring
    simp only [ConePatch, e, e0, Real.cos_add_int_mul_two_pi, Real.sin_add_int_mul_two_pi]

example : RevolvedPatch (Line ⟨0, 0, 0⟩ ⟨1, 0, 1⟩) 0 (Real.pi / 2) 1 1 = .ok ⟨1, 1, 0⟩ := by
  rw [RevolvedPatch_eq _ _ _ _ _ ⟨1, 0, 1⟩ (by simp only [Line, lineAt, Except.ok.injEq]; ext <;> simp)]
  simp

/-! ## C33 -/

namespace Spec

/-- The face of the cube `[-1,1]³` with the given name: fixed coordinate and its value. -/
def faceOf (name : String) : Option (Fin 3 × ℝ) :=
  if name = "east" then some (0, 1) else if name = "west" then some (0, -1)
  else if name = "north" then some (1, 1) else if name = "south" then some (1, -1)
  else if name = "top" then some (2, 1) else if name = "bottom" then some (2, -1) else none

/-- The point of a face of the cube `[-1,1]³` at parameters r, s (running along the two other axes in
order). -/
def facePoint (i : Fin 3) (σ r s : ℝ) : Fin 3 → ℝ :=
  match i with
  | 0 => ![σ, 2 * r - 1, 2 * s - 1]
  | 1 => ![2 * r - 1, σ, 2 * s - 1]
  | 2 => ![2 * r - 1, 2 * s - 1, σ]

end Spec

theorem cubeFace_eq (face : String) (r s : ℝ) :
    cubeFace face r s = match faceOf face with
      | some (i, σ) => .ok ⟨facePoint i σ r s 0, facePoint i σ r s 1, facePoint i σ r s 2⟩
      | none => .error .value := by
  unfold cubeFace faceOf
  by_cases h1 : face = "east"
  · subst h1; simp [facePoint]; constructor <;> ring
  by_cases h2 : face = "west"
  · subst h2; simp [facePoint]; constructor <;> ring
  by_cases h3 : face = "south"
  · subst h3; simp [facePoint]; constructor <;> ring
  by_cases h4 : face = "north"
  · subst h4; simp [facePoint]; constructor <;> ring
  by_cases h5 : face = "bottom"
  · subst h5; simp [facePoint]; constructor <;> ring
  by_cases h6 : face = "top"
  · subst h6; simp [facePoint]; constructor <;> ring
  simp [h1, h2, h3, h4, h5, h6]

theorem faceOf_sq {name : String} {i : Fin 3} {σ : ℝ} (h : faceOf name = some (i, σ)) : σ ^ 2 = 1 := by
  unfold faceOf at h
  split_ifs at h <;> (simp only [Option.some.injEq, Prod.mk.injEq] at h; rw [← h.2]; norm_num)

theorem facePoint_at (i : Fin 3) (σ r s : ℝ) : facePoint i σ r s i = σ := by
  fin_cases i <;> rfl

theorem facePoint_le {i : Fin 3} {σ r s : ℝ} (hσ : σ ^ 2 = 1) (hr : 0 ≤ r ∧ r ≤ 1) (hs : 0 ≤ s ∧ s ≤ 1)
    (j : Fin 3) : facePoint i σ r s j ^ 2 ≤ 1 := by
  have h1 : (2 * r - 1) ^ 2 ≤ 1 := by nlinarith
  have h2 : (2 * s - 1) ^ 2 ≤ 1 := by nlinarith
  fin_cases i <;> fin_cases j <;> simp [facePoint, -sq_le_one_iff_abs_le_one] <;> first | exact h1 | exact h2 | exact hσ.le

/-- C33: a cube patch point is the centre plus `a` times the point of the named face of `[-1,1]³`; for
parameters in the unit square its maximum-norm distance from the centre is `|a|`, attained in the
coordinate of the face. -/
theorem C33_cube (a : ℝ) (centre : V) (face : String) (i : Fin 3) (σ r s : ℝ)
    (hf : faceOf face = some (i, σ)) :
    ∃ q, CubePatch a centre face r s = .ok q ∧
      (∀ j, toF q j = toF centre j + a * facePoint i σ r s j) ∧ toF q i - toF centre i = σ * a ∧
      (0 ≤ r ∧ r ≤ 1 → 0 ≤ s ∧ s ≤ 1 → ∀ j, |toF q j - toF centre j| ≤ |a|) := by
  have key : ∀ j, toF ⟨facePoint i σ r s 0 * a + centre.x, facePoint i σ r s 1 * a + centre.y,
      facePoint i σ r s 2 * a + centre.z⟩ j = toF centre j + a * facePoint i σ r s j := by
    intro j
    fin_cases j <;> simp [toF] <;> ring
  refine ⟨_, by simp only [CubePatch, cubeFace_eq, hf, bind, Except.bind, pure, Except.pure], key, ?_, ?_⟩
  · rw [key, facePoint_at]; ring
  · intro hr hs j
    rw [key, add_sub_cancel_left, abs_mul]
    have := facePoint_le (i := i) (faceOf_sq hf) hr hs j
    have : |facePoint i σ r s j| ≤ 1 := by rw [← sq_le_one_iff_abs_le_one]; exact this
    nlinarith [abs_nonneg a]

theorem sphere_arg_nonneg {y z : ℝ} (hy : y ^ 2 ≤ 1) (hz : z ^ 2 ≤ 1) :
    0 ≤ 1 - 0.5 * z * z - 0.5 * y * y + y * y * z * z / 3 := by
  nlinarith [mul_nonneg (sub_nonneg.2 hy) (sub_nonneg.2 hz)]

/-- C33: every sphere patch point is at distance exactly `|r|` from the centre, for parameters in the
unit square, on every face. -/
theorem C33_sphere (rad : ℝ) (centre : V) (face : String) (i : Fin 3) (σ r s : ℝ)
    (hf : faceOf face = some (i, σ)) (hr : 0 ≤ r ∧ r ≤ 1) (hs : 0 ≤ s ∧ s ≤ 1) :
    ∃ q, SpherePatch rad centre face r s = .ok q ∧ vdist q centre = |rad| ∧
      (∀ j, 0 ≤ facePoint i σ r s j * ((toF q j - toF centre j) * rad)) := by
  have hσ := faceOf_sq hf
  set x := facePoint i σ r s 0 with hx
  set y := facePoint i σ r s 1 with hy
  set z := facePoint i σ r s 2 with hz
  have hx1 : x ^ 2 ≤ 1 := facePoint_le hσ hr hs 0
  have hy1 : y ^ 2 ≤ 1 := facePoint_le hσ hr hs 1
  have hz1 : z ^ 2 ≤ 1 := facePoint_le hσ hr hs 2
  have hone : x ^ 2 = 1 ∨ y ^ 2 = 1 ∨ z ^ 2 = 1 := by
    have h := facePoint_at i σ r s
    fin_cases i
    · left; rw [hx]; exact h ▸ hσ
    · right; left; rw [hy]; exact h ▸ hσ
    · right; right; rw [hz]; exact h ▸ hσ
  have n1 := sphere_arg_nonneg hy1 hz1
  have n2 := sphere_arg_nonneg hx1 hz1
  have n3 := sphere_arg_nonneg hx1 hy1
  have heq : SpherePatch rad centre face r s = .ok
      ⟨x * Real.sqrt (1 - 0.5 * z * z - 0.5 * y * y + y * y * z * z / 3) * rad + centre.x,
        y * Real.sqrt (1 - 0.5 * z * z - 0.5 * x * x + x * x * z * z / 3) * rad + centre.y,
        z * Real.sqrt (1 - 0.5 * y * y - 0.5 * x * x + x * x * y * y / 3) * rad + centre.z⟩ := by
    simp only [SpherePatch, cubeFace_eq, hf, bind, Except.bind, pure, Except.pure, psqrt, ← hx, ← hy, ← hz,
      not_lt.2 n1, not_lt.2 n2, not_lt.2 n3, if_false]
  refine ⟨_, heq, ?_, ?_⟩
  · have e : vdist ⟨x * Real.sqrt (1 - 0.5 * z * z - 0.5 * y * y + y * y * z * z / 3) * rad + centre.x,
        y * Real.sqrt (1 - 0.5 * z * z - 0.5 * x * x + x * x * z * z / 3) * rad + centre.y,
        z * Real.sqrt (1 - 0.5 * y * y - 0.5 * x * x + x * x * y * y / 3) * rad + centre.z⟩ centre ^ 2
        = |rad| ^ 2 := by
      rw [vdist_sq]
      simp only [add_sub_cancel_right, mul_pow, Real.sq_sqrt n1, Real.sq_sqrt n2, Real.sq_sqrt n3, sq_abs]
      have : x ^ 2 * (1 - 0.5 * z * z - 0.5 * y * y + y * y * z * z / 3)
          + y ^ 2 * (1 - 0.5 * z * z - 0.5 * x * x + x * x * z * z / 3)
          + z ^ 2 * (1 - 0.5 * y * y - 0.5 * x * x + x * x * y * y / 3) = 1 := by
        norm_num
        rcases hone with h | h | h
        · linear_combination (1 - y ^ 2) * (1 - z ^ 2) * h
        · linear_combination (1 - x ^ 2) * (1 - z ^ 2) * h
        · linear_combination (1 - x ^ 2) * (1 - y ^ 2) * h
      linear_combination rad ^ 2 * this
    exact (pow_left_inj₀ dist_nonneg (abs_nonneg _) (by norm_num)).1 e
  · intro j
    have key : ∀ t S : ℝ, 0 ≤ S → 0 ≤ t * ((t * S * rad) * rad) := by
      intro t S hS
      have : t * ((t * S * rad) * rad) = (t * rad) ^ 2 * S := by ring
      rw [this]; positivity
    fin_cases j <;> simp [toF]
    · exact key _ _ (Real.sqrt_nonneg _)
    · exact key _ _ (Real.sqrt_nonneg _)
    · exact key _ _ (Real.sqrt_nonneg _)

/-- The twelve edges of the cube, each as a side of two faces: name, fixed parameter (`true` for r) and
its value, with matching free parameter. -/
def Spec.cubeEdges : List ((String × (ℝ → ℝ × ℝ)) × (String × (ℝ → ℝ × ℝ))) :=
  [(("east", fun t => (0, t)), ("south", fun t => (1, t))),
   (("east", fun t => (1, t)), ("north", fun t => (1, t))),
   (("east", fun t => (t, 0)), ("bottom", fun t => (1, t))),
   (("east", fun t => (t, 1)), ("top", fun t => (1, t))),
   (("west", fun t => (0, t)), ("south", fun t => (0, t))),
   (("west", fun t => (1, t)), ("north", fun t => (0, t))),
   (("west", fun t => (t, 0)), ("bottom", fun t => (0, t))),
   (("west", fun t => (t, 1)), ("top", fun t => (0, t))),
   (("south", fun t => (t, 0)), ("bottom", fun t => (t, 0))),
   (("south", fun t => (t, 1)), ("top", fun t => (t, 0))),
   (("north", fun t => (t, 0)), ("bottom", fun t => (t, 1))),
   (("north", fun t => (t, 1)), ("top", fun t => (t, 1)))]

theorem cubeFace_edges (e : (String × (ℝ → ℝ × ℝ)) × (String × (ℝ → ℝ × ℝ))) (he : e ∈ cubeEdges) (t : ℝ) :
    cubeFace e.1.1 (e.1.2 t).1 (e.1.2 t).2 = cubeFace e.2.1 (e.2.2 t).1 (e.2.2 t).2 := by
  simp only [cubeEdges, List.mem_cons, List.not_mem_nil, or_false] at he
  rcases he with rfl | rfl | rfl | rfl | rfl | rfl | rfl | rfl | rfl | rfl | rfl | rfl <;>
    simp [cubeFace] <;> norm_num

/-- C33: the six faces share their twelve edges, for cube and sphere; an unknown face raises. -/
theorem C33_edges_shared (a : ℝ) (centre : V) :
    (∀ e ∈ cubeEdges, ∀ t,
      CubePatch a centre e.1.1 (e.1.2 t).1 (e.1.2 t).2 = CubePatch a centre e.2.1 (e.2.2 t).1 (e.2.2 t).2 ∧
      SpherePatch a centre e.1.1 (e.1.2 t).1 (e.1.2 t).2 =
        SpherePatch a centre e.2.1 (e.2.2 t).1 (e.2.2 t).2) ∧
    (∀ face r s, faceOf face = none →
      CubePatch a centre face r s = .error .value ∧ SpherePatch a centre face r s = .error .value) := by
  constructor
  · intro e he t
    simp only [CubePatch, SpherePatch, cubeFace_edges e he t, and_self]
  · intro face r s h
    simp only [CubePatch, SpherePatch, cubeFace_eq, h, bind, Except.bind, and_self]

example : faceOf "east" = some (0, 1) ∧ faceOf "up" = none := by
  constructor
  · rfl
  · unfold faceOf; simp

/-! ## C36 -/

/-- C36 is violated everywhere: `BluntConePatch` reads attributes its constructor never sets, so every
evaluation raises `AttributeError`. -/
theorem C36_blunt_cone_violated (b : BluntCone) (r s : ℝ) : BluntConePatch b r s = .error .attr := by
  simp [BluntConePatch, BluntCone.getattr, bind, Except.bind]

end HV
