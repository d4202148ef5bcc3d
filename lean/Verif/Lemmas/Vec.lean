import Verif.Spec.Euclid
import Mathlib.Tactic.Ring
import Mathlib.Tactic.Linarith
import Mathlib.Tactic.LinearCombination
import Mathlib.Tactic.FieldSimp
import Mathlib.Tactic.NormNum

/-!
# Basic lemmas about vectors
-/

namespace HV
namespace Vec

variable (u v w : V) (a b : ℝ)

@[simp] theorem add_x : (u + v).x = u.x + v.x := rfl
@[simp] theorem add_y : (u + v).y = u.y + v.y := rfl
@[simp] theorem add_z : (u + v).z = u.z + v.z := rfl
@[simp] theorem sub_x : (u - v).x = u.x - v.x := rfl
@[simp] theorem sub_y : (u - v).y = u.y - v.y := rfl
@[simp] theorem sub_z : (u - v).z = u.z - v.z := rfl
@[simp] theorem neg_x : (-u).x = -u.x := by show -1 * u.x = _; ring
@[simp] theorem neg_y : (-u).y = -u.y := by show -1 * u.y = _; ring
@[simp] theorem neg_z : (-u).z = -u.z := by show -1 * u.z = _; ring
@[simp] theorem mul_x : (u * a).x = u.x * a := rfl
@[simp] theorem mul_y : (u * a).y = u.y * a := rfl
@[simp] theorem mul_z : (u * a).z = u.z * a := rfl
@[simp] theorem cross_x : (cross u v).x = u.y * v.z - v.y * u.z := rfl
@[simp] theorem cross_y : (cross u v).y = v.x * u.z - u.x * v.z := rfl
@[simp] theorem cross_z : (cross u v).z = u.x * v.y - v.x * u.y := rfl

theorem abs_nonneg : 0 ≤ v.abs := Real.sqrt_nonneg _

theorem abs_sq : v.abs ^ 2 = v.dot v := by
  unfold abs dot
  rw [Real.sq_sqrt (by positivity)]
  ring

theorem dot_self_nonneg : 0 ≤ v.dot v := by rw [← abs_sq]; positivity

theorem abs_eq_sqrt_dot : v.abs = Real.sqrt (v.dot v) := by
  unfold abs dot; congr 1; ring

theorem abs_eq_norm : v.abs = ‖Spec.toE v‖ := by
  unfold abs Spec.toE
  rw [EuclideanSpace.norm_eq]
  simp [Fin.sum_univ_three]

theorem toE_add : Spec.toE (u + v) = Spec.toE u + Spec.toE v := by
  unfold Spec.toE; ext i; fin_cases i <;> simp

theorem toE_sub : Spec.toE (u - v) = Spec.toE u - Spec.toE v := by
  unfold Spec.toE; ext i; fin_cases i <;> simp

theorem toE_mul : Spec.toE (u * a) = a • Spec.toE u := by
  unfold Spec.toE; ext i; fin_cases i <;> simp [mul_comm]

theorem toE_injective : Function.Injective Spec.toE := by
  intro u v h
  have h0 := congrFun (congrArg (fun e : Spec.E3 => e.ofLp) h) 0
  have h1 := congrFun (congrArg (fun e : Spec.E3 => e.ofLp) h) 1
  have h2 := congrFun (congrArg (fun e : Spec.E3 => e.ofLp) h) 2
  simp [Spec.toE] at h0 h1 h2
  exact Vec.ext h0 h1 h2

theorem abs_sub_eq_vdist : (u - v).abs = Spec.vdist u v := by
  rw [abs_eq_norm, toE_sub]; exact (dist_eq_norm _ _).symm

theorem dot_eq_inner : u.dot v = inner ℝ (Spec.toE u) (Spec.toE v) := by
  unfold dot Spec.toE
  simp [PiLp.inner_apply, Fin.sum_univ_three]; ring

theorem abs_eq_zero_iff : v.abs = 0 ↔ v = ⟨0, 0, 0⟩ := by
  constructor
  · intro h
    have h2 : v.dot v = 0 := by rw [← abs_sq, h]; ring
    unfold dot at h2
    have hx : v.x = 0 := by nlinarith [mul_self_nonneg v.x, mul_self_nonneg v.y, mul_self_nonneg v.z]
    have hy : v.y = 0 := by nlinarith [mul_self_nonneg v.x, mul_self_nonneg v.y, mul_self_nonneg v.z]
    have hz : v.z = 0 := by nlinarith [mul_self_nonneg v.x, mul_self_nonneg v.y, mul_self_nonneg v.z]
    exact Vec.ext hx hy hz
  · rintro rfl; simp [abs]

theorem abs_mul : (v * a).abs = |a| * v.abs := by
  rw [abs_eq_norm, toE_mul, norm_smul, ← abs_eq_norm]; rfl

theorem abs_add_le : (u + v).abs ≤ u.abs + v.abs := by
  simp only [abs_eq_norm, toE_add]; exact norm_add_le _ _

theorem abs_sub_comm : (u - v).abs = (v - u).abs := by
  simp only [abs_sub_eq_vdist]; exact dist_comm _ _

theorem abs_neg : (-v).abs = v.abs := by
  simp [abs]

theorem mul_one' : v * (1 : ℝ) = v := by ext <;> simp
theorem mul_zero' : v * (0 : ℝ) = ⟨0, 0, 0⟩ := by ext <;> simp
theorem add_zero' : v + (⟨0, 0, 0⟩ : V) = v := by ext <;> simp
theorem zero_add' : (⟨0, 0, 0⟩ : V) + v = v := by ext <;> simp

theorem sub_eq_zero_iff : (u - v).abs = 0 ↔ u = v := by
  rw [abs_eq_zero_iff]
  constructor
  · intro h
    have hx := congrArg Vec.x h
    have hy := congrArg Vec.y h
    have hz := congrArg Vec.z h
    simp [sub_eq_zero] at hx hy hz
    exact Vec.ext hx hy hz
  · rintro rfl; ext <;> simp

end Vec
end HV
