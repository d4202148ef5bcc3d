import Verif.Lemmas.Glued
import Verif.Props.Revolved

/-!
# The ends of bodies of revolution
-/

namespace HV
open Spec

/-- The boundary of a body of revolution: the circles of its two ends. -/
theorem revolve_bdry {A : Type} [AddCommGroup A] (φ : V → V → A) (f : ℝ → V) (n : ℕ) (hn : 1 ≤ n) :
    (((List.range 4).map (revolveGrid f n)).map (bdry φ n n)).sum =
      ∑ k ∈ Finset.range 4, (pathSum φ (fun j => revolveGrid f n k n j) n - pathSum φ (fun j => revolveGrid f n k 0 j) n) := by
  have hn0 : (n : ℝ) ≠ 0 := by positivity
  set P := revolveGrid f n with hP
  have hseam : ∀ k : ℕ, pathSum φ (fun i => P k i n) n = pathSum φ (fun i => P (k + 1) i 0) n := by
    intro k
    apply pathSum_congr
    intro i _
    simp only [hP, revolveGrid]
    congr 1
    rw [div_self hn0]
    push_cast
    simp
  have hlast : pathSum φ (fun i => P 4 i 0) n = pathSum φ (fun i => P 0 i 0) n := by
    apply pathSum_congr
    intro i _
    simp only [hP, revolveGrid, revolveRot]
    have : ((4 : ℕ) : ℝ) * Real.pi / 2 * (1 - ((0 : ℕ) : ℝ) / n) + (((4 : ℕ) : ℝ) + 1) * Real.pi / 2 * (((0 : ℕ) : ℝ) / n)
        = 2 * Real.pi := by simp; ring
    rw [this]
    simp [Real.cos_two_pi, Real.sin_two_pi]
  have e : (List.range 4) = [0, 1, 2, 3] := rfl
  rw [e]
  simp only [List.map_cons, List.map_nil, List.sum_cons, List.sum_nil, bdry, hseam, Finset.sum_range_succ, Finset.sum_range_zero]
  simp only [zero_add, Nat.reduceAdd, hlast]
  abel

/-- The point of the axis beside a point. -/
def onAxis (v : V) : V := ⟨v.x, 0, 0⟩

theorem revolveRot_axis (a : ℝ) (v : V) : vdist (revolveRot a v) (onAxis v) = vdist v (onAxis v) := by
  rw [← Vec.abs_sub_eq_vdist, ← Vec.abs_sub_eq_vdist]
  unfold Vec.abs
  congr 1
  simp only [revolveRot, onAxis, Vec.sub_x, Vec.sub_y, Vec.sub_z, sub_zero]
  linear_combination (v.y ^ 2 + v.z ^ 2) * Real.sin_sq_add_cos_sq a

/-- A body of revolution whose ends are nearly on the axis fits together up to their distance from it. -/
theorem glued_revolved (f : ℝ → V) (n : ℕ) (hn : 1 ≤ n) (δ : ℝ) (h0 : vdist (f 0) (onAxis (f 0)) ≤ δ) (h1 : vdist (f 1) (onAxis (f 1)) ≤ δ) :
    Glued n δ (fun v => v = onAxis (f 0) ∨ v = onAxis (f 1)) (fun _ => False) ((List.range 4).map (revolveGrid f n)) := by
  have hn0 : (n : ℝ) ≠ 0 := by positivity
  set f' : ℝ → V := fun t => if t = 0 then onAxis (f 0) else if t = 1 then onAxis (f 1) else f t with hf'
  refine ⟨(List.range 4).map (revolveGrid f' n), ?_, ?_⟩
  · rw [List.forall₂_map_left_iff, List.forall₂_map_right_iff, List.forall₂_same]
    intro k _ i hi j hj
    have hax : ∀ a v, revolveRot a (onAxis v) = onAxis v := fun a v => by simp [revolveRot, onAxis]
    by_cases e0 : (i : ℝ) / n = 0
    · right
      simp only [revolveGrid, e0, hf', if_true, hax]
      exact ⟨(revolveRot_axis _ _).le.trans h0, by simp⟩
    · by_cases e1 : (i : ℝ) / n = 1
      · right
        simp only [revolveGrid, e1, hf', one_ne_zero, if_false, if_true, hax]
        exact ⟨(revolveRot_axis _ _).le.trans h1, by simp⟩
      · left
        simp only [revolveGrid, hf', e0, e1, if_false]
  · intro φ hφ _
    rw [revolve_bdry φ f' n hn]
    apply Finset.sum_eq_zero
    intro k _
    have hc : ∀ (i : ℕ) (v : V), f' ((i : ℝ) / n) = onAxis v → pathSum φ (fun j => revolveGrid f' n k i j) n = 0 := by
      intro i v hv
      have : pathSum φ (fun j => revolveGrid f' n k i j) n = pathSum φ (fun _ => onAxis v) n := by
        apply pathSum_congr
        intro j _
        simp [revolveGrid, revolveRot, hv, onAxis]
      rw [this]
      exact pathSum_const φ hφ (fun a ha => zmul_tf ha) _ n
    rw [hc n (f 1) (by rw [div_self hn0]; simp [hf']), hc 0 (f 0) (by simp [hf']), sub_zero]

open Classical in
/-- Twice the area swept in the plane at `x`, seen along the axis. -/
noncomputable def sweep (x : ℝ) (u v : V) : ℝ := if u.x = x ∧ v.x = x then u.y * v.z - u.z * v.y else 0

theorem sweep_anti (x : ℝ) : Anti (sweep x) := by
  intro u v
  unfold sweep
  by_cases h : u.x = x ∧ v.x = x
  · rw [if_pos h, if_pos ⟨h.2, h.1⟩]; ring
  · rw [if_neg h, if_neg fun k => h ⟨k.2, k.1⟩, neg_zero]

/-- The circle of an end, as the mesh has it, sweeps the area of a regular polygon. -/
theorem sweep_end (f : ℝ → V) (n k i : ℕ) (hn : 1 ≤ n) (x : ℝ) : pathSum (sweep x) (fun j => revolveGrid f n k i j) n =
    if (f ((i : ℝ) / n)).x = x then -(n * Real.sin (Real.pi / 2 / n) * ((f ((i : ℝ) / n)).y ^ 2 + (f ((i : ℝ) / n)).z ^ 2)) else 0 := by
  have hn0 : (n : ℝ) ≠ 0 := by positivity
  set v := f ((i : ℝ) / n)
  unfold pathSum
  by_cases hx : v.x = x
  · rw [if_pos hx]
    have : ∀ j ∈ Finset.range n, sweep x (revolveGrid f n k i j) (revolveGrid f n k i (j + 1)) =
        -(Real.sin (Real.pi / 2 / n) * (v.y ^ 2 + v.z ^ 2)) := by
      intro j _
      unfold sweep
      rw [if_pos ⟨hx, hx⟩]
      simp only [revolveGrid, revolveRot]
      set a := ((k : ℝ) * Real.pi / 2) * (1 - (j : ℝ) / n) + (((k : ℝ) + 1) * Real.pi / 2) * ((j : ℝ) / n) with ha
      have hb : ((k : ℝ) * Real.pi / 2) * (1 - ((j + 1 : ℕ) : ℝ) / n) + (((k : ℝ) + 1) * Real.pi / 2) * (((j + 1 : ℕ) : ℝ) / n) =
          a + Real.pi / 2 / n := by
        rw [ha]; push_cast; field_simp; ring
      rw [hb, Real.cos_add a, Real.sin_add a]
      have := Real.sin_sq_add_cos_sq a
      show (v.y * Real.cos a + v.z * Real.sin a) * (v.z * _ - v.y * _) - (v.z * Real.cos a - v.y * Real.sin a) * (v.y * _ + v.z * _) = _
      linear_combination (-(Real.sin (Real.pi / 2 / n)) * (v.y ^ 2 + v.z ^ 2)) * this
    rw [Finset.sum_congr rfl this, Finset.sum_const, Finset.card_range, nsmul_eq_mul]
    ring
  · rw [if_neg hx]
    apply Finset.sum_eq_zero
    intro j _
    unfold sweep
    exact if_neg fun h => hx h.1

end HV
