import Verif.Props.Polyline
import Mathlib.Analysis.Calculus.Deriv.Pow
import Mathlib.Analysis.Calculus.Deriv.Mul
import Mathlib.Analysis.Calculus.Deriv.Add

/-!
# Property C12: splines
-/

namespace HV

open Spec

namespace Spline

/-- One step of the sweep, as in the model. -/
noncomputable def step (p : ℕ → V) (st : (ℕ → V) × ℝ) (k : ℕ) : (ℕ → V) × ℝ :=
  let i := k + 1
  let new := ((p i) * (6 : ℝ) - st.1 (i - 1) - st.1 (i + 1)) * (0.25 : ℝ)
  (Function.update st.1 i new, max st.2 (new - st.1 i).abs)

/-- State of the sweep after `k` steps. -/
theorem sweep_loop (p d : ℕ → V) (k : ℕ) :
    let st := (List.range k).foldl (step p) (d, (0 : ℝ))
    (∀ i, (i = 0 ∨ k < i) → st.1 i = d i) ∧
    (∀ i, 1 ≤ i → i ≤ k → st.1 i = ((p i) * (6 : ℝ) - st.1 (i - 1) - d (i + 1)) * (0.25 : ℝ)) ∧
    (∀ i, 1 ≤ i → i ≤ k → (st.1 i - d i).abs ≤ st.2) ∧
    (st.2 = 0 ∨ ∃ i, 1 ≤ i ∧ i ≤ k ∧ st.2 = (st.1 i - d i).abs) := by
  induction k with
  | zero => simp; constructor <;> (intro i h1 h2; omega)
  | succ k ih =>
    rw [List.range_succ, List.foldl_append]
    intro st
    obtain ⟨h1, h2, h3, h4⟩ := ih
    set s0 := (List.range k).foldl (step p) (d, (0 : ℝ)) with hs0
    set new := ((p (k + 1)) * (6 : ℝ) - s0.1 (k + 1 - 1) - s0.1 (k + 1 + 1)) * (0.25 : ℝ) with hnew
    have e1 : st.1 = Function.update s0.1 (k + 1) new := rfl
    have e2 : st.2 = max s0.2 (new - s0.1 (k + 1)).abs := rfl
    have d1 : s0.1 (k + 1) = d (k + 1) := h1 _ (.inr (by omega))
    have hk : st.1 (k + 1) = new := by rw [e1, Function.update_self]
    have hlt : ∀ i, i ≠ k + 1 → st.1 i = s0.1 i := fun i hi => by
      rw [e1, Function.update_of_ne hi]
    have goal1 : ∀ i, (i = 0 ∨ k + 1 < i) → st.1 i = d i := by
      intro i hi
      rw [hlt i (by omega)]
      exact h1 i (by omega)
    have goal2 : ∀ i, 1 ≤ i → i ≤ k + 1 →
        st.1 i = ((p i) * (6 : ℝ) - st.1 (i - 1) - d (i + 1)) * (0.25 : ℝ) := by
      intro i hi1 hi2
      rcases hi2.lt_or_eq with hi | rfl
      · rw [hlt i (by omega), hlt (i - 1) (by omega), h2 i hi1 (by omega)]
      · rw [hk, hnew, hlt (k + 1 - 1) (by omega), h1 (k + 1 + 1) (.inr (by omega))]
    have goal3 : ∀ i, 1 ≤ i → i ≤ k + 1 → (st.1 i - d i).abs ≤ st.2 := by
      intro i hi1 hi2
      rw [e2]
      rcases hi2.lt_or_eq with hi | rfl
      · rw [hlt i (by omega)]; exact (h3 i hi1 (by omega)).trans (le_max_left _ _)
      · rw [hk, ← d1]; exact le_max_right _ _
    refine ⟨goal1, goal2, goal3, ?_⟩
    rcases max_choice s0.2 (new - s0.1 (k + 1)).abs with hm | hm
    · rcases h4 with h4 | ⟨i, hi1, hi2, hi3⟩
      · left; rw [e2, hm, h4]
      · right; refine ⟨i, hi1, by omega, ?_⟩; rw [e2, hm, hlt i (by omega), hi3]
    · right; refine ⟨k + 1, by omega, le_rfl, ?_⟩; rw [e2, hm, hk, d1]

theorem sweep_spec (m : ℕ) (p d : ℕ → V) :
    (∀ i, (i = 0 ∨ m ≤ i) → (sweep m p d).1 i = d i) ∧
    (∀ i, 1 ≤ i → i < m →
      (sweep m p d).1 i = ((p i) * (6 : ℝ) - (sweep m p d).1 (i - 1) - d (i + 1)) * (0.25 : ℝ)) ∧
    (∀ i, ((sweep m p d).1 i - d i).abs ≤ (sweep m p d).2) ∧
    ((sweep m p d).2 = 0 ∨ ∃ i, 1 ≤ i ∧ i < m ∧ (sweep m p d).2 = ((sweep m p d).1 i - d i).abs) := by
  obtain ⟨h1, h2, h3, h4⟩ := sweep_loop p d (m - 1)
  have g1 : ∀ i, (i = 0 ∨ m ≤ i) → (sweep m p d).1 i = d i := by
    intro i hi
    by_cases h0 : i = 0
    · exact h1 i (.inl h0)
    · exact h1 i (by omega)
  have hnn : 0 ≤ (sweep m p d).2 := by
    rcases h4 with h | ⟨i, -, -, h⟩
    · exact h.ge
    · exact le_of_le_of_eq (Vec.abs_nonneg _) h.symm
  refine ⟨g1, fun i a b => h2 i a (by omega), ?_, ?_⟩
  · intro i
    by_cases hi : i = 0 ∨ m ≤ i
    · rw [g1 i hi]
      have : (d i - d i).abs = 0 := (Vec.sub_eq_zero_iff _ _).2 rfl
      rw [this]; exact hnn
    · exact h3 i (by omega) (by omega)
  · rcases h4 with h | ⟨i, a, b, c⟩
    · exact .inl h
    · exact .inr ⟨i, a, by omega, c⟩

theorem sweep_nonneg (m : ℕ) (p d : ℕ → V) : 0 ≤ (sweep m p d).2 :=
  (Vec.abs_nonneg _).trans ((sweep_spec m p d).2.2.1 0)

theorem sweep_le (m : ℕ) (p d : ℕ → V) (c : ℝ) (hc : 0 ≤ c)
    (h : ∀ i, 1 ≤ i → i < m → ((sweep m p d).1 i - d i).abs ≤ c) : (sweep m p d).2 ≤ c := by
  rcases (sweep_spec m p d).2.2.2 with h0 | ⟨i, a, b, e⟩
  · rw [h0]; exact hc
  · rw [e]; exact h i a b

theorem quarter_bound (u v : V) : ((u + v) * (0.25 : ℝ)).abs ≤ (u.abs + v.abs) / 4 := by
  rw [Vec.abs_mul, abs_of_pos (by norm_num)]
  have := Vec.abs_add_le u v
  linarith

/-- Two successive sweeps: the second changes the work points by at most a third. -/
theorem sweep_contracts (m : ℕ) (p d : ℕ → V) :
    (sweep m p (sweep m p d).1).2 ≤ (sweep m p d).2 / 3 := by
  obtain ⟨a1, a2, a3, -⟩ := sweep_spec m p d
  obtain ⟨b1, b2, -, -⟩ := sweep_spec m p (sweep m p d).1
  have hnn := sweep_nonneg m p d
  apply sweep_le _ _ _ _ (by positivity)
  have key : ∀ i, i < m → ((sweep m p (sweep m p d).1).1 i - (sweep m p d).1 i).abs ≤
      (sweep m p d).2 / 3 := by
    intro i
    induction i with
    | zero =>
      intro _
      rw [b1 0 (.inl rfl), (Vec.sub_eq_zero_iff _ _).2 rfl]; positivity
    | succ i ih =>
      intro hi
      rw [b2 (i + 1) (by omega) hi, a2 (i + 1) (by omega) hi]
      simp only [Nat.add_sub_cancel]
      have e : ((p (i + 1)) * (6 : ℝ) - (sweep m p (sweep m p d).1).1 i - (sweep m p d).1 (i + 1 + 1)) * (0.25 : ℝ)
          - ((p (i + 1)) * (6 : ℝ) - (sweep m p d).1 i - d (i + 1 + 1)) * (0.25 : ℝ)
          = (((sweep m p d).1 i - (sweep m p (sweep m p d).1).1 i) + (d (i + 1 + 1) - (sweep m p d).1 (i + 1 + 1)))
            * (0.25 : ℝ) := by
        ext <;> simp <;> ring
      rw [e]
      refine (quarter_bound _ _).trans ?_
      have h1 := ih (by omega)
      have h2 := a3 (i + 1 + 1)
      rw [Vec.abs_sub_comm] at h1 h2
      linarith
  intro i _ hi
  exact key i hi

/-- The first sweep moves each work point by at most the largest gap between neighbours. -/
theorem sweep_first (m : ℕ) (p : ℕ → V) (M : ℝ) (hM : ∀ i, i < m → (p (i + 1) - p i).abs ≤ M)
    (hM0 : 0 ≤ M) : (sweep m p p).2 ≤ M := by
  obtain ⟨a1, a2, -, -⟩ := sweep_spec m p p
  apply sweep_le _ _ _ _ hM0
  have key : ∀ i, i < m → ((sweep m p p).1 i - p i).abs ≤ M := by
    intro i
    induction i with
    | zero => intro _; rw [a1 0 (.inl rfl), (Vec.sub_eq_zero_iff _ _).2 rfl]; exact hM0
    | succ i ih =>
      intro hi
      rw [a2 (i + 1) (by omega) hi]
      simp only [Nat.add_sub_cancel]
      have e : ((p (i + 1)) * (6 : ℝ) - (sweep m p p).1 i - p (i + 1 + 1)) * (0.25 : ℝ) - p (i + 1)
          = (((p (i + 1) - p i) + (p i - (sweep m p p).1 i)) + (p (i + 1) - p (i + 1 + 1))) * (0.25 : ℝ) := by
        ext <;> simp <;> ring
      rw [e]
      refine (quarter_bound _ _).trans ?_
      have h0 := Vec.abs_add_le (p (i + 1) - p i) (p i - (sweep m p p).1 i)
      have h1 := ih (by omega)
      have h2 := hM i (by omega)
      have h3 := hM (i + 1) hi
      rw [Vec.abs_sub_comm] at h1 h3
      linarith
  intro i _ hi
  exact key i hi

/-- The defect of the smoothness equation at interior point `i`. -/
def defect (p d : ℕ → V) (i : ℕ) : V := d (i - 1) + d i * (4 : ℝ) + d (i + 1) - p i * (6 : ℝ)

theorem sweep_defect (m : ℕ) (p d : ℕ → V) (i : ℕ) (h1 : 1 ≤ i) (h2 : i < m) :
    (defect p (sweep m p d).1 i).abs ≤ (sweep m p d).2 := by
  obtain ⟨-, a2, a3, -⟩ := sweep_spec m p d
  have e : defect p (sweep m p d).1 i = (sweep m p d).1 (i + 1) - d (i + 1) := by
    unfold defect
    rw [a2 i h1 h2]
    ext <;> simp <;> ring
  rw [e]; exact a3 (i + 1)

theorem iterate_defect (m : ℕ) (p : ℕ → V) (tol : ℝ) (n : ℕ) : ∀ d i, 1 ≤ i → i < m →
    (defect p (iterate m p tol (n + 1) d) i).abs ≤ max tol ((sweep m p d).2 / 3 ^ n) := by
  induction n with
  | zero =>
    intro d i h1 h2
    have := sweep_defect m p d i h1 h2
    unfold iterate
    simp only [iterate, ite_self, pow_zero, div_one]
    exact this.trans (le_max_right _ _)
  | succ n ih =>
    intro d i h1 h2
    have hd := sweep_defect m p d i h1 h2
    rw [iterate]
    split_ifs with hc
    · exact hd.trans (hc.le.trans (le_max_left _ _))
    · refine (ih _ i h1 h2).trans (max_le_max le_rfl ?_)
      have := sweep_contracts m p d
      calc (sweep m p (sweep m p d).1).2 / 3 ^ n ≤ ((sweep m p d).2 / 3) / 3 ^ n := by gcongr
        _ = _ := by rw [pow_succ]; field_simp

theorem iterate_ends (m : ℕ) (p : ℕ → V) (tol : ℝ) (n : ℕ) : ∀ d i, (i = 0 ∨ m ≤ i) →
    iterate m p tol n d i = d i := by
  induction n with
  | zero => intros; rfl
  | succ n ih =>
    intro d i hi
    rw [iterate]
    split_ifs
    · exact (sweep_spec m p d).1 i hi
    · rw [ih _ i hi]; exact (sweep_spec m p d).1 i hi

/-- The cubic with given Bezier control points. -/
noncomputable def cubic (P0 P1 P2 P3 : E3) (t : ℝ) : E3 :=
  (1 - t) ^ 3 • P0 + (3 * t * (1 - t) ^ 2) • P1 + (3 * t ^ 2 * (1 - t)) • P2 + t ^ 3 • P3

theorem bezier_cubic (b0 b1 b2 b3 : V) (t : ℝ) :
    ∃ v, (Bezier [b0, b1, b2, b3]).call t = .ok v ∧ toE v = cubic (toE b0) (toE b1) (toE b2) (toE b3) t := by
  obtain ⟨v, h1, h2⟩ := (C07_bernstein [b0, b1, b2, b3]).1 (by simp) t
  refine ⟨v, h1, ?_⟩
  rw [h2]
  simp [bernsteinPoint, Finset.sum_range_succ, cubic, Nat.choose]

theorem cubic_deriv (P0 P1 P2 P3 : E3) (t : ℝ) :
    HasDerivAt (cubic P0 P1 P2 P3)
      ((-3 * (1 - t) ^ 2) • P0 + (3 * (1 - t) ^ 2 - 6 * t * (1 - t)) • P1
        + (6 * t * (1 - t) - 3 * t ^ 2) • P2 + (3 * t ^ 2) • P3) t := by
  have hid : HasDerivAt (fun t : ℝ => t) 1 t := hasDerivAt_id t
  have h1 : HasDerivAt (fun t : ℝ => 1 - t) (-1) t := by simpa using hid.const_sub 1
  have a0 : HasDerivAt (fun t : ℝ => (1 - t) ^ 3) (-3 * (1 - t) ^ 2) t := 
    (h1.fun_pow 3).congr_deriv (by push_cast; norm_num; try ring)
  have a1 : HasDerivAt (fun t : ℝ => 3 * t * (1 - t) ^ 2) (3 * (1 - t) ^ 2 - 6 * t * (1 - t)) t := 
    ((hid.const_mul 3).fun_mul (h1.fun_pow 2)).congr_deriv (by push_cast; norm_num; try ring)
  have a2 : HasDerivAt (fun t : ℝ => 3 * t ^ 2 * (1 - t)) (6 * t * (1 - t) - 3 * t ^ 2) t := 
    (((hid.fun_pow 2).const_mul 3).fun_mul h1).congr_deriv (by push_cast; norm_num; try ring)
  have a3 : HasDerivAt (fun t : ℝ => t ^ 3) (3 * t ^ 2) t := 
    (hid.fun_pow 3).congr_deriv (by push_cast; norm_num; try ring)
  exact (((a0.smul_const P0).add (a1.smul_const P1)).add (a2.smul_const P2)).add (a3.smul_const P3)

theorem cubic_deriv2 (P0 P1 P2 P3 : E3) (t : ℝ) :
    HasDerivAt (deriv (cubic P0 P1 P2 P3))
      ((6 * (1 - t)) • P0 + (18 * t - 12) • P1 + (6 - 18 * t) • P2 + (6 * t) • P3) t := by
  have e : deriv (cubic P0 P1 P2 P3) = fun t => (-3 * (1 - t) ^ 2) • P0
      + (3 * (1 - t) ^ 2 - 6 * t * (1 - t)) • P1
      + (6 * t * (1 - t) - 3 * t ^ 2) • P2 + (3 * t ^ 2) • P3 := by
    funext t; exact (cubic_deriv P0 P1 P2 P3 t).deriv
  rw [e]
  have hid : HasDerivAt (fun t : ℝ => t) 1 t := hasDerivAt_id t
  have h1 : HasDerivAt (fun t : ℝ => 1 - t) (-1) t := by simpa using hid.const_sub 1
  have a0 : HasDerivAt (fun t : ℝ => -3 * (1 - t) ^ 2) (6 * (1 - t)) t := 
    ((h1.fun_pow 2).const_mul (-3)).congr_deriv (by push_cast; norm_num; try ring)
  have a1 : HasDerivAt (fun t : ℝ => 3 * (1 - t) ^ 2 - 6 * t * (1 - t)) (18 * t - 12) t := 
    (((h1.fun_pow 2).const_mul 3).fun_sub ((hid.const_mul 6).fun_mul h1)).congr_deriv (by push_cast; norm_num; try ring)
  have a2 : HasDerivAt (fun t : ℝ => 6 * t * (1 - t) - 3 * t ^ 2) (6 - 18 * t) t := 
    (((hid.const_mul 6).fun_mul h1).fun_sub ((hid.fun_pow 2).const_mul 3)).congr_deriv (by push_cast; norm_num; try ring)
  have a3 : HasDerivAt (fun t : ℝ => 3 * t ^ 2) (6 * t) t := 
    ((hid.fun_pow 2).const_mul 3).congr_deriv (by push_cast; norm_num; try ring)
  exact (((a0.smul_const P0).add (a1.smul_const P1)).add (a2.smul_const P2)).add (a3.smul_const P3)

end Spline

/-- A spline through points (not closed): the segments of the resulting polyline. -/
theorem Spline.segs_eq (pts : List V) (tol : ℝ) (st : Polyline.State)
    (h : Spline pts false tol = .ok st) :
    st.segs = (List.range (pts.length - 1)).map fun i => Bezier (Spline.control
      (fun i => pts.getD i ⟨0, 0, 0⟩)
      (Spline.iterate (pts.length - 1) (fun i => pts.getD i ⟨0, 0, 0⟩) tol 50
        fun i => pts.getD i ⟨0, 0, 0⟩) i) := by
  simp only [Spline, Spline.controls, Spline.points, Bool.false_eq_true, if_false, bind, Except.bind,
    pure, Except.pure, Polyline.init] at h
  split at h
  · simp at h
  · simp only [Except.ok.injEq] at h
    rw [← h]
    simp

/-- C12: a spline through at least two points with consecutive points distinct is constructed, and at
the `i`-th break point it takes the `i`-th point; break points increase strictly from 0 to 1. -/
theorem C12_interpolates (pts : List V) (tol : ℝ) (hn : 2 ≤ pts.length)
    (hd : ∀ i (h : i + 1 < pts.length), pts[i] ≠ pts[i + 1]) :
    ∃ st, Spline pts false tol = .ok st ∧ st.tvals.length = pts.length ∧
      st.tvals.head? = some 0 ∧ st.tvals.getLast? = some 1 ∧ st.tvals.Pairwise (· < ·) ∧
      ∀ i (h : i < pts.length) (h' : i < st.tvals.length),
        (Polyline.obj st).call st.tvals[i] = .ok pts[i] := by
  set p : ℕ → V := fun i => pts.getD i ⟨0, 0, 0⟩ with hp
  set m := pts.length - 1 with hm
  set d := Spline.iterate m p tol 50 p with hdd
  set segs := (List.range m).map fun i => Bezier (Spline.control p d i) with hsegs
  have hpi : ∀ i (h : i < pts.length), p i = pts[i] := fun i h => by
    simp [hp, List.getD_eq_getElem?_getD, h]
  have hslen : segs.length = m := by simp [hsegs]
  have hne : segs ≠ [] := by rw [← List.length_pos_iff, hslen]; omega
  -- every segment evaluates
  have hcall : ∀ s ∈ segs, ∀ t, ∃ v, s.call t = .ok v := by
    intro s hs t
    obtain ⟨i, _, rfl⟩ := List.mem_map.1 hs
    obtain ⟨v, hv, -⟩ := Spline.bezier_cubic (p i) _ _ (p (i + 1)) t
    exact ⟨v, hv⟩
  -- every segment has positive sampled length
  let len : PathObj → ℝ := fun s => match s.length with | .ok l => l | .error _ => 0
  have hlen : ∀ s ∈ segs, s.length = .ok (len s) ∧ 0 < len s := by
    intro s hs
    have htot := hcall s hs
    obtain ⟨i, hi, rfl⟩ := List.mem_map.1 hs
    have hi' : i < m := by simpa using hi
    choose γ hγ using htot
    obtain ⟨L, hL, hge, -⟩ := C16_length _ γ hγ 20 (by norm_num)
    have hL' : (Bezier (Spline.control p d i)).length = .ok L := hL
    have e0 := (C07_bernstein (Spline.control p d i)).2.1 (p i) (by simp [Spline.control])
    have e1 := (C07_bernstein (Spline.control p d i)).2.2.1 (p (i + 1)) (by simp [Spline.control])
    rw [hγ 0] at e0; rw [hγ 1] at e1
    simp only [Except.ok.injEq] at e0 e1
    rw [e0, e1, hpi i (by omega), hpi (i + 1) (by omega)] at hge
    have hpos : 0 < vdist pts[i] pts[i + 1] := by
      apply dist_pos.2
      intro h
      exact hd i (by omega) (Vec.toE_injective h)
    simp only [len, hL']
    exact ⟨trivial, by linarith⟩
  refine ⟨⟨segs, (List.range (segs.length + 1)).map (bp len segs)⟩, ?_, ?_, ?_, ?_, ?_, ?_⟩
  · have := Polyline.init_open len segs hne hlen tol
    rw [← this]
    simp [Spline, Spline.controls, Spline.points, bind, Except.bind, pure, Except.pure, hsegs, hdd,
      hp, hm, Function.comp_def]
  · simp [hslen]; omega
  · rw [List.head?_eq_getElem?]; simp [Polyline.bp_zero]
  · have := Polyline.bp_last len segs hne fun s hs => (hlen s hs).2
    rw [List.getLast?_eq_getElem?]; simp [this]
  · rw [List.pairwise_map]
    refine List.Pairwise.imp_of_mem ?_ List.pairwise_lt_range
    intro a b _ hb hab
    exact Polyline.bp_lt len segs (fun s hs => (hlen s hs).2) hab (by simp at hb; omega)
  · intro i h h'
    simp only [List.length_map, List.length_range] at h'
    simp only [List.getElem_map, List.getElem_range, Polyline.obj]
    rcases Nat.eq_zero_or_pos i with rfl | hi0
    · -- start point
      have h00 : 0 < segs.length := by omega
      have hb := Polyline.bp_succ len segs (fun s hs => (hlen s hs).2) 0 h00
      have ha : Active len segs (bp len segs 0) 0 := ⟨h00, .inl rfl, .inr hb.le⟩
      rw [Polyline.call_active len segs hlen hcall _ 0 ha]
      simp only [Polyline.loc, sub_self, zero_div, hsegs, List.getElem_map, List.getElem_range]
      rw [(C07_bernstein (Spline.control p d 0)).2.1 (p 0) (by simp [Spline.control]), hpi 0 h]
    · have hj : i - 1 < segs.length := by omega
      have hb := Polyline.bp_succ len segs (fun s hs => (hlen s hs).2) (i - 1) hj
      have e : i - 1 + 1 = i := by omega
      rw [e] at hb
      have ha : Active len segs (bp len segs i) (i - 1) :=
        ⟨hj, .inr hb, .inr (by rw [e])⟩
      rw [Polyline.call_active len segs hlen hcall _ (i - 1) ha]
      have e1 : Polyline.loc len segs (i - 1) (bp len segs i) = 1 := by
        unfold Polyline.loc; rw [e]; exact div_self (by linarith)
      rw [e1]
      simp only [hsegs, List.getElem_map, List.getElem_range]
      rw [(C07_bernstein (Spline.control p d (i - 1))).2.2.1 (p i) (by simp [Spline.control, e]), hpi i h]

/-- C12: smoothness.  At every interior point the adjacent segments meet, their second derivatives
agree exactly, and their first derivatives differ by at most the tolerance or `M / 3^49`, where `M`
bounds the distance of consecutive points (the sweeps contract by 3; at most 50 are made). -/
theorem C12_smooth (pts : List V) (tol M : ℝ) (hM : ∀ i (h : i + 1 < pts.length), vdist pts[i] pts[i + 1] ≤ M)
    (st : Polyline.State) (hst : Spline pts false tol = .ok st) (i : ℕ) (hi1 : 1 ≤ i)
    (hi2 : i + 1 < pts.length) :
    ∃ (hs : i < st.segs.length) (f g : ℝ → E3),
      (∀ t, ∃ v, st.segs[i - 1].call t = .ok v ∧ toE v = f t) ∧
      (∀ t, ∃ v, st.segs[i].call t = .ok v ∧ toE v = g t) ∧
      f 1 = toE pts[i] ∧ g 0 = toE pts[i] ∧
      DifferentiableAt ℝ f 1 ∧ DifferentiableAt ℝ g 0 ∧
      ‖deriv g 0 - deriv f 1‖ ≤ max tol (M / 3 ^ 49) ∧
      DifferentiableAt ℝ (deriv f) 1 ∧ DifferentiableAt ℝ (deriv g) 0 ∧
      deriv (deriv f) 1 = deriv (deriv g) 0 := by
  have hsegs := Spline.segs_eq pts tol st hst
  set p : ℕ → V := fun i => pts.getD i ⟨0, 0, 0⟩ with hp
  set m := pts.length - 1 with hm
  set d := Spline.iterate m p tol 50 p with hdd
  have hpi : ∀ i (h : i < pts.length), p i = pts[i] := fun i h => by
    simp [hp, List.getD_eq_getElem?_getD, h]
  have him : i < m := by omega
  have hM0 : 0 ≤ M := le_trans dist_nonneg (hM 0 (by omega))
  refine ⟨by rw [hsegs]; simpa using him, ?_⟩
  have e : i - 1 + 1 = i := by omega
  have hf := Spline.cubic_deriv (toE (p (i - 1))) (toE ((d (i - 1) * (2 : ℝ) + d (i - 1 + 1)) * (1 / 3 : ℝ)))
    (toE ((d (i - 1) + d (i - 1 + 1) * (2 : ℝ)) * (1 / 3 : ℝ))) (toE (p (i - 1 + 1))) 1
  have hg := Spline.cubic_deriv (toE (p i)) (toE ((d i * (2 : ℝ) + d (i + 1)) * (1 / 3 : ℝ)))
    (toE ((d i + d (i + 1) * (2 : ℝ)) * (1 / 3 : ℝ))) (toE (p (i + 1))) 0
  have hf2 := Spline.cubic_deriv2 (toE (p (i - 1))) (toE ((d (i - 1) * (2 : ℝ) + d (i - 1 + 1)) * (1 / 3 : ℝ)))
    (toE ((d (i - 1) + d (i - 1 + 1) * (2 : ℝ)) * (1 / 3 : ℝ))) (toE (p (i - 1 + 1))) 1
  have hg2 := Spline.cubic_deriv2 (toE (p i)) (toE ((d i * (2 : ℝ) + d (i + 1)) * (1 / 3 : ℝ)))
    (toE ((d i + d (i + 1) * (2 : ℝ)) * (1 / 3 : ℝ))) (toE (p (i + 1))) 0
  refine ⟨Spline.cubic (toE (p (i - 1))) (toE ((d (i - 1) * (2 : ℝ) + d (i - 1 + 1)) * (1 / 3 : ℝ)))
      (toE ((d (i - 1) + d (i - 1 + 1) * (2 : ℝ)) * (1 / 3 : ℝ))) (toE (p (i - 1 + 1))),
    Spline.cubic (toE (p i)) (toE ((d i * (2 : ℝ) + d (i + 1)) * (1 / 3 : ℝ)))
      (toE ((d i + d (i + 1) * (2 : ℝ)) * (1 / 3 : ℝ))) (toE (p (i + 1))), ?_, ?_,
    ?_, ?_, hf.differentiableAt, hg.differentiableAt, ?_, hf2.differentiableAt,
    hg2.differentiableAt, ?_⟩
  · intro t
    simp only [hsegs, List.getElem_map, List.getElem_range]
    exact Spline.bezier_cubic _ _ _ _ t
  · intro t
    simp only [hsegs, List.getElem_map, List.getElem_range]
    exact Spline.bezier_cubic _ _ _ _ t
  · simp only [Spline.cubic, e]; rw [hpi i (by omega)]; simp
  · simp only [Spline.cubic]; rw [hpi i (by omega)]; simp
  · rw [hf.deriv, hg.deriv]
    have hdef := Spline.iterate_defect m p tol 49 p i hi1 him
    have hfirst := Spline.sweep_first m p M (by
      intro j hj
      rw [Vec.abs_sub_comm, Vec.abs_sub_eq_vdist, hpi j (by omega), hpi (j + 1) (by omega)]
      exact hM j (by omega)) hM0
    have hb : (Spline.defect p d i).abs ≤ max tol (M / 3 ^ 49) := by
      refine hdef.trans (max_le_max le_rfl ?_)
      gcongr
    rw [Vec.abs_eq_norm] at hb
    refine le_of_eq_of_le ?_ hb
    congr 1
    rw [e]
    unfold Spline.defect
    simp only [Vec.toE_sub, Vec.toE_add, Vec.toE_mul]
    module
  · rw [hf2.deriv, hg2.deriv, e]
    simp only [Vec.toE_add, Vec.toE_mul]
    module

/-- C12: a closed spline closes: its last point is its first one if the given end points are further
apart than the tolerance, and otherwise within the tolerance of it. -/
theorem C12_closed (pts : List V) (tol : ℝ) (htol : 0 ≤ tol) (hn : 2 ≤ pts.length)
    (hd : ∀ i (h : i + 1 < pts.length), pts[i] ≠ pts[i + 1]) :
    ∃ st a b, Spline pts true tol = .ok st ∧ (Polyline.obj st).call 0 = .ok a ∧
      (Polyline.obj st).call 1 = .ok b ∧ pts.head? = some a ∧ vdist b a ≤ tol := by
  have hne : pts ≠ [] := by rintro rfl; simp at hn
  -- reduction to the open spline of the closed point list
  have main : ∀ (qs : List V), 2 ≤ qs.length → (∀ i (h : i + 1 < qs.length), qs[i] ≠ qs[i + 1]) →
      ∀ a b, qs.head? = some a → qs.getLast? = some b → vdist b a ≤ tol →
      Spline.points pts true tol = .ok qs →
      ∃ st, Spline pts true tol = .ok st ∧ (Polyline.obj st).call 0 = .ok a ∧
        (Polyline.obj st).call 1 = .ok b := by
    intro qs hq hqd a b ha hb hba hpts
    obtain ⟨st, hst, hl, h0, h1, -, hv⟩ := C12_interpolates qs tol hq hqd
    have hqne : qs ≠ [] := by rintro rfl; simp at hq
    have c0 : (Polyline.obj st).call 0 = .ok a := by
      have := hv 0 (by omega) (by omega)
      rw [List.head?_eq_getElem?, List.getElem?_eq_getElem (by omega)] at h0 ha
      simp only [Option.some.injEq] at h0 ha
      rwa [h0, ha] at this
    have c1 : (Polyline.obj st).call 1 = .ok b := by
      have := hv (qs.length - 1) (by omega) (by omega)
      rw [List.getLast?_eq_getElem?, List.getElem?_eq_getElem (by omega)] at h1 hb
      simp only [Option.some.injEq, hl] at h1 hb
      rwa [h1, hb] at this
    refine ⟨st, ?_, c0, c1⟩
    -- the closed polyline constructor does not append a segment
    have hsegs := Spline.segs_eq qs tol st hst
    unfold Spline Spline.controls at hst ⊢
    simp only [Spline.points, Bool.false_eq_true, if_false, bind, Except.bind, pure, Except.pure] at hst hpts ⊢
    simp only [if_true] at hpts ⊢
    rw [hpts]
    simp only at hst ⊢
    set segs := List.map Bezier (List.map (Spline.control (fun i => qs.getD i ⟨0, 0, 0⟩)
      (Spline.iterate (qs.length - 1) (fun i => qs.getD i ⟨0, 0, 0⟩) tol 50
        fun i => qs.getD i ⟨0, 0, 0⟩)) (List.range (qs.length - 1))) with hsg
    have hsl : segs.length = qs.length - 1 := by simp [hsg]
    have e0 : segs.head? = some segs[0] := by
      rw [List.head?_eq_getElem?, List.getElem?_eq_getElem (by omega)]
    have e1 : segs.getLast? = some (segs[segs.length - 1]'(by omega)) := by
      rw [List.getLast?_eq_getElem?, List.getElem?_eq_getElem (by omega)]
    have q0 : segs[0].call 0 = .ok a := by
      simp only [hsg, List.getElem_map, List.getElem_range]
      refine (C07_bernstein _).2.1 a ?_
      rw [List.head?_eq_getElem?, List.getElem?_eq_getElem (by omega)] at ha
      simp only [Option.some.injEq] at ha
      simp [Spline.control, List.getD_eq_getElem?_getD, show 0 < qs.length by omega, ha]
    have q1 : (segs[segs.length - 1]'(by omega)).call 1 = .ok b := by
      simp only [hsg, List.getElem_map, List.getElem_range, List.length_map, List.length_range]
      refine (C07_bernstein _).2.2.1 b ?_
      rw [List.getLast?_eq_getElem?, List.getElem?_eq_getElem (by omega)] at hb
      simp only [Option.some.injEq] at hb
      have e : qs.length - 1 - 1 + 1 = qs.length - 1 := by omega
      simp [Spline.control, List.getD_eq_getElem?_getD, e, show qs.length - 1 < qs.length by omega, hb]
    unfold Polyline.init at hst ⊢
    simp only [e0, e1, q0, q1, Bool.false_eq_true, if_false, if_true, bind, Except.bind, pure,
      Except.pure, Vec.abs_sub_eq_vdist, gt_iff_lt, not_lt.2 hba] at hst ⊢
    exact hst
  have ea : pts.head? = some (pts.head hne) := List.head?_eq_some_head hne
  have eb : pts.getLast? = some (pts.getLast hne) := List.getLast?_eq_some_getLast hne
  by_cases hc : tol < vdist (pts.head hne) (pts.getLast hne)
  · have hpts : Spline.points pts true tol = .ok (pts ++ [pts.head hne]) := by
      simp [Spline.points, ea, eb, Vec.abs_sub_eq_vdist, hc]
    have haa : vdist (pts.head hne) (pts.head hne) ≤ tol := by simpa [vdist] using htol
    obtain ⟨st, h1, h2, h3⟩ := main (pts ++ [pts.head hne]) (by simp; omega) (by
      intro i hi
      simp only [List.length_append, List.length_singleton] at hi
      by_cases hlt : i + 1 < pts.length
      · rw [List.getElem_append_left (by omega), List.getElem_append_left hlt]; exact hd i hlt
      · have : i + 1 = pts.length := by omega
        rw [List.getElem_append_left (by omega), List.getElem_append_right (by omega)]
        intro hcon
        have e : pts[i]'(by omega) = pts.getLast hne := by
          rw [List.getLast_eq_getElem]; congr 1; omega
        rw [e] at hcon
        simp at hcon
        rw [hcon] at hc
        simp [vdist] at hc
        linarith) (pts.head hne) (pts.head hne) (by rw [List.head?_append_of_ne_nil _ hne, ea]) (by simp) haa hpts
    exact ⟨st, _, _, h1, h2, h3, ea, haa⟩
  · have hpts : Spline.points pts true tol = .ok pts := by
      simp [Spline.points, ea, eb, Vec.abs_sub_eq_vdist, hc]
    have hba : vdist (pts.getLast hne) (pts.head hne) ≤ tol := by
      have : vdist (pts.getLast hne) (pts.head hne) = vdist (pts.head hne) (pts.getLast hne) :=
        dist_comm _ _
      rw [this]; exact not_lt.1 hc
    obtain ⟨st, h1, h2, h3⟩ := main pts hn hd _ _ ea eb hba hpts
    exact ⟨st, _, _, h1, h2, h3, ea, hba⟩

/-- Three points meet the hypotheses. -/
example : ∀ i (h : i + 1 < [(⟨0, 0, 0⟩ : V), ⟨1, 1, 0⟩, ⟨2, 0, 0⟩].length),
    [(⟨0, 0, 0⟩ : V), ⟨1, 1, 0⟩, ⟨2, 0, 0⟩][i] ≠ [(⟨0, 0, 0⟩ : V), ⟨1, 1, 0⟩, ⟨2, 0, 0⟩][i + 1] := by
  intro i h
  simp at h
  match i, h with
  | 0, _ => simp
  | 1, _ => simp

end HV
