import Verif.Model.Geometry
import Verif.Lemmas.Vec
import Mathlib.Topology.EMetricSpace.BoundedVariation
import Mathlib.Algebra.BigOperators.Intervals

/-!
# Properties C16, C17: default path length, sub-ranged paths
-/

namespace HV

open Spec

/-! ## C16 -/

/-- The length of the polygon inscribed in a curve at the parameters `i/n`. -/
noncomputable def polygonLength (γ : ℝ → E3) (n : ℕ) : ℝ :=
  ∑ i ∈ Finset.range n, dist (γ ((i : ℝ) / n)) (γ (((i : ℝ) + 1) / n))

/-- The sampling loop computes the partial sums of the inscribed polygon. -/
theorem Path.length_loop (call : ℝ → Res V) (γ : ℝ → V) (dt : ℝ) (k : ℕ)
    (h : ∀ i ≤ k, call ((i : ℝ) * dt) = .ok (γ ((i : ℝ) * dt))) :
    (List.range k).foldlM (Path.lengthStep call dt) (0, γ 0) =
      .ok (∑ i ∈ Finset.range k, (γ (((i : ℝ) + 1) * dt) - γ ((i : ℝ) * dt)).abs, γ ((k : ℝ) * dt)) := by
  induction k with
  | zero => simp; rfl
  | succ k ih =>
    rw [List.range_succ, List.foldlM_append, ih fun i hi => h i (by omega)]
    have hk := h (k + 1) le_rfl
    push_cast at hk
    simp only [List.foldlM_cons, List.foldlM_nil, Path.lengthStep, bind, Except.bind, pure, Except.pure,
      hk, Finset.sum_range_succ]
    push_cast
    rfl

/-- C16: on a path that evaluates everywhere, `length(n)` is the length of the inscribed polygon. -/
theorem Path.length_eq (call : ℝ → Res V) (γ : ℝ → V) (n : ℕ) (hn : 1 ≤ n)
    (h : ∀ t, call t = .ok (γ t)) :
    Path.length call n = .ok (polygonLength (fun t => toE (γ t)) n) := by
  have hn0 : (n : ℝ) ≠ 0 := by positivity
  unfold Path.length
  have hl := Path.length_loop call γ (1 / n) n fun i _ => h _
  simp only [h, pdiv, hn0, if_false, bind, Except.bind, hl, pure, Except.pure]
  unfold polygonLength
  congr 1
  refine Finset.sum_congr rfl fun i _ => ?_
  rw [Vec.abs_sub_comm, Vec.abs_sub_eq_vdist]
  unfold vdist
  congr 3 <;> ring

theorem sum_blocks (k : ℕ) (f : ℕ → ℝ) (n : ℕ) :
    ∑ i ∈ Finset.range n, ∑ j ∈ Finset.Ico (i * k) ((i + 1) * k), f j = ∑ j ∈ Finset.range (n * k), f j := by
  induction n with
  | zero => simp
  | succ n ih =>
    rw [Finset.sum_range_succ, ih, Finset.range_eq_Ico, Finset.range_eq_Ico,
      Finset.sum_Ico_consecutive _ (by omega) (Nat.mul_le_mul_right k (by omega))]

/-- Refining the subdivision does not shorten the polygon. -/
theorem polygonLength_mul (γ : ℝ → E3) (n k : ℕ) (hk : 1 ≤ k) :
    polygonLength γ n ≤ polygonLength γ (n * k) := by
  have hk0 : (k : ℝ) ≠ 0 := by positivity
  let a : ℕ → E3 := fun j => γ ((j : ℝ) / ((n * k : ℕ) : ℝ))
  have step : ∀ i : ℕ, dist (γ ((i : ℝ) / n)) (γ (((i : ℝ) + 1) / n)) ≤
      ∑ j ∈ Finset.Ico (i * k) ((i + 1) * k), dist (a j) (a (j + 1)) := by
    intro i
    have h1 : a (i * k) = γ ((i : ℝ) / n) := by
      simp only [a]; congr 1; push_cast
      rw [mul_div_mul_right _ _ hk0]
    have h2 : a ((i + 1) * k) = γ (((i : ℝ) + 1) / n) := by
      simp only [a]; congr 1; push_cast
      rw [mul_div_mul_right _ _ hk0]
    rw [← h1, ← h2]
    exact dist_le_Ico_sum_dist a (Nat.mul_le_mul_right k (by omega))
  calc polygonLength γ n
      ≤ ∑ i ∈ Finset.range n, ∑ j ∈ Finset.Ico (i * k) ((i + 1) * k), dist (a j) (a (j + 1)) :=
        Finset.sum_le_sum fun i _ => step i
    _ = ∑ j ∈ Finset.range (n * k), dist (a j) (a (j + 1)) := sum_blocks k _ n
    _ = polygonLength γ (n * k) := by
        unfold polygonLength
        refine Finset.sum_congr rfl fun j _ => ?_
        simp only [a]; push_cast; rfl

/-- C16: `length(n)` of a path that evaluates everywhere is a number that is at least the distance of
the end points, at most the true length (total variation) of the curve, does not decrease under
subdivision, and is invariant under isometries; `length(0)` raises. -/
theorem C16_length (call : ℝ → Res V) (γ : ℝ → V) (h : ∀ t, call t = .ok (γ t)) (n : ℕ) (hn : 1 ≤ n) :
    ∃ L, Path.length call n = .ok L ∧
      vdist (γ 0) (γ 1) ≤ L ∧
      ENNReal.ofReal L ≤ eVariationOn (fun t => toE (γ t)) (Set.Icc 0 1) ∧
      (∀ k, 1 ≤ k → ∃ L', Path.length call (n * k) = .ok L' ∧ L ≤ L') ∧
      (∀ (f : E3 → E3) (call' : ℝ → Res V) (γ' : ℝ → V), Isometry f →
        (∀ t, call' t = .ok (γ' t)) → (∀ t, toE (γ' t) = f (toE (γ t))) →
        Path.length call' n = .ok L) ∧
      Path.length call 0 = .error .zeroDiv := by
  have hn0 : (n : ℝ) ≠ 0 := by positivity
  refine ⟨_, Path.length_eq call γ n hn h, ?_, ?_, ?_, ?_, ?_⟩
  · have := dist_le_Ico_sum_dist (fun j : ℕ => toE (γ ((j : ℝ) / n))) (Nat.zero_le n)
    simp only [Nat.cast_zero, zero_div, div_self hn0, ← Finset.range_eq_Ico] at this
    unfold polygonLength vdist
    push_cast at this
    exact this
  · unfold polygonLength
    rw [ENNReal.ofReal_sum_of_nonneg fun _ _ => dist_nonneg]
    have := eVariationOn.sum_le (f := fun t => toE (γ t)) (s := Set.Icc 0 1) (n := n)
      (u := fun i : ℕ => min 1 ((i : ℝ) / n))
      (by
        intro i j hij
        refine min_le_min le_rfl ?_
        gcongr)
      (fun i => ⟨le_min zero_le_one (by positivity), min_le_left _ _⟩)
    refine le_trans (Finset.sum_le_sum fun i hi => ?_) this
    have hi' := Finset.mem_range.1 hi
    have e1 : min 1 ((i : ℝ) / n) = (i : ℝ) / n := by
      apply min_eq_right
      rw [div_le_one (by positivity)]; exact_mod_cast hi'.le
    have e2 : min 1 (((i + 1 : ℕ) : ℝ) / n) = ((i : ℝ) + 1) / n := by
      push_cast
      apply min_eq_right
      rw [div_le_one (by positivity)]; exact_mod_cast hi'
    rw [e1, e2, edist_comm, ← edist_dist]
  · intro k hk
    exact ⟨_, Path.length_eq call γ _ (Nat.mul_pos hn hk) h, polygonLength_mul _ n k hk⟩
  · intro f call' γ' hf h' hff
    rw [Path.length_eq call' γ' n hn h']
    congr 1
    unfold polygonLength
    refine Finset.sum_congr rfl fun i _ => ?_
    simp only [hff]
    exact hf.dist_eq _ _
  · simp [Path.length, h, pdiv, bind, Except.bind]

/-- C16: the sampled length is exact for straight lines, whatever the number of samples. -/
theorem C16_line_exact (p0 p1 : V) (n : ℕ) (hn : 1 ≤ n) :
    Path.length (Line p0 p1).call n = .ok (vdist p0 p1) := by
  have hn0 : (n : ℝ) ≠ 0 := by positivity
  rw [Path.length_eq (Line p0 p1).call (lineAt p0 p1) n hn fun _ => rfl]
  congr 1
  unfold polygonLength
  have : ∀ i ∈ Finset.range n, dist (toE (lineAt p0 p1 ((i : ℝ) / n)))
      (toE (lineAt p0 p1 (((i : ℝ) + 1) / n))) = (1 / n) * vdist p0 p1 := by
    intro i _
    have e : lineAt p0 p1 ((i : ℝ) / n) - lineAt p0 p1 (((i : ℝ) + 1) / n) = (p0 - p1) * ((1 : ℝ) / (n : ℝ)) := by
      unfold lineAt; ext <;> simp <;> field_simp <;> ring
    change vdist _ _ = _
    rw [← Vec.abs_sub_eq_vdist, e, Vec.abs_mul, abs_of_nonneg (by positivity), Vec.abs_sub_eq_vdist]
  rw [Finset.sum_congr rfl this, Finset.sum_const, Finset.card_range, nsmul_eq_mul]
  field_simp

/-- The hypotheses of `C16_length` hold for a curved path. -/
example : ∃ γ : ℝ → V, ∀ t, (fun t => (.ok ⟨t, t ^ 2, 0⟩ : Res V)) t = .ok (γ t) :=
  ⟨fun t => ⟨t, t ^ 2, 0⟩, fun _ => rfl⟩

/-! ## C17 -/

/-- C17: end points, composition and reversal of sub-ranged paths.  The part about `length()` fails,
see `C17_length_violated`. -/
theorem C17_subrange_partial (p : PathObj) (t0 t1 u0 u1 t : ℝ) :
    (SubRangedPath p t0 t1).call 0 = p.call t0 ∧
    (SubRangedPath p t0 t1).call 1 = p.call t1 ∧
    (SubRangedPath (SubRangedPath p t0 t1) u0 u1).call t =
      (SubRangedPath p (t0 + u0 * (t1 - t0)) (t0 + u1 * (t1 - t0))).call t ∧
    (SubRangedPath p 0 1).call t = p.call t ∧
    (ReversedPath p).call t = p.call (1 - t) ∧
    (ReversedPath (ReversedPath p)).call t = p.call t ∧
    (ReversedPath p).length = p.length := by
  refine ⟨?_, ?_, ?_, ?_, ?_, ?_, rfl⟩ <;>
    simp only [SubRangedPath, ReversedPath] <;> congr 1 <;> ring

/-- C17: the length of a sub-range of a line is that of the whole line instead of the part covered. -/
theorem C17_length_violated :
    ¬ ∀ (p0 p1 : V) (t0 t1 : ℝ), 0 ≤ t0 → t0 ≤ t1 → t1 ≤ 1 →
      (SubRangedPath (Line p0 p1) t0 t1).length =
        Path.length (SubRangedPath (Line p0 p1) t0 t1).call := by
  intro h
  have h1 := h ⟨0, 0, 0⟩ ⟨1, 0, 0⟩ 0 0 le_rfl le_rfl zero_le_one
  have h2 : Path.length (SubRangedPath (Line ⟨0, 0, 0⟩ ⟨1, 0, 0⟩) 0 0).call = .ok 0 := by
    have h3 : (SubRangedPath (Line ⟨0, 0, 0⟩ ⟨1, 0, 0⟩) 0 0).call =
        (Line ⟨0, 0, 0⟩ ⟨0, 0, 0⟩).call := by
      funext t; simp only [SubRangedPath, Line]; congr 1; unfold lineAt; ext <;> simp
    rw [h3, C16_line_exact _ _ _ (by norm_num)]
    simp [vdist]
  rw [h2] at h1
  simp [SubRangedPath, Line, Vec.abs] at h1

example : (ReversedPath (Line ⟨0, 0, 0⟩ ⟨1, 0, 0⟩)).call 0 = .ok ⟨1, 0, 0⟩ := by
  rw [(C17_subrange_partial _ 0 0 0 0 0).2.2.2.2.1]
  simp only [Line, lineAt]; congr 1; ext <;> simp

end HV
