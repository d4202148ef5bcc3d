import Verif.Model.Path
import Verif.Lemmas.Vec
import Mathlib.Analysis.Convex.Combination
import Mathlib.Data.Nat.Choose.Sum

/-!
# Properties C06–C08: lines and Bezier curves
-/

namespace HV

open Spec

/-! ## C06 -/

/-- C06: a line is the affine map from `p0` at `0` to `p1` at `1`, parameterised proportionally to
distance, its `length()` is the distance of its end points. -/
theorem C06_line (p0 p1 : V) :
    (∀ t, ∃ q, (Line p0 p1).call t = .ok q ∧ toE q = AffineMap.lineMap (toE p0) (toE p1) t) ∧
    (Line p0 p1).call 0 = .ok p0 ∧ (Line p0 p1).call 1 = .ok p1 ∧
    (Line p0 p1).length = .ok (vdist p0 p1) ∧
    (∀ t u q q', (Line p0 p1).call t = .ok q → (Line p0 p1).call u = .ok q' →
      vdist q q' = |t - u| * vdist p0 p1) := by
  refine ⟨?_, ?_, ?_, ?_, ?_⟩
  · intro t
    refine ⟨_, rfl, ?_⟩
    simp only [lineAt, Vec.toE_add, Vec.toE_mul, AffineMap.lineMap_apply_module]
  · simp only [Line, lineAt]; congr 1; ext <;> simp
  · simp only [Line, lineAt]; congr 1; ext <;> simp
  · simp only [Line]; congr 1
    rw [Vec.abs_sub_eq_vdist]; exact dist_comm _ _
  · intro t u q q' h1 h2
    simp only [Line, Except.ok.injEq] at h1 h2
    subst h1 h2
    rw [← Vec.abs_sub_eq_vdist, ← Vec.abs_sub_eq_vdist]
    have : lineAt p0 p1 t - lineAt p0 p1 u = (p0 - p1) * (u - t) := by
      unfold lineAt; ext <;> simp <;> ring
    rw [this, Vec.abs_mul, abs_sub_comm]

/-- C06: `line + offset` is the pointwise translate; the original line is a value and keeps its own
points. -/
theorem C06_line_add (p0 p1 offset : V) (t : ℝ) :
    ∃ q q', (Line p0 p1).call t = .ok q ∧ (Line.add p0 p1 offset).call t = .ok q' ∧
      toE q' = toE q + toE offset := by
  refine ⟨_, _, rfl, rfl, ?_⟩
  rw [← Vec.toE_add]; congr 1
  unfold lineAt; ext <;> simp <;> ring

example : (Line ⟨0, 0, 0⟩ ⟨2, 0, 0⟩).call (1 / 2) = .ok ⟨1, 0, 0⟩ := by
  simp only [Line, lineAt]; congr 1; ext <;> simp

/-! ## C07 -/

/-- The Bernstein combination `∑ C(n,i) t^i (1-t)^(n-i) B_i` with `n = length - 1`. -/
noncomputable def bernsteinPoint (B : List V) (t : ℝ) : E3 :=
  ∑ i ∈ Finset.range B.length,
    (((B.length - 1).choose i : ℝ) * t ^ i * (1 - t) ^ (B.length - 1 - i)) •
      toE (B.getD i ⟨0, 0, 0⟩)

namespace Bezier

/-- Effect of the in-place inner loop. -/
theorem inner_spec (t : ℝ) (m : ℕ) (Q : ℕ → V) (i : ℕ) :
    inner t m Q i = if i < m then Q i * (1 - t) + Q (i + 1) * t else Q i := by
  induction m generalizing i with
  | zero => simp [inner]
  | succ m ih =>
    unfold inner at ih ⊢
    rw [List.range_succ, List.foldl_append]
    simp only [List.foldl_cons, List.foldl_nil, Function.update_apply]
    by_cases h : i = m
    · subst h
      simp only [if_true, ih, lt_irrefl, if_false, Nat.lt_succ_self]
      simp
    · simp only [h, if_false, ih]
      by_cases h' : i < m
      · rw [if_pos h', if_pos (by omega)]
      · rw [if_neg h', if_neg (by omega)]

/-- The Bernstein weight. -/
noncomputable def bw (t : ℝ) (k j : ℕ) : ℝ := (k.choose j : ℝ) * t ^ j * (1 - t) ^ (k - j)

theorem bw_succ_zero (t : ℝ) (k : ℕ) : bw t (k + 1) 0 = (1 - t) * bw t k 0 := by
  simp [bw, pow_succ]; ring

theorem bw_succ_succ (t : ℝ) (k j : ℕ) (hj : j ≤ k) :
    bw t (k + 1) (j + 1) = (1 - t) * bw t k (j + 1) + t * bw t k j := by
  unfold bw
  rw [Nat.choose_succ_succ]
  push_cast
  rcases hj.lt_or_eq with h | h
  · have e2 : k - j = (k - (j + 1)) + 1 := by omega
    rw [e2, pow_succ _ (k - (j + 1))]; simp only [Nat.succ_eq_add_one]; ring
  · subst h
    simp; ring

theorem work_spec (t : ℝ) (n : ℕ) (Q : ℕ → V) (k : ℕ) (hk : k ≤ n) (i : ℕ) (hi : i + k ≤ n) :
    toE ((List.range k).foldl (fun Q k => inner t (n - k) Q) Q i) =
      ∑ j ∈ Finset.range (k + 1), bw t k j • toE (Q (i + j)) := by
  induction k generalizing i with
  | zero => simp [bw]
  | succ k ih =>
    rw [List.range_succ, List.foldl_append]
    simp only [List.foldl_cons, List.foldl_nil]
    rw [inner_spec, if_pos (by omega), Vec.toE_add, Vec.toE_mul, Vec.toE_mul,
      ih (by omega) i (by omega), ih (by omega) (i + 1) (by omega)]
    rw [Finset.sum_range_succ' _ (k + 1)]
    have h1 : ∑ j ∈ Finset.range (k + 1), bw t (k + 1) (j + 1) • toE (Q (i + (j + 1))) =
        ∑ j ∈ Finset.range (k + 1), ((1 - t) * bw t k (j + 1)) • toE (Q (i + (j + 1))) +
        ∑ j ∈ Finset.range (k + 1), (t * bw t k j) • toE (Q (i + (j + 1))) := by
      rw [← Finset.sum_add_distrib]
      refine Finset.sum_congr rfl fun j hj => ?_
      rw [bw_succ_succ t k j (by simpa using Nat.lt_succ_iff.1 (Finset.mem_range.1 hj)), add_smul]
    have h2 : ∑ j ∈ Finset.range (k + 1), ((1 - t) * bw t k (j + 1)) • toE (Q (i + (j + 1))) =
        ∑ j ∈ Finset.range k, ((1 - t) * bw t k (j + 1)) • toE (Q (i + (j + 1))) := by
      rw [Finset.sum_range_succ]
      have : bw t k (k + 1) = 0 := by simp [bw]
      rw [this]; simp
    rw [h1, h2, bw_succ_zero]
    rw [Finset.sum_range_succ' (fun j => bw t k j • toE (Q (i + j))) k]
    simp only [smul_add, Finset.smul_sum, smul_smul]
    have h3 : ∀ x, toE (Q (i + 1 + x)) = toE (Q (i + (x + 1))) := by
      intro x; congr 2; ring
    simp only [h3, add_zero]
    abel

theorem call_spec (B : List V) (hB : B ≠ []) (t : ℝ) :
    ∃ q, call B t = .ok q ∧ toE q = bernsteinPoint B t := by
  match B, hB with
  | [b], _ => exact ⟨b, rfl, by simp [bernsteinPoint]⟩
  | a :: b :: l, _ =>
    refine ⟨_, rfl, ?_⟩
    unfold work
    rw [work_spec t _ _ _ le_rfl 0 (by omega)]
    unfold bernsteinPoint bw
    simp

end Bezier

/-- C07: a Bezier curve is the Bernstein combination of its control points, whatever their number; it
interpolates the first and the last one; an empty control polygon raises. -/
theorem C07_bernstein (B : List V) :
    (B ≠ [] → ∀ t, ∃ q, (Bezier B).call t = .ok q ∧ toE q = bernsteinPoint B t) ∧
    (∀ b, B.head? = some b → (Bezier B).call 0 = .ok b) ∧
    (∀ b, B.getLast? = some b → (Bezier B).call 1 = .ok b) ∧
    (B = [] → ∀ t, (Bezier B).call t = .error .index) := by
  refine ⟨fun h t => Bezier.call_spec B h t, ?_, ?_, ?_⟩
  · intro b hb
    have hne : B ≠ [] := by rintro rfl; simp at hb
    obtain ⟨q, h1, h2⟩ := Bezier.call_spec B hne 0
    have : q = b := by
      apply Vec.toE_injective
      rw [h2]
      obtain ⟨a, l, rfl⟩ := List.exists_cons_of_ne_nil hne
      simp at hb; subst hb
      unfold bernsteinPoint
      rw [Finset.sum_eq_single 0]
      · simp
      · intro j _ hj; simp [hj]
      · simp
    rw [← this]; exact h1
  · intro b hb
    have hne : B ≠ [] := by rintro rfl; simp at hb
    obtain ⟨q, h1, h2⟩ := Bezier.call_spec B hne 1
    have hlen : 0 < B.length := List.length_pos_iff.2 hne
    have : q = b := by
      apply Vec.toE_injective
      rw [h2]
      unfold bernsteinPoint
      rw [Finset.sum_eq_single (B.length - 1)]
      · rw [List.getLast?_eq_getElem?] at hb
        simp [List.getD_eq_getElem?_getD, hb]
      · intro j hj hj'
        have : B.length - 1 - j ≠ 0 := by have := Finset.mem_range.1 hj; omega
        simp [this]
      · intro h; exact absurd (Finset.mem_range.2 (by omega)) h
    rw [← this]; exact h1
  · rintro rfl t; rfl

example : (Bezier [⟨0, 0, 0⟩, ⟨1, 0, 0⟩, ⟨1, 2, 0⟩]).call (1 / 2) = .ok ⟨3 / 4, 1 / 2, 0⟩ := by
  simp [Bezier, Bezier.call, Bezier.work, Bezier.inner, List.range, List.range.loop]
  ext <;> norm_num

/-! ## C08 -/

theorem bernstein_sum_one (n : ℕ) (t : ℝ) :
    ∑ i ∈ Finset.range (n + 1), ((n.choose i : ℝ) * t ^ i * (1 - t) ^ (n - i)) = 1 := by
  have h := add_pow t (1 - t) n
  rw [add_sub_cancel, one_pow] at h
  refine Eq.trans (Finset.sum_congr rfl fun i _ => by ring) h.symm

/-- C08: for `t ∈ [0,1]` the curve point lies in the convex hull of the control points. -/
theorem C08_convex_hull (B : List V) (t : ℝ) (q : V) (h0 : 0 ≤ t) (h1 : t ≤ 1)
    (hq : (Bezier B).call t = .ok q) : toE q ∈ convexHull ℝ {e | ∃ b ∈ B, e = toE b} := by
  have hne : B ≠ [] := by
    rintro rfl; simp [Bezier, Bezier.call] at hq
  obtain ⟨q', e1, e2⟩ := Bezier.call_spec B hne t
  have : q = q' := by
    have := hq.symm.trans e1; simpa using this
  rw [this, e2]
  have hlen : B.length - 1 + 1 = B.length := by
    have := List.length_pos_iff.2 hne; omega
  unfold bernsteinPoint
  apply (convex_convexHull ℝ _).sum_mem
  · intro i _
    have : 0 ≤ 1 - t := by linarith
    positivity
  · have := bernstein_sum_one (B.length - 1) t
    rwa [hlen] at this
  · intro i hi
    apply subset_convexHull
    have hi' := Finset.mem_range.1 hi
    exact ⟨B[i], List.getElem_mem _, by simp [List.getD_eq_getElem?_getD, hi']⟩

/-- C08: every linear functional of the curve point lies between bounds for the control points. -/
theorem C08_between (B : List V) (t : ℝ) (q : V) (h0 : 0 ≤ t) (h1 : t ≤ 1)
    (hq : (Bezier B).call t = .ok q) (φ : E3 →ₗ[ℝ] ℝ) (lo hi : ℝ)
    (hb : ∀ b ∈ B, lo ≤ φ (toE b) ∧ φ (toE b) ≤ hi) : lo ≤ φ (toE q) ∧ φ (toE q) ≤ hi := by
  have hmem := C08_convex_hull B t q h0 h1 hq
  have hsub : convexHull ℝ {e | ∃ b ∈ B, e = toE b} ⊆ φ ⁻¹' Set.Icc lo hi := by
    apply convexHull_min
    · rintro e ⟨b, hbB, rfl⟩
      exact hb b hbB
    · exact (convex_Icc lo hi).linear_preimage φ
  exact hsub hmem

/-- C08: applying an affine map to the control points applies it to the curve, for every parameter. -/
theorem C08_affine (B B' : List V) (f : E3 →ᵃ[ℝ] E3) (hBB : B'.map toE = B.map fun b => f (toE b))
    (t : ℝ) (q q' : V) (hq : (Bezier B).call t = .ok q) (hq' : (Bezier B').call t = .ok q') :
    toE q' = f (toE q) := by
  have hne : B ≠ [] := by
    rintro rfl; simp [Bezier, Bezier.call] at hq
  have hlen : B'.length = B.length := by simpa using congrArg List.length hBB
  have hne' : B' ≠ [] := by
    rintro rfl; simp at hlen; exact hne (List.length_eq_zero_iff.1 hlen.symm)
  obtain ⟨p, e1, e2⟩ := Bezier.call_spec B hne t
  obtain ⟨p', e1', e2'⟩ := Bezier.call_spec B' hne' t
  obtain rfl : p = q := by have := e1.symm.trans hq; simpa using this
  obtain rfl : p' = q' := by have := e1'.symm.trans hq'; simpa using this
  rw [e2, e2']
  have hlen1 : B.length - 1 + 1 = B.length := by
    have := List.length_pos_iff.2 hne; omega
  have hs := bernstein_sum_one (B.length - 1) t
  rw [hlen1] at hs
  have hf : ∀ x, f x = f.linear x + f 0 := fun x => by
    have := f.map_vadd 0 x; simpa using this
  unfold bernsteinPoint
  rw [hf, map_sum, hlen]
  have h4 : f 0 = ∑ i ∈ Finset.range B.length,
      (((B.length - 1).choose i : ℝ) * t ^ i * (1 - t) ^ (B.length - 1 - i)) • f 0 := by
    rw [← Finset.sum_smul, hs, one_smul]
  rw [h4, ← Finset.sum_add_distrib]
  refine Finset.sum_congr rfl fun i hi => ?_
  rw [map_smul, ← smul_add, ← hf]
  congr 1
  have hi' := Finset.mem_range.1 hi
  have := congrArg (fun l => l[i]?) hBB
  simp [hi', hlen] at this
  simpa [List.getD_eq_getElem?_getD, hi', hlen] using this

example : (Bezier [⟨0, 0, 0⟩, ⟨1, 0, 0⟩]).call (1 / 2) = .ok ⟨1 / 2, 0, 0⟩ := by
  simp [Bezier, Bezier.call, Bezier.work, Bezier.inner, List.range, List.range.loop]
  ext <;> simp

end HV
