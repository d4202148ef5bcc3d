import Verif.Model.Path
import Verif.Lemmas.Vec
import Mathlib.Algebra.BigOperators.Group.Finset.Basic
import Mathlib.Algebra.Order.Floor.Semiring
import Mathlib.Algebra.Order.Archimedean.Basic
import Mathlib.Data.List.GetD

/-!
# Property C15: arc-length parameterisation
-/

namespace HV

open Spec

namespace Spec

/-- Length of the polygon through `P 0, ..., P i`. -/
noncomputable def chordSum (P : ℕ → V) (i : ℕ) : ℝ := ∑ k ∈ Finset.range i, vdist (P k) (P (k + 1))

theorem chordSum_mono (P : ℕ → V) : Monotone (chordSum P) := by
  apply monotone_nat_of_le_succ
  intro i
  unfold chordSum
  rw [Finset.sum_range_succ]
  have : 0 ≤ vdist (P i) (P (i + 1)) := dist_nonneg
  linarith

theorem chordSum_zero (P : ℕ → V) : chordSum P 0 = 0 := by simp [chordSum]

/-- Equal partial lengths mean that the points in between coincide. -/
theorem chordSum_eq_imp (P : ℕ → V) {i j : ℕ} (hij : i ≤ j) (h : chordSum P i = chordSum P j) :
    P i = P j := by
  induction j, hij using Nat.le_induction with
  | base => rfl
  | succ j hij ih =>
    have h1 := chordSum_mono P hij
    have h2 : chordSum P (j + 1) = chordSum P j + vdist (P j) (P (j + 1)) := by
      unfold chordSum; rw [Finset.sum_range_succ]
    have h3 : 0 ≤ vdist (P j) (P (j + 1)) := dist_nonneg
    have h4 : vdist (P j) (P (j + 1)) = 0 := by linarith
    rw [ih (by linarith)]
    exact Vec.toE_injective (dist_eq_zero.1 h4)

end Spec

namespace ArcLen

theorem table_eq (call : ℝ → Res V) (P : ℕ → V) (n : ℕ) (hP : ∀ i, i ≤ n → call ((i : ℝ) / n) = .ok (P i)) :
    ∀ m a : ℕ, a + m = n →
      table call (1 / (n : ℝ)) ((List.range' a m).map (· + 1)) (chordSum P a) (P a) =
        .ok ((List.range' (a + 1) m).map fun i : ℕ => (chordSum P i, (i : ℝ) / n)) := by
  intro m
  induction m with
  | zero => intro a _; simp [table]
  | succ m ih =>
    intro a ha
    have hcall : call (((a + 1 : ℕ) : ℝ) / n) = .ok (P (a + 1)) := hP (a + 1) (by omega)
    have hL : chordSum P a + (P (a + 1) - P a).abs = chordSum P (a + 1) := by
      rw [Vec.abs_sub_comm, Vec.abs_sub_eq_vdist]
      unfold chordSum; rw [Finset.sum_range_succ]
    have hdt : 1 / (n : ℝ) * ((a + 1 : ℕ) : ℝ) = ((a + 1 : ℕ) : ℝ) / n := by ring
    have := ih (a + 1) (by omega)
    simp only [List.range'_succ, List.map_cons, table, bind, Except.bind, pure, Except.pure, hcall, hL,
      this, hdt]

theorem setArcLengths_eq (call : ℝ → Res V) (P : ℕ → V) (n : ℕ) (hn : 1 ≤ n)
    (hP : ∀ i, i ≤ n → call ((i : ℝ) / n) = .ok (P i)) :
    setArcLengths call n = .ok ((List.range' 0 (n + 1)).map fun i : ℕ => (chordSum P i, (i : ℝ) / n)) := by
  have hn0 : (n : ℝ) ≠ 0 := by positivity
  have h0 : call 0 = .ok (P 0) := by have := hP 0 (by omega); simpa using this
  have ht := table_eq call P n hP n 0 (by omega)
  rw [chordSum_zero] at ht
  unfold setArcLengths
  simp only [pdiv, hn0, if_false, bind, Except.bind, h0, List.range_eq_range', ht, pure, Except.pure]
  rw [List.range'_succ, List.map_cons]
  simp [chordSum_zero]

/-- `np.interp` on a monotone table: the bracketing interval. -/
theorem interpAux_spec (f : ℕ → ℝ × ℝ) (x right : ℝ) :
    ∀ m a : ℕ, (f a).1 ≤ x →
      (∃ j, a ≤ j ∧ j < a + m ∧ (f j).1 ≤ x ∧ x < (f (j + 1)).1 ∧
        interpAux x right ((List.range' a (m + 1)).map f) =
          (f j).2 + ((f (j + 1)).2 - (f j).2) / ((f (j + 1)).1 - (f j).1) * (x - (f j).1)) ∨
      ((f (a + m)).1 ≤ x ∧
        interpAux x right ((List.range' a (m + 1)).map f) =
          if x > (f (a + m)).1 then right else (f (a + m)).2) := by
  intro m
  induction m with
  | zero => intro a ha; right; exact ⟨by simpa using ha, by simp [interpAux]⟩
  | succ m ih =>
    intro a ha
    by_cases h : x < (f (a + 1)).1
    · left
      refine ⟨a, le_refl _, by omega, ha, h, ?_⟩
      rw [List.range'_succ, List.range'_succ]
      simp [interpAux, h]
    · have hs : interpAux x right ((List.range' a (m + 1 + 1)).map f) =
          interpAux x right ((List.range' (a + 1) (m + 1)).map f) := by
        rw [List.range'_succ, List.map_cons, List.range'_succ, List.map_cons]
        simp [interpAux, h]
      rcases ih (a + 1) (not_lt.1 h) with ⟨j, h1, h2, h3, h4, h5⟩ | ⟨h1, h2⟩
      · left; exact ⟨j, by omega, by omega, h3, h4, by rw [hs]; exact h5⟩
      · right
        have e : a + 1 + m = a + (m + 1) := by omega
        rw [e] at h1 h2
        exact ⟨h1, by rw [hs]; exact h2⟩

/-- The reparameterisation map on a sampled table. -/
noncomputable def uMap (P : ℕ → V) (n : ℕ) (t : ℝ) : ℝ :=
  underlyingT ((List.range' 0 (n + 1)).map fun i : ℕ => (chordSum P i, (i : ℝ) / n)) t

theorem uMap_cases (P : ℕ → V) (n : ℕ) (hn : 1 ≤ n) (hpos : 0 < chordSum P n) (t : ℝ)
    (h0 : 0 ≤ t) (h1 : t ≤ 1) :
    (∃ j : ℕ, j < n ∧ chordSum P j ≤ t * chordSum P n ∧ t * chordSum P n < chordSum P (j + 1) ∧
      uMap P n t = (j : ℝ) / n + (1 / (n : ℝ)) / (chordSum P (j + 1) - chordSum P j) *
        (t * chordSum P n - chordSum P j)) ∨
    (t = 1 ∧ uMap P n t = 1) := by
  have hn0 : (n : ℝ) ≠ 0 := by positivity
  have hlast : ((List.range' 0 (n + 1)).map fun i : ℕ => (chordSum P i, (i : ℝ) / n)).getLastD (0, 0)
      = (chordSum P n, 1) := by
    rw [List.range'_concat, List.map_append, List.map_cons, List.map_nil, List.getLastD_concat]
    simp [hn0]
  have hx0 : 0 ≤ t * chordSum P n := by positivity
  have hint : uMap P n t = interpAux (t * chordSum P n) 1
      ((List.range' 0 (n + 1)).map fun i : ℕ => (chordSum P i, (i : ℝ) / n)) := by
    unfold uMap underlyingT
    simp only [hlast]
    rw [List.range'_succ, List.map_cons]
    unfold interp
    simp [chordSum_zero, not_lt.2 hx0]
  have := interpAux_spec (fun i : ℕ => (chordSum P i, (i : ℝ) / n)) (t * chordSum P n) 1 n 0
    (by simpa [chordSum_zero] using hx0)
  rcases this with ⟨j, -, hj, h2, h3, h4⟩ | ⟨h2, h3⟩
  · left
    refine ⟨j, by omega, h2, h3, ?_⟩
    rw [hint, h4]
    simp only []
    congr 3
    push_cast; field_simp; ring
  · right
    simp only [zero_add] at h2 h3
    have ht : t = 1 := by
      by_contra h
      have : t < 1 := lt_of_le_of_ne h1 h
      nlinarith
    refine ⟨ht, ?_⟩
    rw [hint, h3, ht]
    simp [hn0]

theorem uMap_bounds (P : ℕ → V) (n : ℕ) {j : ℕ} (hn : 1 ≤ n) {x : ℝ}
    (h1 : chordSum P j ≤ x) (h2 : x < chordSum P (j + 1)) :
    (j : ℝ) / n ≤ (j : ℝ) / n + (1 / (n : ℝ)) / (chordSum P (j + 1) - chordSum P j) * (x - chordSum P j) ∧
    (j : ℝ) / n + (1 / (n : ℝ)) / (chordSum P (j + 1) - chordSum P j) * (x - chordSum P j)
      < ((j + 1 : ℕ) : ℝ) / n := by
  have hn0 : (0 : ℝ) < n := by exact_mod_cast hn
  have hd : 0 < chordSum P (j + 1) - chordSum P j := by linarith
  constructor
  · have : 0 ≤ (1 / (n : ℝ)) / (chordSum P (j + 1) - chordSum P j) * (x - chordSum P j) := by
      apply mul_nonneg (by positivity); linarith
    linarith
  · have hlt : (x - chordSum P j) / (chordSum P (j + 1) - chordSum P j) < 1 := by
      rw [div_lt_one hd]; linarith
    have e : (1 / (n : ℝ)) / (chordSum P (j + 1) - chordSum P j) * (x - chordSum P j)
        = (x - chordSum P j) / (chordSum P (j + 1) - chordSum P j) / n := by
      field_simp
    rw [e]
    push_cast
    rw [add_div]
    have : (x - chordSum P j) / (chordSum P (j + 1) - chordSum P j) / n < 1 / n :=
      div_lt_div_of_pos_right hlt hn0
    linarith

theorem uMap_mono (P : ℕ → V) (n : ℕ) (hn : 1 ≤ n) (hpos : 0 < chordSum P n) {t t' : ℝ}
    (h0 : 0 ≤ t) (h : t ≤ t') (h1 : t' ≤ 1) : uMap P n t ≤ uMap P n t' := by
  have hn0 : (0 : ℝ) < n := by exact_mod_cast hn
  rcases uMap_cases P n hn hpos t h0 (h.trans h1) with ⟨j, hj, a1, a2, a3⟩ | ⟨a1, a2⟩
  · rcases uMap_cases P n hn hpos t' (h0.trans h) h1 with ⟨k, hk, b1, b2, b3⟩ | ⟨b1, b2⟩
    · have hx : t * chordSum P n ≤ t' * chordSum P n := by nlinarith
      have hjk : j ≤ k := by
        by_contra hc
        have : chordSum P (k + 1) ≤ chordSum P j := chordSum_mono P (by omega)
        linarith
      rcases hjk.eq_or_lt with rfl | hlt
      · rw [a3, b3]
        have : 0 ≤ (1 / (n : ℝ)) / (chordSum P (j + 1) - chordSum P j) := by
          apply div_nonneg (by positivity); linarith
        have := mul_le_mul_of_nonneg_left (sub_le_sub_right hx (chordSum P j)) this
        linarith
      · have u1 := (uMap_bounds P n hn a1 a2).2
        have u2 := (uMap_bounds P n hn b1 b2).1
        rw [← a3] at u1
        rw [← b3] at u2
        have : ((j + 1 : ℕ) : ℝ) / n ≤ (k : ℝ) / n := by
          apply div_le_div_of_nonneg_right _ hn0.le
          exact_mod_cast hlt
        linarith
    · rw [b2, a3]
      have u1 := (uMap_bounds P n hn a1 a2).2
      have : ((j + 1 : ℕ) : ℝ) / n ≤ 1 := by
        rw [div_le_one hn0]; exact_mod_cast hj
      linarith
  · have : t' = 1 := le_antisymm h1 (a1 ▸ h)
    rw [this, ← a1]

theorem uMap_mem (P : ℕ → V) (n : ℕ) (hn : 1 ≤ n) (hpos : 0 < chordSum P n) {t : ℝ}
    (h0 : 0 ≤ t) (h1 : t ≤ 1) : 0 ≤ uMap P n t ∧ uMap P n t ≤ 1 := by
  have hn0 : (0 : ℝ) < n := by exact_mod_cast hn
  rcases uMap_cases P n hn hpos t h0 h1 with ⟨j, hj, a1, a2, a3⟩ | ⟨-, a2⟩
  · have u := uMap_bounds P n hn a1 a2
    rw [← a3] at u
    have : ((j + 1 : ℕ) : ℝ) / n ≤ 1 := by rw [div_le_one hn0]; exact_mod_cast hj
    have : 0 ≤ (j : ℝ) / n := by positivity
    constructor <;> linarith
  · rw [a2]; norm_num

/-- At the arc-length fraction of sample `i` the map returns the parameter of a sample that is the same
point. -/
theorem uMap_sample (P : ℕ → V) (n : ℕ) (hn : 1 ≤ n) (hpos : 0 < chordSum P n) {i : ℕ} (hi : i ≤ n) :
    ∃ j, i ≤ j ∧ j ≤ n ∧ uMap P n (chordSum P i / chordSum P n) = (j : ℝ) / n ∧
      chordSum P i = chordSum P j := by
  have hn0 : (n : ℝ) ≠ 0 := by positivity
  have hi0 : 0 ≤ chordSum P i := by rw [← chordSum_zero P]; exact chordSum_mono P (Nat.zero_le _)
  have hi1 : chordSum P i ≤ chordSum P n := chordSum_mono P hi
  have hx : chordSum P i / chordSum P n * chordSum P n = chordSum P i := by field_simp
  rcases uMap_cases P n hn hpos _ (div_nonneg hi0 hpos.le) ((div_le_one hpos).2 hi1) with
    ⟨j, hj, a1, a2, a3⟩ | ⟨a1, a2⟩
  · rw [hx] at a1 a2 a3
    have hij : i ≤ j := by
      by_contra hc
      have : chordSum P (j + 1) ≤ chordSum P i := chordSum_mono P (by omega)
      linarith
    have he : chordSum P i = chordSum P j := le_antisymm (chordSum_mono P hij) a1
    exact ⟨j, hij, hj.le, by rw [a3, he]; ring, he⟩
  · refine ⟨n, hi, le_refl _, by rw [a2]; field_simp, ?_⟩
    rw [div_eq_iff hpos.ne'] at a1
    linarith

end ArcLen

/-- The parameter map of the object is `uMap`. -/
theorem ArcLengthParameterizedPath_eq (p : PathObj) (P : ℕ → V) (n : ℕ) (hn : 1 ≤ n)
    (hP : ∀ i, i ≤ n → p.call ((i : ℝ) / n) = .ok (P i)) :
    ArcLengthParameterizedPath p (n : ℤ) = .ok ⟨fun t => p.call (ArcLen.uMap P n t), p.length⟩ := by
  unfold ArcLengthParameterizedPath
  rw [if_neg (by omega)]
  simp only [Int.toNat_natCast, ArcLen.setArcLengths_eq p.call P n hn hP, bind, Except.bind, pure,
    Except.pure]
  rfl

/-- C15: for a path that can be sampled at `0, 1/n, ..., 1` with positive sampled length, the
reparameterised path is the path composed with a non-decreasing map `u` into `[0,1]`; it has the same
end points, and at the arc-length fraction of each sample point it is that sample point.  If moreover
every sampled step has positive length, `u` maps onto `[0,1]` and sends each sampled arc-length
fraction back to its sample parameter. -/
theorem C15_reparameterisation (p : PathObj) (P : ℕ → V) (n : ℕ) (hn : 1 ≤ n)
    (hP : ∀ i, i ≤ n → p.call ((i : ℝ) / n) = .ok (P i)) (hpos : 0 < chordSum P n) :
    ∃ (q : PathObj) (u : ℝ → ℝ), ArcLengthParameterizedPath p (n : ℤ) = .ok q ∧ q.length = p.length ∧
      (∀ t, q.call t = p.call (u t)) ∧ MonotoneOn u (Set.Icc 0 1) ∧ Set.MapsTo u (Set.Icc 0 1) (Set.Icc 0 1) ∧
      q.call 0 = p.call 0 ∧ q.call 1 = p.call 1 ∧
      (∀ i ≤ n, q.call (chordSum P i / chordSum P n) = .ok (P i)) ∧
      ((∀ i < n, P i ≠ P (i + 1)) → Set.SurjOn u (Set.Icc 0 1) (Set.Icc 0 1) ∧
        ∀ i ≤ n, u (chordSum P i / chordSum P n) = (i : ℝ) / n) := by
  have hn0 : (0 : ℝ) < n := by exact_mod_cast hn
  have samp : ∀ i ≤ n, p.call (ArcLen.uMap P n (chordSum P i / chordSum P n)) = .ok (P i) := by
    intro i hi
    obtain ⟨j, hij, hj, h1, h2⟩ := ArcLen.uMap_sample P n hn hpos hi
    rw [h1, hP j hj, chordSum_eq_imp P hij h2]
  refine ⟨_, ArcLen.uMap P n, ArcLengthParameterizedPath_eq p P n hn hP, rfl, fun _ => rfl, ?_, ?_, ?_, ?_,
    samp, ?_⟩
  · intro t ht t' ht' h
    exact ArcLen.uMap_mono P n hn hpos ht.1 h ht'.2
  · intro t ht
    exact ArcLen.uMap_mem P n hn hpos ht.1 ht.2
  · have := samp 0 (by omega)
    rw [chordSum_zero, zero_div] at this
    have h0 := hP 0 (by omega)
    simp only [Nat.cast_zero, zero_div] at h0
    show p.call _ = _
    rw [this, h0]
  · have := samp n (le_refl _)
    rw [div_self hpos.ne'] at this
    have h1 := hP n (le_refl _)
    rw [div_self hn0.ne'] at h1
    show p.call _ = _
    rw [this, h1]
  · intro hne
    have hstrict : ∀ i < n, chordSum P i < chordSum P (i + 1) := by
      intro i hi
      refine lt_of_le_of_ne (chordSum_mono P (by omega)) fun h => hne i hi ?_
      exact chordSum_eq_imp P (by omega) h
    have hinj : ∀ i j, i ≤ j → j ≤ n → chordSum P i = chordSum P j → i = j := by
      intro i j hij hj h
      by_contra hc
      have h1 := hstrict i (by omega)
      have h2 : chordSum P (i + 1) ≤ chordSum P j := chordSum_mono P (by omega)
      linarith
    constructor
    · intro τ hτ
      by_cases hτ1 : τ = 1
      · refine ⟨1, by simp, ?_⟩
        obtain ⟨j, hij, hj, h1, h2⟩ := ArcLen.uMap_sample P n hn hpos (le_refl n)
        rw [div_self hpos.ne'] at h1
        have : j = n := by omega
        rw [h1, this, div_self hn0.ne', hτ1]
      · have hτlt : τ < 1 := lt_of_le_of_ne hτ.2 hτ1
        set j := ⌊τ * n⌋₊ with hj
        have hjn0 : (0 : ℝ) ≤ τ * n := mul_nonneg hτ.1 hn0.le
        have hj1 : (j : ℝ) ≤ τ * n := Nat.floor_le hjn0
        have hj2 : τ * n < j + 1 := Nat.lt_floor_add_one _
        have hjn : j < n := by
          have : (j : ℝ) < n := by nlinarith
          exact_mod_cast this
        have hd := hstrict j hjn
        set x := chordSum P j + (τ * n - j) * (chordSum P (j + 1) - chordSum P j) with hx
        have hx1 : chordSum P j ≤ x := by
          rw [hx]; have := mul_nonneg (sub_nonneg.2 hj1) (sub_nonneg.2 hd.le); linarith
        have hx2 : x < chordSum P (j + 1) := by
          rw [hx]
          have : (τ * n - j) * (chordSum P (j + 1) - chordSum P j) <
              1 * (chordSum P (j + 1) - chordSum P j) :=
            mul_lt_mul_of_pos_right (by linarith) (by linarith)
          linarith
        have hj0 : 0 ≤ chordSum P j := by rw [← chordSum_zero P]; exact chordSum_mono P (Nat.zero_le _)
        have hxn : x ≤ chordSum P n := hx2.le.trans (chordSum_mono P (by omega))
        refine ⟨x / chordSum P n, ⟨div_nonneg (by linarith) hpos.le, (div_le_one hpos).2 hxn⟩, ?_⟩
        have hxx : x / chordSum P n * chordSum P n = x := by field_simp
        rcases ArcLen.uMap_cases P n hn hpos (x / chordSum P n) (div_nonneg (by linarith) hpos.le)
          ((div_le_one hpos).2 hxn) with ⟨k, hk, a1, a2, a3⟩ | ⟨a1, a2⟩
        · rw [hxx] at a1 a2 a3
          have hkj : k = j := by
            rcases lt_trichotomy k j with h | h | h
            · have : chordSum P (k + 1) ≤ chordSum P j := chordSum_mono P (by omega)
              linarith
            · exact h
            · have : chordSum P (j + 1) ≤ chordSum P k := chordSum_mono P (by omega)
              linarith
          rw [a3, hkj, hx]
          have : chordSum P (j + 1) - chordSum P j ≠ 0 := by linarith
          field_simp
          ring
        · rw [div_eq_iff hpos.ne', one_mul] at a1
          have : chordSum P (j + 1) ≤ chordSum P n := chordSum_mono P (by omega)
          linarith
    · intro i hi
      obtain ⟨j, hij, hj, h1, h2⟩ := ArcLen.uMap_sample P n hn hpos hi
      rw [h1, hinj i j hij hj h2]

/-- C15, rejection: fewer than one sample raises; a path that cannot be sampled raises. -/
theorem C15_rejects (p : PathObj) (n : ℤ) (h : n < 1) :
    ArcLengthParameterizedPath p n = .error .runtime := by
  unfold ArcLengthParameterizedPath; rw [if_pos h]

/-- A straight line of positive length meets all hypotheses, for every `n`. -/
example (n : ℕ) (hn : 1 ≤ n) :
    let P : ℕ → V := fun i => ⟨(i : ℝ) / n, 0, 0⟩
    (∀ i, i ≤ n → (Line ⟨0, 0, 0⟩ ⟨1, 0, 0⟩).call ((i : ℝ) / n) = .ok (P i)) ∧
      (∀ i < n, P i ≠ P (i + 1)) ∧ 0 < chordSum P n := by
  have hn0 : (0 : ℝ) < n := by exact_mod_cast hn
  refine ⟨?_, ?_, ?_⟩
  · intro i _
    show Except.ok _ = _
    congr 1
    ext <;> simp [lineAt]
  · intro i _ h
    have := congrArg Vec.x h
    simp only [] at this
    rw [div_left_inj' hn0.ne'] at this
    push_cast at this
    linarith
  · unfold chordSum
    apply Finset.sum_pos
    · intro i _
      rw [← Vec.abs_sub_eq_vdist]
      refine lt_of_le_of_ne (Vec.abs_nonneg _) fun h => ?_
      have := (Vec.sub_eq_zero_iff _ _).1 h.symm
      have := congrArg Vec.x this
      simp only [] at this
      rw [div_left_inj' hn0.ne'] at this
      push_cast at this
      linarith
    · exact ⟨0, by simp; omega⟩

end HV
