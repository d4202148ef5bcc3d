import Verif.Props.Check

/-!
# C47–C48: `stl_repair`
-/

namespace HV

open Spec

/-- Specification of `np.argsort` on `n` values. -/
def Spec.IsArgsort (x : ℕ → ℝ) (sort : ℕ → ℕ) (n : ℕ) : Prop :=
  (∀ i < n, sort i < n) ∧ (∀ i < n, ∀ j < n, sort i = sort j → i = j) ∧ (∀ k < n, ∃ i < n, sort i = k) ∧
    ∀ i j, i ≤ j → j < n → x (sort i) ≤ x (sort j)

/-- Specification: "differ by less than `d`" is transitive among the first `n` values, i.e. they fall into well separated
clusters. -/
def Spec.CloseTrans (x : ℕ → ℝ) (n : ℕ) (d : ℝ) : Prop :=
  ∀ i < n, ∀ j < n, ∀ k < n, |x i - x j| < d → |x j - x k| < d → |x i - x k| < d

section groups
variable (x : ℕ → ℝ) (sort : ℕ → ℕ) (n : ℕ) (d : ℝ)

/-- The block of sorted positions `a ≤ j < b`. -/
def blk (p : ℕ × ℕ) : List ℕ := (List.range' p.1 (p.2 - p.1)).map sort

theorem mem_blk {p : ℕ × ℕ} {k : ℕ} : k ∈ blk sort p ↔ ∃ j, p.1 ≤ j ∧ j < p.2 ∧ sort j = k := by
  unfold blk
  simp only [List.mem_map, List.mem_range'_1]
  constructor
  · rintro ⟨j, ⟨h1, h2⟩, h3⟩; exact ⟨j, h1, by omega, h3⟩
  · rintro ⟨j, h1, h2, h3⟩; exact ⟨j, ⟨h1, by omega⟩, h3⟩

/-- Invariant of the grouping loop after `k` iterations. -/
structure GInv (k : ℕ) (st : GroupState) (L : List (ℕ × ℕ)) (a : ℕ) : Prop where
  groups : st.groups = L.map (blk sort)
  pw : L.Pairwise fun p q => p.2 ≤ q.1
  le : ∀ p ∈ L, p.1 ≤ p.2 ∧ p.2 ≤ a
  close : ∀ p ∈ L, ∀ i j, p.1 ≤ i → i ≤ j → j < p.2 → x (sort j) - x (sort i) < d
  ak : a ≤ k
  on : st.count = true → st.li = blk sort (a, k + 1) ∧ st.x0 = x (sort a) ∧ x (sort k) - x (sort a) < d
  off : st.count = false → st.li = [] ∧ a = k
  compl : CloseTrans x n d → ∀ p q, p < q → q ≤ k → x (sort q) - x (sort p) < d →
    (∃ B ∈ L, B.1 ≤ p ∧ q < B.2) ∨ (st.count = true ∧ a ≤ p)

/-- One iteration without the final flush. -/
noncomputable def groupStep0 (st : GroupState) (i : ℕ) : GroupState :=
  open Classical in
  let x0 := if st.count then st.x0 else x (sort i)
  let x1 := x (sort (i + 1))
  if |x1 - x0| < d then
    if st.count then { st with li := st.li ++ [sort (i + 1)], x0 := x0 }
    else { st with li := st.li ++ [sort i, sort (i + 1)], count := true, x0 := x0 }
  else { groups := st.groups ++ [st.li], li := [], count := false, x0 := x0 }

theorem groupStep_eq (st : GroupState) (i : ℕ) :
    groupStep x sort n d st i =
      let st' := groupStep0 x sort d st i
      if i = n - 2 ∧ st'.count then { st' with groups := st'.groups ++ [st'.li] } else st' := by
  unfold groupStep groupStep0
  rfl

theorem blk_snoc (a b : ℕ) (h : a ≤ b) : blk sort (a, b) ++ [sort b] = blk sort (a, b + 1) := by
  unfold blk
  simp only
  rw [show b + 1 - a = (b - a) + 1 by omega, List.range'_concat]
  simp
  congr 1
  omega

theorem blk_empty (a : ℕ) : blk sort (a, a) = [] := by simp [blk]

theorem ginv_step (hs : IsArgsort x sort n) (hd : 0 < d) (k : ℕ) (hk : k + 1 < n) (st : GroupState)
    (L : List (ℕ × ℕ)) (a : ℕ) (h : GInv x sort n d k st L a) :
    ∃ L' a', GInv x sort n d (k + 1) (groupStep0 x sort d st k) L' a' := by
  classical
  obtain ⟨hlt, hinj, hsurj, hmono⟩ := hs
  -- if the open block starts at `a`, no earlier point is close to anything from `a` on
  have hsep : CloseTrans x n d → ∀ p, p < a → ¬ (x (sort (k + 1)) - x (sort p) < d) := by
    intro ht p hp hc
    have h1 : x (sort a) - x (sort p) < d := by
      have := hmono a (k + 1) (by have := h.ak; omega) hk
      linarith
    rcases h.compl ht p a hp h.ak h1 with ⟨B, hB, h2, h3⟩ | ⟨-, h3⟩
    · have := (h.le B hB).2; omega
    · omega
  cases hc : st.count
  · -- no open block
    obtain ⟨hli, rfl⟩ := h.off hc
    unfold groupStep0
    simp only [hc, Bool.false_eq_true, if_false]
    have hm := hmono a (a + 1) (by omega) hk
    rw [abs_of_nonneg (by linarith)]
    split_ifs with hcl
    · refine ⟨L, a, ?_⟩
      refine ⟨h.groups, h.pw, h.le, h.close, by omega, ?_, by simp, ?_⟩
      · intro _
        refine ⟨?_, rfl, hcl⟩
        rw [hli]
        simp only [List.nil_append]
        rw [← blk_snoc sort a (a + 1) (by omega), ← blk_snoc sort a a le_rfl, blk_empty]
        rfl
      · intro ht p q hpq hq hclose
        rcases Nat.lt_or_ge q (a + 1) with hq' | hq'
        · rcases h.compl ht p q hpq (by omega) hclose with hB | ⟨h1, h2⟩
          · exact Or.inl hB
          · rw [hc] at h1; exact absurd h1 (by simp)
        · obtain rfl : q = a + 1 := by omega
          right
          refine ⟨rfl, ?_⟩
          by_contra hlt'
          exact hsep ht p (by omega) hclose
    · refine ⟨L ++ [(a, a)], a + 1, ?_⟩
      refine ⟨?_, ?_, ?_, ?_, le_rfl, by simp, by simp, ?_⟩
      · simp [h.groups, hli, blk_empty]
      · rw [List.pairwise_append]
        refine ⟨h.pw, by simp, ?_⟩
        intro p hp q hq
        obtain rfl := List.mem_singleton.1 hq
        exact (h.le p hp).2
      · intro p hp
        rcases List.mem_append.1 hp with hp | hp
        · have := h.le p hp; omega
        · obtain rfl := List.mem_singleton.1 hp; simp
      · intro p hp i j h1 h2 h3
        rcases List.mem_append.1 hp with hp | hp
        · exact h.close p hp i j h1 h2 h3
        · obtain rfl := List.mem_singleton.1 hp; simp at h1 h3; omega
      · intro ht p q hpq hq hclose
        rcases Nat.lt_or_ge q (a + 1) with hq' | hq'
        · rcases h.compl ht p q hpq (by omega) hclose with ⟨B, hB, hB'⟩ | ⟨h1, h2⟩
          · exact Or.inl ⟨B, by simp [hB], hB'⟩
          · rw [hc] at h1; exact absurd h1 (by simp)
        · obtain rfl : q = a + 1 := by omega
          exfalso
          rcases Nat.lt_or_ge p a with hpa | hpa
          · exact hsep ht p hpa hclose
          · obtain rfl : p = a := by omega
            exact hcl hclose
  · -- open block from `a`
    obtain ⟨hli, hx0, hka⟩ := h.on hc
    have hak := h.ak
    unfold groupStep0
    simp only [hc, if_true, hx0]
    have hm := hmono a (k + 1) (by omega) hk
    rw [abs_of_nonneg (by linarith)]
    split_ifs with hcl
    · refine ⟨L, a, ?_⟩
      refine ⟨h.groups, h.pw, h.le, h.close, by omega, ?_, by simp, ?_⟩
      · intro _
        refine ⟨?_, rfl, hcl⟩
        simp only [hli]
        exact blk_snoc sort a (k + 1) (by omega)
      · intro ht p q hpq hq hclose
        rcases Nat.lt_or_ge q (k + 1) with hq' | hq'
        · rcases h.compl ht p q hpq (by omega) hclose with hB | ⟨h1, h2⟩
          · exact Or.inl hB
          · exact Or.inr ⟨rfl, h2⟩
        · obtain rfl : q = k + 1 := by omega
          right
          refine ⟨rfl, ?_⟩
          by_contra hlt'
          exact hsep ht p (by omega) hclose
    · refine ⟨L ++ [(a, k + 1)], k + 1, ?_⟩
      refine ⟨?_, ?_, ?_, ?_, le_rfl, by simp, by simp, ?_⟩
      · simp [h.groups, hli]
      · rw [List.pairwise_append]
        refine ⟨h.pw, by simp, ?_⟩
        intro p hp q hq
        obtain rfl := List.mem_singleton.1 hq
        exact (h.le p hp).2
      · intro p hp
        rcases List.mem_append.1 hp with hp | hp
        · have := h.le p hp; omega
        · obtain rfl := List.mem_singleton.1 hp; simp; omega
      · intro p hp i j h1 h2 h3
        rcases List.mem_append.1 hp with hp | hp
        · exact h.close p hp i j h1 h2 h3
        · obtain rfl := List.mem_singleton.1 hp
          simp only at h1 h3
          have e1 := hmono a i h1 (by omega)
          have e2 := hmono j k (by omega) (by omega)
          linarith
      · intro ht p q hpq hq hclose
        rcases Nat.lt_or_ge q (k + 1) with hq' | hq'
        · left
          rcases h.compl ht p q hpq (by omega) hclose with ⟨B, hB, hB'⟩ | ⟨h1, h2⟩
          · exact ⟨B, by simp [hB], hB'⟩
          · exact ⟨(a, k + 1), by simp, h2, hq'⟩
        · obtain rfl : q = k + 1 := by omega
          exfalso
          rcases Nat.lt_or_ge p a with hpa | hpa
          · exact hsep ht p hpa hclose
          · apply hcl
            have e1 := hmono a p hpa (by omega)
            have e2 := hmono p (k + 1) (by omega) hk
            have e3 := hmono p k (by omega) (by omega)
            have := ht (sort (k + 1)) (hlt _ hk) (sort p) (hlt _ (by omega)) (sort a) (hlt _ (by omega))
              (by rw [abs_of_nonneg (by linarith)]; exact hclose)
              (by rw [abs_of_nonneg (by linarith)]; linarith)
            rwa [abs_of_nonneg (by linarith)] at this

/-- What `find_groups` computes. -/
theorem findGroups_spec (hs : IsArgsort x sort n) (hd : 0 < d) :
    ∃ L : List (ℕ × ℕ), findGroups x sort n d = L.map (blk sort) ∧ L.Pairwise (fun p q => p.2 ≤ q.1) ∧
      (∀ p ∈ L, p.1 ≤ p.2 ∧ p.2 ≤ n) ∧
      (∀ p ∈ L, ∀ i j, p.1 ≤ i → i ≤ j → j < p.2 → x (sort j) - x (sort i) < d) ∧
      (CloseTrans x n d → ∀ p q, p < q → q < n → x (sort q) - x (sort p) < d → ∃ B ∈ L, B.1 ≤ p ∧ q < B.2) := by
  classical
  rcases Nat.lt_or_ge n 2 with hn | hn
  · refine ⟨[], ?_, by simp, by simp, by simp, ?_⟩
    · unfold findGroups
      rw [show n - 1 = 0 by omega]
      rfl
    · intro _ p q h1 h2; omega
  · obtain ⟨m, rfl⟩ : ∃ m, n = m + 2 := ⟨n - 2, by omega⟩
    have hloop : ∀ k ≤ m, ∃ L a, GInv x sort (m + 2) d k
        ((List.range k).foldl (groupStep x sort (m + 2) d) {}) L a := by
      intro k
      induction k with
      | zero =>
        intro _
        refine ⟨[], 0, ?_⟩
        exact ⟨rfl, by simp, by simp, by simp, le_rfl, by simp, by simp, fun _ p q h1 h2 => by omega⟩
      | succ k ih =>
        intro hk
        obtain ⟨L, a, h⟩ := ih (by omega)
        obtain ⟨L', a', h'⟩ := ginv_step x sort (m + 2) d hs hd k (by omega) _ L a h
        refine ⟨L', a', ?_⟩
        rw [List.range_succ, List.foldl_append, List.foldl_cons, List.foldl_nil, groupStep_eq]
        simp only
        rw [if_neg (by rintro ⟨h, -⟩; omega)]
        exact h'
    obtain ⟨L, a, h⟩ := hloop m le_rfl
    obtain ⟨L', a', h'⟩ := ginv_step x sort (m + 2) d hs hd m (by omega) _ L a h
    unfold findGroups
    rw [show m + 2 - 1 = m + 1 by omega, List.range_succ, List.foldl_append, List.foldl_cons, List.foldl_nil, groupStep_eq]
    simp only [Nat.add_sub_cancel, true_and]
    generalize groupStep0 x sort d ((List.range m).foldl (groupStep x sort (m + 2) d) {}) m = st at *
    have hak := h'.ak
    cases hc : st.count
    · simp only [Bool.false_eq_true, if_false]
      refine ⟨L', h'.groups, h'.pw, fun p hp => ⟨(h'.le p hp).1, by have := (h'.le p hp).2; omega⟩, h'.close, ?_⟩
      intro ht p q hpq hq hcl
      rcases h'.compl ht p q hpq (by omega) hcl with hB | ⟨h1, _⟩
      · exact hB
      · rw [hc] at h1; exact absurd h1 (by simp)
    · simp only [if_true]
      obtain ⟨hli, hx0, hka⟩ := h'.on hc
      refine ⟨L' ++ [(a', m + 2)], ?_, ?_, ?_, ?_, ?_⟩
      · simp [h'.groups, hli]
      · rw [List.pairwise_append]
        refine ⟨h'.pw, by simp, ?_⟩
        intro p hp q hq
        obtain rfl := List.mem_singleton.1 hq
        exact (h'.le p hp).2
      · intro p hp
        rcases List.mem_append.1 hp with hp | hp
        · have := h'.le p hp; omega
        · obtain rfl := List.mem_singleton.1 hp; simp; omega
      · intro p hp i j h1 h2 h3
        rcases List.mem_append.1 hp with hp | hp
        · exact h'.close p hp i j h1 h2 h3
        · obtain rfl := List.mem_singleton.1 hp
          simp only at h1 h3
          have e1 := hs.2.2.2 a' i h1 (by omega)
          have e2 := hs.2.2.2 j (m + 1) (by omega) (by omega)
          linarith
      · intro ht p q hpq hq hcl
        rcases h'.compl ht p q hpq (by omega) hcl with ⟨B, hB, hB'⟩ | ⟨h1, h2⟩
        · exact ⟨B, by simp [hB], hB'⟩
        · exact ⟨(a', m + 2), by simp, h2, by simpa using hq⟩

/-- The groups are disjoint, small, and under transitivity complete. -/
theorem findGroups_props (hs : IsArgsort x sort n) (hd : 0 < d) :
    (findGroups x sort n d).Pairwise List.Disjoint ∧
    (∀ g ∈ findGroups x sort n d, ∀ i ∈ g, ∀ j ∈ g, |x i - x j| < d) ∧
    (∀ g ∈ findGroups x sort n d, g.Nodup ∧ ∀ i ∈ g, i < n) ∧
    (CloseTrans x n d → ∀ i < n, ∀ j < n, i ≠ j → |x i - x j| < d →
      ∃ g ∈ findGroups x sort n d, i ∈ g ∧ j ∈ g) := by
  obtain ⟨L, hL, hpw, hle, hclose, hcompl⟩ := findGroups_spec x sort n d hs hd
  obtain ⟨hlt, hinj, hsurj, hmono⟩ := hs
  rw [hL]
  refine ⟨?_, ?_, ?_, ?_⟩
  · rw [List.pairwise_map]
    refine List.Pairwise.imp_of_mem ?_ hpw
    intro p q hp hq hpq k h1 h2
    obtain ⟨i, i1, i2, i3⟩ := (mem_blk sort).1 h1
    obtain ⟨j, j1, j2, j3⟩ := (mem_blk sort).1 h2
    have := hle p hp
    have := hle q hq
    have := hinj i (by omega) j (by omega) (i3.trans j3.symm)
    omega
  · intro g hg i hi j hj
    obtain ⟨p, hp, rfl⟩ := List.mem_map.1 hg
    obtain ⟨i', i1, i2, rfl⟩ := (mem_blk sort).1 hi
    obtain ⟨j', j1, j2, rfl⟩ := (mem_blk sort).1 hj
    have := hle p hp
    rcases Nat.le_total i' j' with h | h
    · have := hclose p hp i' j' i1 h j2
      have := hmono i' j' h (by omega)
      rw [abs_lt]; constructor <;> linarith
    · have := hclose p hp j' i' j1 h i2
      have := hmono j' i' h (by omega)
      rw [abs_lt]; constructor <;> linarith
  · intro g hg
    obtain ⟨p, hp, rfl⟩ := List.mem_map.1 hg
    have := hle p hp
    constructor
    · unfold blk
      apply List.Nodup.map_on _ (List.nodup_range' ..)
      intro i hi j hj hij
      rw [List.mem_range'_1] at hi hj
      exact hinj i (by omega) j (by omega) hij
    · intro i hi
      obtain ⟨i', i1, i2, rfl⟩ := (mem_blk sort).1 hi
      exact hlt _ (by omega)
  · intro ht i hi j hj hij hcl
    obtain ⟨p, hp, rfl⟩ := hsurj i hi
    obtain ⟨q, hq, rfl⟩ := hsurj j hj
    have key : ∀ p q, p < q → q < n → |x (sort p) - x (sort q)| < d →
        ∃ g ∈ L.map (blk sort), sort p ∈ g ∧ sort q ∈ g := by
      intro p q hpq hq hcl
      have := hmono p q hpq.le hq
      rw [abs_sub_comm, abs_of_nonneg (by linarith)] at hcl
      obtain ⟨B, hB, h1, h2⟩ := hcompl ht p q hpq hq hcl
      exact ⟨_, List.mem_map_of_mem hB, (mem_blk sort).2 ⟨p, h1, by omega, rfl⟩, (mem_blk sort).2 ⟨q, by omega, h2, rfl⟩⟩
    rcases Nat.lt_trichotomy p q with h | h | h
    · exact key p q h hq hcl
    · exact absurd (by rw [h]) hij
    · rw [abs_sub_comm] at hcl
      obtain ⟨g, hg, h1, h2⟩ := key q p h hp hcl
      exact ⟨g, hg, h2, h1⟩

end groups

/-! ## Merging -/

theorem mergeOne_nil (vs : ℕ → V) : mergeOne vs [] = vs := by simp [mergeOne]

theorem mergeOne_not_mem {vs : ℕ → V} {c : List ℕ} {i : ℕ} (h : i ∉ c) : mergeOne vs c i = vs i := by
  unfold mergeOne; split <;> simp [h]

theorem mergeOne_mem {vs : ℕ → V} {c : List ℕ} {i : ℕ} (h : i ∈ c) : mergeOne vs c i = meanOf vs c := by
  unfold mergeOne
  rw [if_neg (by rintro rfl; simp at h)]
  simp [h]

theorem meanOf_congr {vs ws : ℕ → V} {c : List ℕ} (h : ∀ i ∈ c, vs i = ws i) : meanOf vs c = meanOf ws c := by
  unfold meanOf
  rw [List.map_congr_left h]

theorem foldl_mergeOne (L : List (List ℕ)) (hL : L.Pairwise List.Disjoint) (vs : ℕ → V) (i : ℕ) :
    (∀ c ∈ L, i ∈ c → L.foldl mergeOne vs i = meanOf vs c) ∧
    ((∀ c ∈ L, i ∉ c) → L.foldl mergeOne vs i = vs i) := by
  induction L generalizing vs with
  | nil => simp
  | cons c L ih =>
    rw [List.pairwise_cons] at hL
    obtain ⟨h1, h2⟩ := ih hL.2 (mergeOne vs c)
    refine ⟨?_, ?_⟩
    · intro c' hc' hi
      rw [List.foldl_cons]
      rcases List.mem_cons.1 hc' with rfl | hc'
      · rw [h2 (fun c'' hc'' hi' => hL.1 c'' hc'' hi hi'), mergeOne_mem hi]
      · rw [h1 c' hc' hi]
        apply meanOf_congr
        intro k hk
        exact mergeOne_not_mem fun hk' => hL.1 c' hc' hk' hk
    · intro hno
      rw [List.foldl_cons, h2 (fun c' hc' => hno c' (by simp [hc'])), mergeOne_not_mem (hno c (by simp))]

/-- The list of intersections in the order of the triple loop. -/
def commons (gx gy gz : List (List ℕ)) : List (List ℕ) :=
  gx.flatMap fun ix => gy.flatMap fun iy => gz.map fun iz => (ix.filter (· ∈ iy)).filter (· ∈ iz)

theorem mergeAll_eq (gx gy gz : List (List ℕ)) (vs : ℕ → V) :
    mergeAll gx gy gz vs = (commons gx gy gz).foldl mergeOne vs := by
  unfold mergeAll commons
  rw [List.foldl_flatMap]
  congr 1
  funext vs ix
  rw [List.foldl_flatMap]
  congr 1
  funext vs iy
  rw [List.foldl_map]
  split_ifs with h
  · rw [h]
    simp only [List.filter_nil, mergeOne_nil]
    clear h
    induction gz with
    | nil => rfl
    | cons g gz ih => rw [List.foldl_cons, ← ih]
  · rfl

theorem mem_common {ix iy iz : List ℕ} {i : ℕ} :
    i ∈ (ix.filter (· ∈ iy)).filter (· ∈ iz) ↔ i ∈ ix ∧ i ∈ iy ∧ i ∈ iz := by
  simp only [List.mem_filter, decide_eq_true_eq]
  tauto

theorem commons_disjoint {gx gy gz : List (List ℕ)} (hx : gx.Pairwise List.Disjoint) (hy : gy.Pairwise List.Disjoint)
    (hz : gz.Pairwise List.Disjoint) : (commons gx gy gz).Pairwise List.Disjoint := by
  unfold commons
  rw [List.pairwise_flatMap]
  refine ⟨?_, ?_⟩
  · intro ix _
    rw [List.pairwise_flatMap]
    refine ⟨?_, ?_⟩
    · intro iy _
      rw [List.pairwise_map]
      refine hz.imp ?_
      intro a b hab k h1 h2
      exact hab (mem_common.1 h1).2.2 (mem_common.1 h2).2.2
    · refine hy.imp ?_
      intro a b hab c hc c' hc' k h1 h2
      obtain ⟨g, _, rfl⟩ := List.mem_map.1 hc
      obtain ⟨g', _, rfl⟩ := List.mem_map.1 hc'
      exact hab (mem_common.1 h1).2.1 (mem_common.1 h2).2.1
  · refine hx.imp ?_
    intro a b hab c hc c' hc' k h1 h2
    obtain ⟨y, _, hc⟩ := List.mem_flatMap.1 hc
    obtain ⟨y', _, hc'⟩ := List.mem_flatMap.1 hc'
    obtain ⟨g, _, rfl⟩ := List.mem_map.1 hc
    obtain ⟨g', _, rfl⟩ := List.mem_map.1 hc'
    exact hab (mem_common.1 h1).1 (mem_common.1 h2).1

theorem mem_commons {gx gy gz : List (List ℕ)} {c : List ℕ} :
    c ∈ commons gx gy gz ↔ ∃ ix ∈ gx, ∃ iy ∈ gy, ∃ iz ∈ gz, (ix.filter (· ∈ iy)).filter (· ∈ iz) = c := by
  simp [commons]

theorem meanOf_eq (vs : ℕ → V) (c : List ℕ) : meanOf vs c =
    ⟨(c.map fun i => (vs i).x).sum / c.length, (c.map fun i => (vs i).y).sum / c.length,
      (c.map fun i => (vs i).z).sum / c.length⟩ := by
  unfold meanOf
  rw [vecSum_eq]
  simp only [List.map_map]
  ext <;> simp [Function.comp_def, div_eq_mul_inv]

/-- A mean of a non-empty list with all entries above (below) a bound is above (below) it. -/
theorem mean_lt {c : List ℕ} (hc : c ≠ []) (f : ℕ → ℝ) (u : ℝ) (h : ∀ i ∈ c, f i < u) :
    (c.map f).sum / c.length < u := by
  have hpos : (0 : ℝ) < c.length := by exact_mod_cast List.length_pos_iff.2 hc
  rw [div_lt_iff₀ hpos]
  have := List.sum_lt_sum_of_ne_nil hc f (fun _ => u) h
  simpa [mul_comm] using this

theorem mean_le {c : List ℕ} (hc : c ≠ []) (f : ℕ → ℝ) (u : ℝ) (h : ∀ i ∈ c, f i ≤ u) :
    (c.map f).sum / c.length ≤ u := by
  have hpos : (0 : ℝ) < c.length := by exact_mod_cast List.length_pos_iff.2 hc
  rw [div_le_iff₀ hpos]
  have := List.sum_le_sum (l := c) (f := f) (g := fun _ => u) h
  simpa [mul_comm] using this

theorem mean_gt {c : List ℕ} (hc : c ≠ []) (f : ℕ → ℝ) (u : ℝ) (h : ∀ i ∈ c, u < f i) :
    u < (c.map f).sum / c.length := by
  have hpos : (0 : ℝ) < c.length := by exact_mod_cast List.length_pos_iff.2 hc
  rw [lt_div_iff₀ hpos]
  have := List.sum_lt_sum_of_ne_nil hc (fun _ => u) f h
  simpa [mul_comm] using this

theorem mean_ge {c : List ℕ} (hc : c ≠ []) (f : ℕ → ℝ) (u : ℝ) (h : ∀ i ∈ c, u ≤ f i) :
    u ≤ (c.map f).sum / c.length := by
  have hpos : (0 : ℝ) < c.length := by exact_mod_cast List.length_pos_iff.2 hc
  rw [le_div_iff₀ hpos]
  have := List.sum_le_sum (l := c) (f := fun _ => u) (g := f) h
  simpa [mul_comm] using this

theorem mean_near {c : List ℕ} (hc : c ≠ []) (f : ℕ → ℝ) (u d : ℝ) (h : ∀ i ∈ c, |f i - u| < d) :
    |(c.map f).sum / c.length - u| < d := by
  have h1 := mean_lt hc f (u + d) fun i hi => by have := (abs_lt.1 (h i hi)).2; linarith
  have h2 := mean_gt hc f (u - d) fun i hi => by have := (abs_lt.1 (h i hi)).1; linarith
  rw [abs_lt]; constructor <;> linarith

section repair
variable (n : ℕ) (vs : ℕ → V) (sx sy sz : ℕ → ℕ) (d : ℝ)

/-- Either a vertex is untouched or it is replaced by the mean of a set of vertices pairwise close in each coordinate. -/
theorem repair_cases (hx : IsArgsort (fun i => (vs i).x) sx n) (hy : IsArgsort (fun i => (vs i).y) sy n)
    (hz : IsArgsort (fun i => (vs i).z) sz n) (hd : 0 < d) (i : ℕ) :
    ∃ c : List ℕ, i ∈ c ∧ (∀ j ∈ c, j = i ∨ (i < n ∧ j < n)) ∧
      (∀ j ∈ c, |(vs j).x - (vs i).x| < d ∧ |(vs j).y - (vs i).y| < d ∧ |(vs j).z - (vs i).z| < d) ∧
      repairVectors n vs sx sy sz d i = meanOf vs c := by
  obtain ⟨dx, cx, nx, -⟩ := findGroups_props _ sx n d hx hd
  obtain ⟨dy, cy, ny, -⟩ := findGroups_props _ sy n d hy hd
  obtain ⟨dz, cz, nz, -⟩ := findGroups_props _ sz n d hz hd
  unfold repairVectors
  rw [mergeAll_eq]
  obtain ⟨h1, h2⟩ := foldl_mergeOne _ (commons_disjoint dx dy dz) vs i
  by_cases h : ∃ c ∈ commons (findGroups (fun i => (vs i).x) sx n d) (findGroups (fun i => (vs i).y) sy n d)
    (findGroups (fun i => (vs i).z) sz n d), i ∈ c
  · obtain ⟨c, hc, hi⟩ := h
    refine ⟨c, hi, ?_, ?_, h1 c hc hi⟩ <;>
    · obtain ⟨ix, hix, iy, hiy, iz, hiz, rfl⟩ := mem_commons.1 hc
      intro j hj
      have hi' := mem_common.1 hi
      have hj' := mem_common.1 hj
      first
        | exact Or.inr ⟨(nx ix hix).2 _ hi'.1, (nx ix hix).2 _ hj'.1⟩
        | exact ⟨cx ix hix j hj'.1 i hi'.1, cy iy hiy j hj'.2.1 i hi'.2.1, cz iz hiz j hj'.2.2 i hi'.2.2⟩
  · refine ⟨[i], by simp, by simp, by simp [hd], ?_⟩
    rw [h2 (fun c hc hi => h ⟨c, hc, hi⟩), meanOf_eq]
    simp

/-- Under transitivity, vertices close in all coordinates are replaced by the same value. -/
theorem repair_merge (hx : IsArgsort (fun i => (vs i).x) sx n) (hy : IsArgsort (fun i => (vs i).y) sy n)
    (hz : IsArgsort (fun i => (vs i).z) sz n) (hd : 0 < d) (tx : CloseTrans (fun i => (vs i).x) n d)
    (ty : CloseTrans (fun i => (vs i).y) n d) (tz : CloseTrans (fun i => (vs i).z) n d) (i j : ℕ) (hi : i < n)
    (hj : j < n) (cx : |(vs i).x - (vs j).x| < d) (cy : |(vs i).y - (vs j).y| < d) (cz : |(vs i).z - (vs j).z| < d) :
    repairVectors n vs sx sy sz d i = repairVectors n vs sx sy sz d j := by
  rcases eq_or_ne i j with rfl | hij
  · rfl
  obtain ⟨dx, -, nx, mx⟩ := findGroups_props _ sx n d hx hd
  obtain ⟨dy, -, ny, my⟩ := findGroups_props _ sy n d hy hd
  obtain ⟨dz, -, nz, mz⟩ := findGroups_props _ sz n d hz hd
  obtain ⟨gx, hgx, ix, jx⟩ := mx tx i hi j hj hij cx
  obtain ⟨gy, hgy, iy, jy⟩ := my ty i hi j hj hij cy
  obtain ⟨gz, hgz, iz, jz⟩ := mz tz i hi j hj hij cz
  unfold repairVectors
  rw [mergeAll_eq]
  have hc := mem_commons.2 ⟨gx, hgx, gy, hgy, gz, hgz, rfl⟩
  rw [(foldl_mergeOne _ (commons_disjoint dx dy dz) vs i).1 _ hc (mem_common.2 ⟨ix, iy, iz⟩),
    (foldl_mergeOne _ (commons_disjoint dx dy dz) vs j).1 _ hc (mem_common.2 ⟨jx, jy, jz⟩)]

/-- Means over two clusters are as far apart as the clusters. -/
theorem mean_apart (x : ℕ → ℝ) (ht : CloseTrans x n d) (hd : 0 < d) (i j : ℕ) (hi : i < n) (hj : j < n)
    (c c' : List ℕ) (hic : i ∈ c) (hjc : j ∈ c') (hc : ∀ k ∈ c, k < n ∧ |x k - x i| < d)
    (hc' : ∀ k ∈ c', k < n ∧ |x k - x j| < d) (hne : ¬ |x i - x j| < d) :
    ¬ |(c.map x).sum / c.length - (c'.map x).sum / c'.length| < d := by
  have key : ∀ i j, i < n → j < n → ∀ c c' : List ℕ, i ∈ c → j ∈ c' → (∀ k ∈ c, k < n ∧ |x k - x i| < d) →
      (∀ k ∈ c', k < n ∧ |x k - x j| < d) → x i + d ≤ x j →
      (c.map x).sum / c.length + d ≤ (c'.map x).sum / c'.length := by
    intro i j hi hj c c' hic hjc hc hc' hij
    have hno : ¬ |x i - x j| < d := by rw [abs_lt]; push Not; intro h; linarith
    have hnc : c ≠ [] := by rintro rfl; simp at hic
    have hnc' : c' ≠ [] := by rintro rfl; simp at hjc
    have hab : ∀ a ∈ c, ∀ b ∈ c', x a + d ≤ x b := by
      intro a ha b hb
      obtain ⟨han, ha⟩ := hc a ha
      obtain ⟨hbn, hb⟩ := hc' b hb
      have hnab : ¬ |x a - x b| < d := by
        intro h
        have h1 := ht i hi a han b hbn (by rwa [abs_sub_comm]) h
        exact hno (ht i hi b hbn j hj h1 hb)
      have hle : x a ≤ x b := by
        by_contra hlt
        push Not at hlt
        rcases le_total (x i) (x b) with h | h
        · have h1 : |x i - x b| < d := by
            rw [abs_lt] at ha ⊢
            constructor <;> linarith [ha.1, ha.2]
          exact hno (ht i hi b hbn j hj h1 hb)
        · have h1 : |x i - x b| < d := by
            rw [abs_lt] at hb ⊢
            constructor <;> linarith [hb.1, hb.2]
          exact hno (ht i hi b hbn j hj h1 hb)
      by_contra hlt
      push Not at hlt
      apply hnab
      rw [abs_lt]
      constructor <;> linarith
    apply mean_ge hnc'
    intro b hb
    have := mean_le hnc x (x b - d) fun a ha => by linarith [hab a ha b hb]
    linarith
  rcases le_total (x i) (x j) with h | h
  · have hij : x i + d ≤ x j := by
      by_contra hlt
      push Not at hlt
      apply hne; rw [abs_lt]; constructor <;> linarith
    have := key i j hi hj c c' hic hjc hc hc' hij
    rw [abs_lt]; push Not; intro _; linarith
  · have hij : x j + d ≤ x i := by
      by_contra hlt
      push Not at hlt
      apply hne; rw [abs_lt]; constructor <;> linarith
    have := key j i hj hi c' c hjc hic hc' hc hij
    rw [abs_lt]; push Not; intro _; linarith

end repair

/-! ## The claims -/

/-- Specification: the corners of a mesh in the order `v0` of all triangles, then `v1`, then `v2`. -/
def Spec.corners (m : TriMesh ℝ) (i : ℕ) : V :=
  (m.map Tri.v0 ++ m.map Tri.v1 ++ m.map Tri.v2).getD i ⟨0, 0, 0⟩

/-- Specification: `sx sy sz` are results of argsort on the three coordinates of the corners. -/
def Spec.Argsorts (m : TriMesh ℝ) (sx sy sz : ℕ → ℕ) : Prop :=
  IsArgsort (fun i => (corners m i).x) sx (3 * m.length) ∧ IsArgsort (fun i => (corners m i).y) sy (3 * m.length) ∧
    IsArgsort (fun i => (corners m i).z) sz (3 * m.length)

theorem stlRepair_corner (m : StlMesh) (sx sy sz : ℕ → ℕ) (d : ℝ) (i : ℕ) (hi : i < 3 * m.tris.length) :
    corners (stlRepair m sx sy sz d).tris i = repairVectors (3 * m.tris.length) (corners m.tris) sx sy sz d i := by
  have hout : ∀ k, repairVectors (3 * m.tris.length) (corners m.tris) sx sy sz d k =
    repairVectors (3 * m.tris.length) (fun i => (m.tris.map Tri.v0 ++ m.tris.map Tri.v1 ++ m.tris.map Tri.v2).getD i
      ⟨0, 0, 0⟩) sx sy sz d k := fun k => rfl
  rw [hout]
  unfold stlRepair
  simp only
  generalize repairVectors (3 * m.tris.length) (fun i => (m.tris.map Tri.v0 ++ m.tris.map Tri.v1 ++
    m.tris.map Tri.v2).getD i ⟨0, 0, 0⟩) sx sy sz d = out
  generalize m.tris.length = N at *
  unfold corners
  simp only [List.map_map, Function.comp_def]
  rw [List.getD_eq_getElem?_getD]
  rcases Nat.lt_or_ge i N with h1 | h1
  · rw [List.append_assoc, List.getElem?_append_left (by simpa using h1)]
    simp [h1]
  · rcases Nat.lt_or_ge i (2 * N) with h2 | h2
    · rw [List.getElem?_append_left (by simp; omega), List.getElem?_append_right (by simpa using h1)]
      rw [List.getElem?_eq_getElem (by simp; omega)]
      simp
      congr 1
      omega
    · rw [List.getElem?_append_right (by simp; omega)]
      rw [List.getElem?_eq_getElem (by simp; omega)]
      simp
      congr 1
      omega

/-- C47: `stl_repair` keeps the number of triangles and their corner slots, and moves every coordinate of every corner by
less than `small_distance`. -/
theorem C47_small_moves (m : StlMesh) (sx sy sz : ℕ → ℕ) (d : ℝ) (hd : 0 < d) (hs : Argsorts m.tris sx sy sz) :
    (stlRepair m sx sy sz d).tris.length = m.tris.length ∧
    ∀ i < 3 * m.tris.length,
      |(corners (stlRepair m sx sy sz d).tris i).x - (corners m.tris i).x| < d ∧
      |(corners (stlRepair m sx sy sz d).tris i).y - (corners m.tris i).y| < d ∧
      |(corners (stlRepair m sx sy sz d).tris i).z - (corners m.tris i).z| < d := by
  refine ⟨by simp [stlRepair], fun i hi => ?_⟩
  obtain ⟨hx, hy, hz⟩ := hs
  rw [stlRepair_corner m sx sy sz d i hi]
  obtain ⟨c, hic, -, hc, he⟩ := repair_cases _ (corners m.tris) sx sy sz d hx hy hz hd i
  have hne : c ≠ [] := by rintro rfl; simp at hic
  rw [he, meanOf_eq]
  exact ⟨mean_near hne _ _ _ fun j hj => (hc j hj).1, mean_near hne _ _ _ fun j hj => (hc j hj).2.1,
    mean_near hne _ _ _ fun j hj => (hc j hj).2.2⟩

/-- C47: an isolated corner is not moved at all: if no other corner is within `small_distance` in all three
coordinates, the corner keeps its value. -/
theorem C47_isolated (m : StlMesh) (sx sy sz : ℕ → ℕ) (d : ℝ) (hd : 0 < d) (hs : Argsorts m.tris sx sy sz) (i : ℕ)
    (hi : i < 3 * m.tris.length)
    (hiso : ∀ j < 3 * m.tris.length, |(corners m.tris j).x - (corners m.tris i).x| < d →
      |(corners m.tris j).y - (corners m.tris i).y| < d → |(corners m.tris j).z - (corners m.tris i).z| < d →
      corners m.tris j = corners m.tris i) :
    corners (stlRepair m sx sy sz d).tris i = corners m.tris i := by
  obtain ⟨hx, hy, hz⟩ := hs
  rw [stlRepair_corner m sx sy sz d i hi]
  obtain ⟨c, hic, hcn, hc, he⟩ := repair_cases _ (corners m.tris) sx sy sz d hx hy hz hd i
  have hne : c ≠ [] := by rintro rfl; simp at hic
  have heq : ∀ j ∈ c, corners m.tris j = corners m.tris i := by
    intro j hj
    rcases hcn j hj with rfl | ⟨_, hj'⟩
    · rfl
    · exact hiso j hj' (hc j hj).1 (hc j hj).2.1 (hc j hj).2.2
  rw [he, meanOf_eq]
  have hm : ∀ f : V → ℝ, (c.map fun j => f (corners m.tris j)).sum / c.length = f (corners m.tris i) := by
    intro f
    apply le_antisymm
    · exact mean_le hne _ _ fun j hj => by rw [heq j hj]
    · exact mean_ge hne _ _ fun j hj => by rw [heq j hj]
  rw [hm Vec.x, hm Vec.y, hm Vec.z]

/-- C48 for well separated clusters: after `stl_repair` any two corners that differ by less than `small_distance` in all
coordinates, before or after the repair, coincide.  Missing: chains of points, for which the property fails. -/
theorem C48_partial (m : StlMesh) (sx sy sz : ℕ → ℕ) (d : ℝ) (hd : 0 < d) (hs : Argsorts m.tris sx sy sz)
    (tx : CloseTrans (fun i => (corners m.tris i).x) (3 * m.tris.length) d)
    (ty : CloseTrans (fun i => (corners m.tris i).y) (3 * m.tris.length) d)
    (tz : CloseTrans (fun i => (corners m.tris i).z) (3 * m.tris.length) d) (i j : ℕ) (hi : i < 3 * m.tris.length)
    (hj : j < 3 * m.tris.length) :
    let p := corners m.tris
    let q := corners (stlRepair m sx sy sz d).tris
    ((|(p i).x - (p j).x| < d ∧ |(p i).y - (p j).y| < d ∧ |(p i).z - (p j).z| < d) → q i = q j) ∧
    ((|(q i).x - (q j).x| < d ∧ |(q i).y - (q j).y| < d ∧ |(q i).z - (q j).z| < d) → q i = q j) := by
  obtain ⟨hx, hy, hz⟩ := hs
  intro p q
  have first : (|(p i).x - (p j).x| < d ∧ |(p i).y - (p j).y| < d ∧ |(p i).z - (p j).z| < d) → q i = q j := by
    rintro ⟨h1, h2, h3⟩
    simp only [q]
    rw [stlRepair_corner m sx sy sz d i hi, stlRepair_corner m sx sy sz d j hj]
    exact repair_merge _ _ sx sy sz d hx hy hz hd tx ty tz i j hi hj h1 h2 h3
  refine ⟨first, ?_⟩
  rintro ⟨h1, h2, h3⟩
  apply first
  simp only [q] at h1 h2 h3
  rw [stlRepair_corner m sx sy sz d i hi, stlRepair_corner m sx sy sz d j hj] at h1 h2 h3
  obtain ⟨c, hic, hcn, hc, he⟩ := repair_cases _ (corners m.tris) sx sy sz d hx hy hz hd i
  obtain ⟨c', hjc, hcn', hc', he'⟩ := repair_cases _ (corners m.tris) sx sy sz d hx hy hz hd j
  rw [he, he', meanOf_eq, meanOf_eq] at h1 h2 h3
  have b : ∀ k ∈ c, k < 3 * m.tris.length := by
    intro k hk; rcases hcn k hk with rfl | h
    · exact hi
    · exact h.2
  have b' : ∀ k ∈ c', k < 3 * m.tris.length := by
    intro k hk; rcases hcn' k hk with rfl | h
    · exact hj
    · exact h.2
  refine ⟨?_, ?_, ?_⟩
  · by_contra hno
    exact mean_apart _ d _ tx hd i j hi hj c c' hic hjc (fun k hk => ⟨b k hk, (hc k hk).1⟩)
      (fun k hk => ⟨b' k hk, (hc' k hk).1⟩) hno h1
  · by_contra hno
    exact mean_apart _ d _ ty hd i j hi hj c c' hic hjc (fun k hk => ⟨b k hk, (hc k hk).2.1⟩)
      (fun k hk => ⟨b' k hk, (hc' k hk).2.1⟩) hno h2
  · by_contra hno
    exact mean_apart _ d _ tz hd i j hi hj c c' hic hjc (fun k hk => ⟨b k hk, (hc k hk).2.2⟩)
      (fun k hk => ⟨b' k hk, (hc' k hk).2.2⟩) hno h3

theorem lt_three {i : ℕ} (h : i < 3) : i = 0 ∨ i = 1 ∨ i = 2 := by omega

/-- Witness for C47 and C48: a triangle with two close corners; the corners are already sorted. -/
example : let m : TriMesh ℝ := [⟨⟨0, 0, 0⟩, ⟨1 / 2, 0, 0⟩, ⟨5, 7, 9⟩⟩]
    Argsorts m id id id ∧ CloseTrans (fun i => (corners m i).x) 3 1 ∧ CloseTrans (fun i => (corners m i).y) 3 1 ∧
      CloseTrans (fun i => (corners m i).z) 3 1 := by
  intro m
  have h0 : corners m 0 = ⟨0, 0, 0⟩ := rfl
  have h1 : corners m 1 = ⟨1 / 2, 0, 0⟩ := rfl
  have h2 : corners m 2 = ⟨5, 7, 9⟩ := rfl
  have hl : 3 * m.length = 3 := rfl
  refine ⟨?_, ?_, ?_, ?_⟩
  · unfold Argsorts
    rw [hl]
    refine ⟨?_, ?_, ?_⟩ <;>
    · refine ⟨fun i hi => hi, fun i _ j _ h => h, fun k hk => ⟨k, hk, rfl⟩, ?_⟩
      intro i j hij hj
      obtain rfl | rfl | rfl := lt_three hj <;> obtain rfl | rfl | rfl := lt_three (lt_of_le_of_lt hij hj) <;>
        first | omega | (simp only [id, h0, h1, h2]; norm_num)
  all_goals
    intro i hi j hj k hk
    obtain rfl | rfl | rfl := lt_three hi <;> obtain rfl | rfl | rfl := lt_three hj <;>
      obtain rfl | rfl | rfl := lt_three hk <;> simp only [h0, h1, h2] <;> norm_num [abs_lt]

/-- C48, violated: a chain of three corners 0.6 apart with `small_distance = 1`.  The first two are merged, the third
stays 0.9 away from them. -/
theorem C48_violated : ∃ (m : StlMesh) (d : ℝ) (i j : ℕ), 0 < d ∧ i < 3 * m.tris.length ∧ j < 3 * m.tris.length ∧
    Argsorts m.tris id id id ∧
    let p := corners m.tris
    let q := corners (stlRepair m id id id d).tris
    (|(p i).x - (p j).x| < d ∧ |(p i).y - (p j).y| < d ∧ |(p i).z - (p j).z| < d) ∧
    (|(q i).x - (q j).x| < d ∧ |(q i).y - (q j).y| < d ∧ |(q i).z - (q j).z| < d) ∧ q i ≠ q j := by
  classical
  set m : StlMesh := StlMesh.ofTris [⟨⟨0, 0, 0⟩, ⟨3 / 5, 0, 0⟩, ⟨6 / 5, 1 / 10, 0⟩⟩] with hm
  have h0 : corners m.tris 0 = ⟨0, 0, 0⟩ := rfl
  have h1 : corners m.tris 1 = ⟨3 / 5, 0, 0⟩ := rfl
  have h2 : corners m.tris 2 = ⟨6 / 5, 1 / 10, 0⟩ := rfl
  have hl : 3 * m.tris.length = 3 := rfl
  have gx : findGroups (fun i => (corners m.tris i).x) id 3 1 = [[0, 1]] := by
    unfold findGroups
    simp only [show 3 - 1 = 2 from rfl, List.range_succ, List.range_zero, List.nil_append, List.cons_append,
      List.foldl_cons, List.foldl_nil, groupStep, id, h0, h1, h2]
    norm_num [abs_lt]
  have gy : findGroups (fun i => (corners m.tris i).y) id 3 1 = [[0, 1, 2]] := by
    unfold findGroups
    simp only [show 3 - 1 = 2 from rfl, List.range_succ, List.range_zero, List.nil_append, List.cons_append,
      List.foldl_cons, List.foldl_nil, groupStep, id, h0, h1, h2]
    norm_num [abs_lt]
  have gz : findGroups (fun i => (corners m.tris i).z) id 3 1 = [[0, 1, 2]] := by
    unfold findGroups
    simp only [show 3 - 1 = 2 from rfl, List.range_succ, List.range_zero, List.nil_append, List.cons_append,
      List.foldl_cons, List.foldl_nil, groupStep, id, h0, h1, h2]
    norm_num [abs_lt]
  have q1 : corners (stlRepair m id id id 1).tris 1 = ⟨3 / 10, 0, 0⟩ := by
    rw [stlRepair_corner m id id id 1 1 (by rw [hl]; norm_num), hl]
    unfold repairVectors
    rw [gx, gy, gz]
    simp [mergeAll, mergeOne, meanOf, vecSum, h0, h1]
    ext <;> simp <;> norm_num
  have q2 : corners (stlRepair m id id id 1).tris 2 = ⟨6 / 5, 1 / 10, 0⟩ := by
    rw [stlRepair_corner m id id id 1 2 (by rw [hl]; norm_num), hl]
    unfold repairVectors
    rw [gx, gy, gz]
    simp [mergeAll, mergeOne, h2]
  refine ⟨m, 1, 1, 2, one_pos, by rw [hl]; norm_num, by rw [hl]; norm_num, ?_, ?_⟩
  · unfold Argsorts
    rw [show 3 * m.tris.length = 3 from rfl]
    refine ⟨?_, ?_, ?_⟩ <;>
    · refine ⟨fun i hi => hi, fun i _ j _ h => h, fun k hk => ⟨k, hk, rfl⟩, ?_⟩
      intro i j hij hj
      obtain rfl | rfl | rfl := lt_three hj <;> obtain rfl | rfl | rfl := lt_three (lt_of_le_of_lt hij hj) <;>
        first | omega | (simp only [id, h0, h1, h2]; norm_num)
  · simp only [q1, q2, h1, h2]
    refine ⟨by norm_num [abs_lt], by norm_num [abs_lt], ?_⟩
    intro h
    have := congrArg Vec.x h
    norm_num at this

end HV
