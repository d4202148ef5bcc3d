import Verif.Model.Geometry
import Verif.Lemmas.Vec
import Verif.Props.Roberts

/-!
# Properties C30, C31, C32: swept patches and surface perimeters
-/

namespace HV

open Spec

/-! ## C30 -/

theorem linspace01_getElem {n i : ℕ} (h : i < (linspace01 n).length) :
    (linspace01 n)[i] = (i : ℝ) / ((n : ℝ) - 1) := by simp [linspace01]

theorem getIdx_eq {α : Type} {l : List α} {i : ℕ} (h : i < l.length) : SweptPatch.getIdx l i = .ok l[i] := by
  simp [SweptPatch.getIdx, List.getElem?_eq_getElem h]

/-- C30: at `r = i/(n-1)` the patch is edge `i` (whatever that edge does, also when it raises). -/
theorem C30_on_edges (edges : List PathObj) (i : ℕ) (hi : i < edges.length) (h2 : 2 ≤ edges.length) (s : ℝ) :
    SweptPatchfromEdges edges ((i : ℝ) / ((edges.length : ℝ) - 1)) s = (edges[i]).call s := by
  have hn : (0 : ℝ) < (edges.length : ℝ) - 1 := by
    have : (2 : ℝ) ≤ edges.length := by exact_mod_cast h2
    linarith
  have hf : (linspace01 edges.length).findIdx? (fun q => decide (q = (i : ℝ) / ((edges.length : ℝ) - 1)))
      = some i := by
    rw [List.findIdx?_eq_some_iff_getElem]
    refine ⟨by rw [linspace01_length]; exact hi, by simp [linspace01_getElem], ?_⟩
    intro j hj
    rw [linspace01_getElem]
    simp only [decide_eq_true_eq]
    rw [div_left_inj' hn.ne']
    exact_mod_cast hj.ne
  simp only [SweptPatchfromEdges, hf, getIdx_eq hi, bind, Except.bind]

/-- C30: between two edges the patch is the straight blend of the two edge points. -/
theorem C30_between (edges : List PathObj) (i : ℕ) (hi : i + 1 < edges.length) (α : ℝ) (h0 : 0 ≤ α) (h1 : α ≤ 1)
    (s : ℝ) (a b : V) (ha : (edges[i]).call s = .ok a) (hb : (edges[i + 1]).call s = .ok b) :
    ∃ q, SweptPatchfromEdges edges (((i : ℝ) + α) / ((edges.length : ℝ) - 1)) s = .ok q ∧
      toE q = (1 - α) • toE a + α • toE b := by
  have hn : (0 : ℝ) < (edges.length : ℝ) - 1 := by
    have : ((i + 2 : ℕ) : ℝ) ≤ edges.length := by exact_mod_cast hi
    push_cast at this
    have : (0 : ℝ) ≤ i := by positivity
    linarith
  rcases h0.eq_or_lt with rfl | h0
  · refine ⟨a, ?_, by simp⟩
    rw [add_zero, C30_on_edges edges i (by omega) (by omega), ha]
  rcases h1.eq_or_lt with rfl | h1
  · refine ⟨b, ?_, by simp⟩
    have := C30_on_edges edges (i + 1) (by omega) (by omega) s
    push_cast at this
    rw [this, hb]
  refine ⟨a * (1 - α) + b * α, ?_, by rw [Vec.toE_add, Vec.toE_mul, Vec.toE_mul]⟩
  have hf : (linspace01 edges.length).findIdx?
      (fun q => decide (q = ((i : ℝ) + α) / ((edges.length : ℝ) - 1))) = none := by
    rw [List.findIdx?_eq_none_iff]
    intro x hx
    simp only [linspace01, List.mem_map, List.mem_range] at hx
    obtain ⟨j, -, rfl⟩ := hx
    simp only [decide_eq_false_iff_not]
    rw [div_left_inj' hn.ne']
    intro h
    rcases Nat.lt_or_ge i j with hij | hij
    · have : (i : ℝ) + 1 ≤ j := by exact_mod_cast hij
      linarith
    · have : (j : ℝ) ≤ i := by exact_mod_cast hij
      linarith
  have hg : (linspace01 edges.length).findIdx?
      (fun q => decide (q > ((i : ℝ) + α) / ((edges.length : ℝ) - 1))) = some (i + 1) := by
    rw [List.findIdx?_eq_some_iff_getElem]
    refine ⟨by rw [linspace01_length]; exact hi, ?_, ?_⟩
    · rw [linspace01_getElem]
      simp only [decide_eq_true_eq, gt_iff_lt]
      rw [div_lt_div_iff_of_pos_right hn]
      push_cast; linarith
    · intro j hj
      rw [linspace01_getElem]
      simp only [decide_eq_true_eq, gt_iff_lt, not_lt]
      rw [div_le_div_iff_of_pos_right hn]
      have : (j : ℝ) ≤ i := by exact_mod_cast (by omega : j ≤ i)
      linarith
  have hl1 : i + 1 < (linspace01 edges.length).length := by rw [linspace01_length]; exact hi
  have hl0 : i < (linspace01 edges.length).length := by omega
  have hd : ((i + 1 : ℕ) : ℝ) / ((edges.length : ℝ) - 1) - (i : ℝ) / ((edges.length : ℝ) - 1)
      = 1 / ((edges.length : ℝ) - 1) := by
    push_cast; rw [← sub_div]; ring
  have hd' : ((i : ℝ) + α) / ((edges.length : ℝ) - 1) - (i : ℝ) / ((edges.length : ℝ) - 1)
      = α / ((edges.length : ℝ) - 1) := by
    rw [← sub_div]; ring
  have hpd : pdiv (α / ((edges.length : ℝ) - 1)) (1 / ((edges.length : ℝ) - 1)) = .ok α := by
    unfold pdiv
    rw [if_neg (by positivity)]
    congr 1
    field_simp
  simp only [SweptPatchfromEdges, hf, hg, Nat.add_one_ne_zero, if_false, Nat.add_sub_cancel, getIdx_eq hi,
    getIdx_eq (show i < edges.length by omega), getIdx_eq hl1, getIdx_eq hl0, linspace01_getElem, ha, hb, bind,
    Except.bind, pure, Except.pure, hd, hd', hpd]

/-- C30: every `r` in `[0,1]` is an edge or between two edges, so evaluation succeeds whenever the edges
evaluate; `r > 1` raises `IndexError`. -/
theorem C30_total (edges : List PathObj) (h2 : 2 ≤ edges.length) (r s : ℝ) :
    (0 ≤ r → r ≤ 1 → (∀ e ∈ edges, ∃ p, e.call s = .ok p) → ∃ q, SweptPatchfromEdges edges r s = .ok q) ∧
    (1 < r → SweptPatchfromEdges edges r s = .error .index) := by
  have hn : (0 : ℝ) < (edges.length : ℝ) - 1 := by
    have : (2 : ℝ) ≤ edges.length := by exact_mod_cast h2
    linarith
  constructor
  · intro h0 h1 he
    have hx0 : 0 ≤ r * ((edges.length : ℝ) - 1) := by positivity
    set x := r * ((edges.length : ℝ) - 1) with hx
    have hr : r = x / ((edges.length : ℝ) - 1) := by rw [hx]; field_simp
    have hxn : x ≤ (edges.length : ℝ) - 1 := by rw [hx]; nlinarith
    rcases Nat.lt_or_ge (⌊x⌋₊ + 1) edges.length with hlt | hge
    · obtain ⟨a, ha⟩ := he _ (List.getElem_mem (show ⌊x⌋₊ < edges.length by omega))
      obtain ⟨b, hb⟩ := he _ (List.getElem_mem hlt)
      obtain ⟨q, hq, -⟩ := C30_between edges ⌊x⌋₊ hlt (x - ⌊x⌋₊) (sub_nonneg.2 (Nat.floor_le hx0))
        (by linarith [Nat.lt_floor_add_one x]) s a b ha hb
      rw [add_sub_cancel, ← hr] at hq
      exact ⟨q, hq⟩
    · have hfl : (⌊x⌋₊ : ℝ) ≤ x := Nat.floor_le hx0
      have hge' : (edges.length : ℝ) ≤ (⌊x⌋₊ : ℝ) + 1 := by exact_mod_cast hge
      have hxe : x = ((edges.length - 1 : ℕ) : ℝ) := by
        rw [Nat.cast_sub (by omega)]; push_cast; linarith
      obtain ⟨a, ha⟩ := he _ (List.getElem_mem (show edges.length - 1 < edges.length by omega))
      exact ⟨a, by rw [hr, hxe, C30_on_edges edges _ (by omega) h2, ha]⟩
  · intro h1
    have hle : ∀ x ∈ linspace01 edges.length, x ≤ 1 := by
      intro x hx
      simp only [linspace01, List.mem_map, List.mem_range] at hx
      obtain ⟨j, hj, rfl⟩ := hx
      rw [div_le_one hn]
      have : ((j + 1 : ℕ) : ℝ) ≤ edges.length := by exact_mod_cast hj
      push_cast at this; linarith
    have hf : (linspace01 edges.length).findIdx? (fun q => decide (q = r)) = none := by
      rw [List.findIdx?_eq_none_iff]
      intro x hx
      simp only [decide_eq_false_iff_not]
      have := hle x hx
      linarith
    have hg : (linspace01 edges.length).findIdx? (fun q => decide (q > r)) = none := by
      rw [List.findIdx?_eq_none_iff]
      intro x hx
      simp only [decide_eq_false_iff_not]
      have := hle x hx
      linarith
    simp only [SweptPatchfromEdges, hf, hg]

/-- Three straight edges: a quarter of the way is the middle of the first two. -/
example : ∃ q, SweptPatchfromEdges [Line ⟨0, 0, 0⟩ ⟨0, 1, 0⟩, Line ⟨1, 0, 0⟩ ⟨1, 1, 0⟩, Line ⟨1, 0, 5⟩ ⟨1, 1, 5⟩]
    (1 / 4) 0 = .ok q ∧ toE q = (1 - 1 / 2 : ℝ) • toE ⟨0, 0, 0⟩ + (1 / 2 : ℝ) • toE ⟨1, 0, 0⟩ := by
  obtain ⟨q, h, h'⟩ := C30_between [Line ⟨0, 0, 0⟩ ⟨0, 1, 0⟩, Line ⟨1, 0, 0⟩ ⟨1, 1, 0⟩, Line ⟨1, 0, 5⟩ ⟨1, 1, 5⟩] 0
    (by simp) (1 / 2) (by norm_num) (by norm_num) 0 ⟨0, 0, 0⟩ ⟨1, 0, 0⟩
    (by simp only [List.getElem_cons_zero, Line, lineAt, Except.ok.injEq]; ext <;> simp)
    (by simp only [List.getElem_cons_zero, List.getElem_cons_succ, Line, lineAt, Except.ok.injEq]; ext <;> simp)
  refine ⟨q, ?_, h'⟩
  rw [← h]
  congr 1
  norm_num

/-! ## C32 -/

namespace Spec

/-- Rounding to eight decimals: moves a number by at most half a unit of the last place, is monotone and
keeps numbers with eight decimals. -/
structure IsRound8 (rnd : ℝ → ℝ) : Prop where
  close : ∀ x, |rnd x - x| ≤ 1 / (2 * 10 ^ 8)
  mono : Monotone rnd
  fix : ∀ n : ℤ, rnd (n / 10 ^ 8) = n / 10 ^ 8

/-- The walk once around the unit square, counter-clockwise from the origin, at constant speed. -/
noncomputable def squareWalk (t : ℝ) : ℝ × ℝ :=
  if t ≤ 1 / 4 then (4 * t, 0) else if t ≤ 1 / 2 then (1, 4 * t - 1)
  else if t ≤ 3 / 4 then (3 - 4 * t, 1) else (0, 4 - 4 * t)

/-- The boundary of the unit square. -/
def OnSquare (u v : ℝ) : Prop :=
  0 ≤ u ∧ u ≤ 1 ∧ 0 ≤ v ∧ v ≤ 1 ∧ (u = 0 ∨ u = 1 ∨ v = 0 ∨ v = 1)

theorem IsRound8.zero {rnd : ℝ → ℝ} (h : IsRound8 rnd) : rnd 0 = 0 := by simpa using h.fix 0

theorem IsRound8.one {rnd : ℝ → ℝ} (h : IsRound8 rnd) : rnd 1 = 1 := by
  have := h.fix (10 ^ 8)
  norm_num at this
  exact this

theorem IsRound8.mem {rnd : ℝ → ℝ} (h : IsRound8 rnd) {x : ℝ} (h0 : 0 ≤ x) (h1 : x ≤ 1) :
    0 ≤ rnd x ∧ rnd x ≤ 1 :=
  ⟨h.zero ▸ h.mono h0, h.one ▸ h.mono h1⟩

/-- Rounding half away from below (Mathlib's `round`) satisfies the specification. -/
example : IsRound8 fun x => (round (x * 10 ^ 8) : ℝ) / 10 ^ 8 where
  close x := by
    have h := abs_sub_round (x * 10 ^ 8)
    have e : (round (x * 10 ^ 8) : ℝ) / 10 ^ 8 - x = -(x * 10 ^ 8 - round (x * 10 ^ 8)) / 10 ^ 8 := by ring
    rw [e, abs_div, abs_neg, abs_of_pos (show (0 : ℝ) < 10 ^ 8 by norm_num)]
    rw [div_le_div_iff₀ (by norm_num) (by norm_num)]
    calc |x * 10 ^ 8 - round (x * 10 ^ 8)| * (2 * 10 ^ 8) ≤ 1 / 2 * (2 * 10 ^ 8) :=
          mul_le_mul_of_nonneg_right h (by positivity)
      _ = 1 * 10 ^ 8 := by ring
  mono x y hxy := by
    have : round (x * 10 ^ 8) ≤ round (y * 10 ^ 8) := by
      rw [round_eq, round_eq]
      apply Int.floor_le_floor
      linarith
    have : (round (x * 10 ^ 8) : ℝ) ≤ round (y * 10 ^ 8) := by exact_mod_cast this
    simp only
    gcongr
  fix n := by
    have : (n : ℝ) / 10 ^ 8 * 10 ^ 8 = n := by norm_num
    simp only [this, round_intCast]

end Spec

theorem fract_sub {x : ℝ} (k : ℤ) (h0 : k ≤ x) (h1 : x < k + 1) : Int.fract x = x - k := by
  rw [Int.fract_eq_iff]
  refine ⟨by linarith, by linarith, k, by ring⟩

/-- The two surface parameters the perimeter uses. -/
theorem perimeterAt_eq (rnd : ℝ → ℝ) (hr : IsRound8 rnd) (surf : Surf) (t : ℝ) (h0 : 0 ≤ t) (h1 : t ≤ 1) :
    ∃ u v, perimeterAt rnd surf t = surf u v ∧ OnSquare u v ∧
      |u - (squareWalk t).1| ≤ 1 / (2 * 10 ^ 8) ∧ |v - (squareWalk t).2| ≤ 1 / (2 * 10 ^ 8) ∧
      ((∃ k : ℤ, 4 * t = k) → (u, v) = squareWalk t) := by
  have e4 : t / 0.25 = 4 * t := by norm_num; ring
  have e5 : ∀ x : ℝ, (0.25 : ℝ) * x / 0.25 = x := by intro x; norm_num
  have sm : (0 : ℝ) ≤ 1 / (2 * 10 ^ 8) := by positivity
  have fix : ∀ x : ℝ, ∀ k : ℤ, x = k → rnd x = x := by
    rintro x k rfl
    have := hr.fix (k * 10 ^ 8)
    have e : ((k * 10 ^ 8 : ℤ) : ℝ) / 10 ^ 8 = k := by push_cast; norm_num
    rwa [e] at this
  simp only [perimeterAt, e4, e5]
  by_cases c1 : t < 0.25
  · have c1' : t < 1 / 4 := by norm_num at c1 ⊢; exact c1
    have hf : Int.fract (4 * t) = 4 * t := by
      rw [fract_sub 0 (by push_cast; linarith) (by push_cast; linarith)]; push_cast; ring
    have hw : squareWalk t = (4 * t, 0) := by rw [squareWalk, if_pos c1'.le]
    obtain ⟨m0, m1⟩ := hr.mem (x := 4 * t) (by linarith) (by linarith)
    refine ⟨rnd (4 * t), 0, by rw [if_pos c1, hf], ⟨m0, m1, le_refl _, zero_le_one, by simp⟩, ?_, ?_, ?_⟩
    · rw [hw]; exact hr.close _
    · rw [hw]; simpa using sm
    · rintro ⟨k, hk⟩; rw [hw, fix _ k hk]
  rw [if_neg c1]
  by_cases c2 : t < 0.5
  · have c1' : 1 / 4 ≤ t := by norm_num at c1 ⊢; exact c1
    have c2' : t < 1 / 2 := by norm_num at c2 ⊢; exact c2
    have hf : Int.fract (4 * t) = 4 * t - 1 := by
      rw [fract_sub 1 (by push_cast; linarith) (by push_cast; linarith)]; push_cast; ring
    have hw : squareWalk t = (1, 4 * t - 1) := by
      rw [squareWalk]
      split_ifs with h
      · have : t = 1 / 4 := le_antisymm h c1'
        subst this; norm_num
      · rfl
      · exfalso; linarith
      · exfalso; linarith
    obtain ⟨m0, m1⟩ := hr.mem (x := 4 * t - 1) (by linarith) (by linarith)
    refine ⟨1, rnd (4 * t - 1), by rw [if_pos c2, hf], ⟨zero_le_one, le_refl _, m0, m1, by simp⟩, ?_, ?_, ?_⟩
    · rw [hw]; simpa using sm
    · rw [hw]; exact hr.close _
    · rintro ⟨k, hk⟩; rw [hw, fix _ (k - 1) (by push_cast; linarith)]
  rw [if_neg c2]
  have c2' : 1 / 2 ≤ t := by norm_num at c2 ⊢; exact c2
  by_cases c3 : t < 0.75
  · have c3' : t < 3 / 4 := by norm_num at c3 ⊢; exact c3
    have hf : 1 - Int.fract (4 * t) = 3 - 4 * t := by
      rw [fract_sub 2 (by push_cast; linarith) (by push_cast; linarith)]; push_cast; ring
    have hw : squareWalk t = (3 - 4 * t, 1) := by
      rw [squareWalk]
      split_ifs with h h
      · exfalso; linarith
      · have : t = 1 / 2 := le_antisymm h c2'
        subst this; norm_num
      · rfl
      · exfalso; linarith
    obtain ⟨m0, m1⟩ := hr.mem (x := 3 - 4 * t) (by linarith) (by linarith)
    refine ⟨rnd (3 - 4 * t), 1, by rw [if_pos c3, hf], ⟨m0, m1, zero_le_one, le_refl _, by simp⟩, ?_, ?_, ?_⟩
    · rw [hw]; exact hr.close _
    · rw [hw]; simpa using sm
    · rintro ⟨k, hk⟩; rw [hw, fix _ (3 - k) (by push_cast; linarith)]
  rw [if_neg c3]
  have c3' : 3 / 4 ≤ t := by norm_num at c3 ⊢; exact c3
  have hw : squareWalk t = (0, 4 - 4 * t) := by
    rw [squareWalk]
    split_ifs with h h h
    · exfalso; linarith
    · exfalso; linarith
    · have : t = 3 / 4 := le_antisymm h c3'
      subst this; norm_num
    · rfl
  by_cases c4 : t < 1
  · have hf : 1 - Int.fract (4 * t) = 4 - 4 * t := by
      rw [fract_sub 3 (by push_cast; linarith) (by push_cast; linarith)]; push_cast; ring
    obtain ⟨m0, m1⟩ := hr.mem (x := 4 - 4 * t) (by linarith) (by linarith)
    refine ⟨0, rnd (4 - 4 * t), by rw [if_pos c4, hf], ⟨le_refl _, zero_le_one, m0, m1, by simp⟩, ?_, ?_, ?_⟩
    · rw [hw]; simpa using sm
    · rw [hw]; exact hr.close _
    · rintro ⟨k, hk⟩; rw [hw, fix _ (4 - k) (by push_cast; linarith)]
  · have : t = 1 := le_antisymm h1 (not_lt.1 c4)
    subst this
    refine ⟨0, 0, by rw [if_neg c4], ⟨le_refl _, zero_le_one, le_refl _, zero_le_one, by simp⟩, ?_, ?_, ?_⟩
    · rw [hw]; simpa using sm
    · rw [hw]; norm_num
    · intro _; rw [hw]; norm_num

/-- C32: for every t in [0,1] the perimeter point is the surface point at parameters on the boundary of the
unit square, within `5e-9` of the constant-speed walk around it, and exactly on the walk at the corners. -/
theorem C32_perimeter (rnd : ℝ → ℝ) (hr : IsRound8 rnd) (surf : Surf) (t : ℝ) (h0 : 0 ≤ t) (h1 : t ≤ 1) :
    ∃ u v, (SurfacePerimeter rnd surf).call t = surf u v ∧ OnSquare u v ∧
      |u - (squareWalk t).1| ≤ 5e-9 ∧ |v - (squareWalk t).2| ≤ 5e-9 := by
  obtain ⟨u, v, h, h', a, b, -⟩ := perimeterAt_eq rnd hr surf t h0 h1
  exact ⟨u, v, h, h', a.trans (by norm_num), b.trans (by norm_num)⟩

/-- C32: corners in order, and back to the start. -/
theorem C32_corners (rnd : ℝ → ℝ) (hr : IsRound8 rnd) (surf : Surf) :
    (SurfacePerimeter rnd surf).call 0 = surf 0 0 ∧ (SurfacePerimeter rnd surf).call (1 / 4) = surf 1 0 ∧
    (SurfacePerimeter rnd surf).call (1 / 2) = surf 1 1 ∧ (SurfacePerimeter rnd surf).call (3 / 4) = surf 0 1 ∧
    (SurfacePerimeter rnd surf).call 1 = (SurfacePerimeter rnd surf).call 0 := by
  have key : ∀ t : ℝ, 0 ≤ t → t ≤ 1 → (∃ k : ℤ, 4 * t = k) →
      (SurfacePerimeter rnd surf).call t = surf (squareWalk t).1 (squareWalk t).2 := by
    intro t h0 h1 hk
    obtain ⟨u, v, h, -, -, -, e⟩ := perimeterAt_eq rnd hr surf t h0 h1
    rw [← e hk]; exact h
  rw [key 0 (by norm_num) (by norm_num) ⟨0, by norm_num⟩, key (1 / 4) (by norm_num) (by norm_num) ⟨1, by norm_num⟩,
    key (1 / 2) (by norm_num) (by norm_num) ⟨2, by norm_num⟩, key (3 / 4) (by norm_num) (by norm_num) ⟨3, by norm_num⟩,
    key 1 (by norm_num) (by norm_num) ⟨4, by norm_num⟩]
  unfold squareWalk
  norm_num

/-! ## C31 -/

theorem mapM_forall₂ {α β : Type} {g : α → Res β} {l : List α} {m : List β}
    (h : List.Forall₂ (fun a b => g a = .ok b) l m) : l.mapM g = .ok m := by
  induction h with
  | nil => rfl
  | cons h _ ih => rw [List.mapM_cons, h, ih]; rfl

theorem foldl_min_of_le {l : List ℝ} {a : ℝ} (h : ∀ x ∈ l, a ≤ x) : l.foldl min a = a := by
  induction l with
  | nil => rfl
  | cons b l ih =>
    rw [List.foldl_cons, min_eq_left (h b (by simp))]
    exact ih fun x hx => h x (by simp [hx])

theorem foldl_max_of_sorted {l : List ℝ} {a : ℝ} (h : (a :: l).Pairwise (· < ·)) :
    l.foldl max a = (a :: l).getLast (by simp) := by
  induction l generalizing a with
  | nil => rfl
  | cons b l ih =>
    have hab : a < b := by
      rw [List.pairwise_cons] at h; exact h.1 b (by simp)
    rw [List.foldl_cons, max_eq_right hab.le, ih (List.pairwise_cons.1 h).2]
    simp

theorem sorted_lt {l : List ℝ} (h : l.Pairwise (· < ·)) {i j : ℕ} (hij : i < j) (hj : j < l.length) :
    l[i] < l[j] := List.pairwise_iff_getElem.1 h i j _ hj hij

theorem sorted_le {l : List ℝ} (h : l.Pairwise (· < ·)) {i j : ℕ} (hij : i ≤ j) (hj : j < l.length) :
    l[i] ≤ l[j] := by
  rcases hij.eq_or_lt with rfl | h'
  · exact le_refl _
  · exact (sorted_lt h h' hj).le

namespace SweptPatch

theorem search_inner (os : List ℝ) (hs : os.Pairwise (· < ·)) (d : ℝ) (i : ℕ) (hi : i + 1 < os.length)
    (h0 : os[i] ≤ d) (h1 : d < os[i + 1]) (m k : ℕ) (hk : k + m = i) :
    search os d k (os.drop k) = .ok i := by
  have hlast : d ≠ os.getLastD 0 := by
    have : os.getLastD 0 = os[os.length - 1] := by
      rw [List.getLastD_eq_getLast?, List.getLast?_eq_getElem?, List.getElem?_eq_getElem (by omega)]; rfl
    rw [this]
    have := sorted_le hs (show i + 1 ≤ os.length - 1 by omega) (by omega)
    intro h; linarith
  induction m generalizing k with
  | zero =>
    obtain rfl : k = i := by omega
    rw [List.drop_eq_getElem_cons (by omega), search, if_neg hlast, if_pos h0, List.getElem?_eq_getElem hi]
    simp only [if_pos h1]
  | succ m ih =>
    have hk1 : k + 1 < os.length := by omega
    have a1 : os[k] ≤ d := (sorted_le hs (show k ≤ i by omega) (by omega)).trans h0
    have a2 : ¬ d < os[k + 1] := not_lt.2 ((sorted_le hs (show k + 1 ≤ i by omega) (by omega)).trans h0)
    rw [List.drop_eq_getElem_cons (by omega), search, if_neg hlast, if_pos a1, List.getElem?_eq_getElem hk1]
    simp only [if_neg a2]
    exact ih (k + 1) (by omega)

theorem listMin_sorted (os : List ℝ) (h : 0 < os.length) (hs : os.Pairwise (· < ·)) :
    listMin os = .ok os[0] := by
  match os, h, hs with
  | o :: os', _, hs =>
    simp only [SweptPatch.listMin, List.getElem_cons_zero]
    rw [foldl_min_of_le fun x hx => ((List.pairwise_cons.1 hs).1 x hx).le]

theorem listMax_sorted (os : List ℝ) (h : 0 < os.length) (hs : os.Pairwise (· < ·)) :
    listMax os = .ok os[os.length - 1] := by
  match os, h, hs with
  | o :: os', _, hs =>
    simp only [SweptPatch.listMax]
    rw [foldl_max_of_sorted hs, List.getLast_eq_getElem]

theorem search_last (os : List ℝ) (h : os ≠ []) : search os (os.getLastD 0) 0 os = .ok (os.length - 2) := by
  cases os with
  | nil => exact absurd rfl h
  | cons a l => conv => lhs; rw [search]
                rw [if_pos rfl]

end SweptPatch

/-- C31: for cross sections with strictly increasing origins, construction succeeds; at every r whose sweep
position lies at fraction `τ` between two neighbouring origins, the patch point has exactly that sweep
coordinate and its two other coordinates are the `τ`-blend of the two perimeters. -/
theorem C31_swept (rnd : ℝ → ℝ) (cross : List Surf) (ax : Ax) (pts : List V) (os : List ℝ)
    (hp : List.Forall₂ (fun (c : Surf) p => c 0 0 = .ok p) cross pts) (hos : os = pts.map fun p => p.coord ax)
    (h2 : 2 ≤ os.length) (hs : os.Pairwise (· < ·)) :
    ∃ patch, SweptPatch.init rnd cross ax = .ok patch ∧
      ∀ (i : ℕ) (hi : i + 1 < os.length) (hi' : i + 1 < cross.length) (τ r s : ℝ) (a b : V), 0 ≤ τ → τ ≤ 1 →
        (∀ c ∈ cross, ∃ p, (SurfacePerimeter rnd c).call s = .ok p) →
        (SurfacePerimeter rnd cross[i]).call s = .ok a → (SurfacePerimeter rnd cross[i + 1]).call s = .ok b →
        os[0] + r * (os[os.length - 1] - os[0]) = (1 - τ) * os[i] + τ * os[i + 1] →
        ∃ q, patch.call r s = .ok q ∧ q.coord ax = os[0] + r * (os[os.length - 1] - os[0]) ∧
          ∀ c, c ≠ ax → q.coord c = (1 - τ) * a.coord c + τ * b.coord c := by
  have hlen : cross.length = os.length := by rw [hos, List.length_map, hp.length_eq]
  have hmin := SweptPatch.listMin_sorted os (by omega) hs
  have hmax := SweptPatch.listMax_sorted os (by omega) hs
  have hne : ¬ os[0] = os[os.length - 1] := (sorted_lt hs (by omega) (by omega)).ne
  have hinit : SweptPatch.init rnd cross ax = .ok ⟨os, cross.map (SurfacePerimeter rnd), ax, os[0],
      os[os.length - 1] - os[0]⟩ := by
    simp only [SweptPatch.init, mapM_forall₂ hp, ← hos, hmin, hmax, bind, Except.bind, pure, Except.pure,
      if_neg hne]
  refine ⟨_, hinit, ?_⟩
  intro i hi hi' τ r s a b h0 h1 hall ha hb hr
  have hlt : os[i] < os[i + 1] := sorted_lt hs (by omega) hi
  -- the index found and the fraction within it
  have blend : ∀ (j : ℕ) (hj : j + 1 < os.length) (σ : ℝ) (a' b' : V),
      SweptPatch.search os (os[0] + r * (os[os.length - 1] - os[0])) 0 os = .ok j →
      (SurfacePerimeter rnd (cross[j]'(by omega))).call s = .ok a' →
      (SurfacePerimeter rnd (cross[j + 1]'(by omega))).call s = .ok b' →
      os[0] + r * (os[os.length - 1] - os[0]) - os[j] = σ * (os[j + 1] - os[j]) →
      ∃ q, SweptPatch.call ⟨os, cross.map (SurfacePerimeter rnd), ax, os[0], os[os.length - 1] - os[0]⟩ r s = .ok q ∧
        q.coord ax = os[0] + r * (os[os.length - 1] - os[0]) ∧
          ∀ c, c ≠ ax → q.coord c = a'.coord c + σ * (b'.coord c - a'.coord c) := by
    intro j hj σ a' b' hsr ha' hb' hσ
    have hjlt : os[j] < os[j + 1] := sorted_lt hs (by omega) hj
    have hd : os[j + 1] - os[j] ≠ 0 := (sub_pos.2 hjlt).ne'
    have hpd : ∀ w : ℝ, pdiv (σ * (os[j + 1] - os[j]) * w) (os[j + 1] - os[j]) = .ok (σ * w) := by
      intro w
      unfold pdiv
      rw [if_neg hd]
      congr 1
      field_simp
    have l1 : j < (cross.map (SurfacePerimeter rnd)).length := by rw [List.length_map]; omega
    have l2 : j + 1 < (cross.map (SurfacePerimeter rnd)).length := by rw [List.length_map]; omega
    set D := os[0] + r * (os[os.length - 1] - os[0]) with hD
    cases ax <;>
      simp only [SweptPatch.call, ← hD, hsr, getIdx_eq l1, getIdx_eq l2, List.getElem_map, ha', hb',
        getIdx_eq (show j < os.length by omega), getIdx_eq hj, hσ, hpd, bind, Except.bind, pure, Except.pure,
        if_true, reduceCtorEq, if_false, Except.ok.injEq, exists_eq_left', Vec.coord, true_and] <;>
      (intro c hc; cases c <;> simp_all)
  rcases h1.eq_or_lt with rfl | h1
  · by_cases hil : i + 2 = os.length
    · have hD : os[0] + r * (os[os.length - 1] - os[0]) = os.getLastD 0 := by
        have e : os.getLastD 0 = os[i + 1] := by
          rw [List.getLastD_eq_getLast?, List.getLast?_eq_getElem?, List.getElem?_eq_getElem (by omega)]
          simp only [Option.getD_some]
          congr 1; omega
        rw [hr, e]; ring
      obtain ⟨q, k1, k2, k3⟩ := blend i hi 1 a b
        (by rw [hD, SweptPatch.search_last os (by rintro rfl; simp at h2)]; congr 1; omega) ha hb
        (by rw [hr]; ring)
      exact ⟨q, k1, k2, fun c hc => by rw [k3 c hc]; ring⟩
    · have hi2 : i + 1 + 1 < os.length := by omega
      have hlt2 : os[i + 1] < os[i + 1 + 1] := sorted_lt hs (by omega) hi2
      have hsr := SweptPatch.search_inner os hs (os[0] + r * (os[os.length - 1] - os[0])) (i + 1) hi2
        (by rw [hr]; linarith) (by rw [hr]; linarith) (i + 1) 0 (by omega)
      rw [List.drop_zero] at hsr
      obtain ⟨c', hc'⟩ := hall _ (List.getElem_mem (show i + 1 + 1 < cross.length by omega))
      obtain ⟨q, k1, k2, k3⟩ := blend (i + 1) hi2 0 b c' hsr hb hc' (by rw [hr]; ring)
      exact ⟨q, k1, k2, fun c hc => by rw [k3 c hc]; ring⟩
  · have hsr := SweptPatch.search_inner os hs (os[0] + r * (os[os.length - 1] - os[0])) i hi
      (by rw [hr]; nlinarith) (by rw [hr]; nlinarith) i 0 (by omega)
    rw [List.drop_zero] at hsr
    obtain ⟨q, k1, k2, k3⟩ := blend i hi τ a b hsr ha hb (by rw [hr]; ring)
    exact ⟨q, k1, k2, fun c hc => by rw [k3 c hc]; ring⟩

/-- C31: every r in [0,1] is covered by `C31_swept`: its sweep position lies between two neighbouring
origins. -/
theorem C31_bracket (os : List ℝ) (h2 : 2 ≤ os.length) (hs : os.Pairwise (· < ·)) (d : ℝ)
    (h0 : os[0] ≤ d) (h1 : d ≤ os[os.length - 1]) :
    ∃ (i : ℕ) (hi : i + 1 < os.length) (τ : ℝ), 0 ≤ τ ∧ τ ≤ 1 ∧ d = (1 - τ) * os[i] + τ * os[i + 1] := by
  have : ∃ (i : ℕ) (hi : i + 1 < os.length), os[i] ≤ d ∧ d ≤ os[i + 1] := by
    by_contra hcon
    push Not at hcon
    have key : ∀ k, ∀ hk : k < os.length, os[k] ≤ d := by
      intro k
      induction k with
      | zero => intro _; exact h0
      | succ k ih => intro hk; exact (hcon k hk (ih (by omega))).le
    have := hcon (os.length - 2) (by omega) (key _ (by omega))
    have e : os[os.length - 2 + 1]'(by omega) = os[os.length - 1] := by congr 1; omega
    rw [e] at this
    linarith
  obtain ⟨i, hi, ha, hb⟩ := this
  have hlt : os[i] < os[i + 1] := sorted_lt hs (by omega) hi
  have hd : os[i + 1] - os[i] ≠ 0 := (sub_pos.2 hlt).ne'
  refine ⟨i, hi, (d - os[i]) / (os[i + 1] - os[i]), div_nonneg (by linarith) (by linarith),
    (div_le_one (by linarith)).2 (by linarith), ?_⟩
  field_simp
  ring

/-- C31: at the sweep position of a cross section lying in its plane the patch is its perimeter, and
evaluation succeeds for every r in [0,1]. -/
theorem C31_on_sections (rnd : ℝ → ℝ) (cross : List Surf) (ax : Ax) (pts : List V) (os : List ℝ)
    (hp : List.Forall₂ (fun (c : Surf) p => c 0 0 = .ok p) cross pts) (hos : os = pts.map fun p => p.coord ax)
    (h2 : 2 ≤ os.length) (hs : os.Pairwise (· < ·)) (s : ℝ)
    (hall : ∀ c ∈ cross, ∃ p, (SurfacePerimeter rnd c).call s = .ok p) :
    ∃ patch, SweptPatch.init rnd cross ax = .ok patch ∧
      (∀ r, 0 ≤ r → r ≤ 1 → ∃ q, patch.call r s = .ok q ∧
        q.coord ax = os[0] + r * (os[os.length - 1] - os[0])) ∧
      (∀ (k : ℕ) (hk : k < os.length) (hk' : k < cross.length) (a : V) (r : ℝ),
        (SurfacePerimeter rnd cross[k]).call s = .ok a → a.coord ax = os[k] →
        os[0] + r * (os[os.length - 1] - os[0]) = os[k] → patch.call r s = .ok a) := by
  have hlen : cross.length = os.length := by rw [hos, List.length_map, hp.length_eq]
  obtain ⟨patch, hi, hP⟩ := C31_swept rnd cross ax pts os hp hos h2 hs
  have hlt : os[0] < os[os.length - 1] := sorted_lt hs (by omega) (by omega)
  refine ⟨patch, hi, ?_, ?_⟩
  · intro r h0 h1
    obtain ⟨i, hi, τ, t0, t1, e⟩ := C31_bracket os h2 hs (os[0] + r * (os[os.length - 1] - os[0]))
      (by nlinarith) (by nlinarith)
    obtain ⟨a, ha⟩ := hall _ (List.getElem_mem (show i < cross.length by omega))
    obtain ⟨b, hb⟩ := hall _ (List.getElem_mem (show i + 1 < cross.length by omega))
    obtain ⟨q, k1, k2, -⟩ := hP i hi (by omega) τ r s a b t0 t1 hall ha hb e
    exact ⟨q, k1, k2⟩
  · intro k hk hk' a r ha hax hr
    have fin : ∀ q : V, q.coord ax = os[0] + r * (os[os.length - 1] - os[0]) →
        (∀ c, c ≠ ax → q.coord c = a.coord c) → q = a := by
      intro q h1 h2
      have : ∀ c, q.coord c = a.coord c := by
        intro c
        by_cases hc : c = ax
        · subst hc; rw [h1, hr, hax]
        · exact h2 c hc
      ext
      · exact this .x
      · exact this .y
      · exact this .z
    rcases Nat.lt_or_ge (k + 1) os.length with hk1 | hk1
    · obtain ⟨b, hb⟩ := hall _ (List.getElem_mem (show k + 1 < cross.length by omega))
      obtain ⟨q, k1, k2, k3⟩ := hP k hk1 (by omega) 0 r s a b (le_refl _) zero_le_one hall ha hb (by rw [hr]; ring)
      rw [k1, fin q k2 fun c hc => by rw [k3 c hc]; ring]
    · obtain ⟨j, rfl⟩ : ∃ j, k = j + 1 := ⟨k - 1, by omega⟩
      obtain ⟨b, hb⟩ := hall _ (List.getElem_mem (show j < cross.length by omega))
      obtain ⟨q, k1, k2, k3⟩ := hP j hk (by omega) 1 r s b a zero_le_one (le_refl _) hall hb ha (by rw [hr]; ring)
      rw [k1, fin q k2 fun c hc => by rw [k3 c hc]; ring]

/-- C31: cross sections with identical origins are rejected. -/
theorem C31_rejects (rnd : ℝ → ℝ) (cross : List Surf) (ax : Ax) (pts : List V) (o : ℝ)
    (hp : List.Forall₂ (fun (c : Surf) p => c 0 0 = .ok p) cross pts) (hne : cross ≠ [])
    (hsame : ∀ p ∈ pts, p.coord ax = o) : SweptPatch.init rnd cross ax = .error .exc := by
  have h : ∀ n : ℕ, (List.replicate n o).foldl min o = o ∧ (List.replicate n o).foldl max o = o := by
    intro n
    induction n with
    | zero => simp
    | succ n ih => simp [List.replicate_succ, ih.1, ih.2]
  have hrep : (pts.map fun p => p.coord ax) = List.replicate pts.length o := by
    rw [List.eq_replicate_iff]
    refine ⟨by simp, ?_⟩
    intro b hb
    obtain ⟨p, hp, rfl⟩ := List.mem_map.1 hb
    exact hsame p hp
  have hl : pts.length ≠ 0 := by
    rw [← hp.length_eq]; simpa using hne
  obtain ⟨m, hm⟩ := Nat.exists_eq_succ_of_ne_zero hl
  simp only [SweptPatch.init, mapM_forall₂ hp, hrep, hm, Nat.succ_eq_add_one, List.replicate_succ,
    SweptPatch.listMin, SweptPatch.listMax, (h m).1, (h m).2, bind, Except.bind, if_true, throw, throwThe,
    MonadExceptOf.throw]

/-- Two parallel squares: the hypotheses hold. -/
example : List.Forall₂ (fun (c : Surf) p => c 0 0 = .ok p)
      [fun r s => .ok ⟨r, s, 0⟩, fun r s => .ok ⟨2 * r, 2 * s, 3⟩] [(⟨0, 0, 0⟩ : V), ⟨0, 0, 3⟩] ∧
    ([(⟨0, 0, 0⟩ : V), ⟨0, 0, 3⟩].map fun p => p.coord .z).Pairwise (· < ·) := by
  constructor
  · simp
  · simp [Vec.coord]

end HV
