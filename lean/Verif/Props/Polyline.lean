import Verif.Model.Path
import Verif.Lemmas.Vec
import Verif.Props.Bezier
import Verif.Props.Length
import Mathlib.Topology.Order.OrderClosed
import Mathlib.Topology.Algebra.Order.Field
import Mathlib.Algebra.Order.BigOperators.Group.List

/-!
# Properties C09–C11: polylines
-/

namespace HV

open Spec

/-- The break point before segment `i`: the fraction of the total length covered by the segments
before it. -/
noncomputable def bp (len : PathObj → ℝ) (segs : List PathObj) (i : ℕ) : ℝ :=
  ((segs.take i).map len).sum / (segs.map len).sum

/-- `i` is the segment responsible for parameter `t` (the first segment also takes `t ≤ 0`, the last
one `t > 1`). -/
def Active (len : PathObj → ℝ) (segs : List PathObj) (t : ℝ) (i : ℕ) : Prop :=
  i < segs.length ∧ (i = 0 ∨ bp len segs i < t) ∧ (i + 1 = segs.length ∨ t ≤ bp len segs (i + 1))

namespace Polyline

theorem go_spec (len : PathObj → ℝ) (segs : List PathObj) (acc : ℝ)
    (h : ∀ s ∈ segs, s.length = .ok (len s)) :
    cumLengths.go acc segs =
      .ok ((List.range segs.length).map fun i => acc + ((segs.take (i + 1)).map len).sum) := by
  induction segs generalizing acc with
  | nil => simp [cumLengths.go]
  | cons s r ih =>
    have h1 := h s (by simp)
    have h2 := ih (acc + len s) fun s hs => h s (by simp [hs])
    simp only [cumLengths.go, h1, h2, bind, Except.bind, pure, Except.pure, List.length_cons]
    rw [List.range_succ_eq_map]
    simp [Function.comp_def, add_assoc]

theorem cumLengths_spec (len : PathObj → ℝ) (segs : List PathObj)
    (h : ∀ s ∈ segs, s.length = .ok (len s)) :
    cumLengths segs = .ok ((List.range (segs.length + 1)).map fun i => ((segs.take i).map len).sum) := by
  unfold cumLengths
  rw [go_spec len segs 0 h]
  simp only [bind, Except.bind, pure, Except.pure]
  rw [List.range_succ_eq_map]
  simp [Function.comp_def]

theorem breakpoints_spec (len : PathObj → ℝ) (segs : List PathObj)
    (h : ∀ s ∈ segs, s.length = .ok (len s)) (hpos : (segs.map len).sum ≠ 0) :
    breakpoints segs = .ok ((List.range (segs.length + 1)).map (bp len segs)) := by
  unfold breakpoints
  rw [cumLengths_spec len segs h]
  have e : ((List.range (segs.length + 1)).map fun i => ((segs.take i).map len).sum).getLastD 0 =
      (segs.map len).sum := by
    rw [List.range_succ, List.map_append]; simp [-List.map_take]
  simp only [bind, Except.bind, e, hpos, if_false]
  congr 1
  simp [bp, Function.comp_def]

theorem total_pos (len : PathObj → ℝ) (segs : List PathObj) (hne : segs ≠ [])
    (h : ∀ s ∈ segs, 0 < len s) : 0 < (segs.map len).sum := by
  apply List.sum_pos
  · intro x hx; obtain ⟨s, hs, rfl⟩ := List.mem_map.1 hx; exact h s hs
  · simpa using hne

theorem bp_zero (len : PathObj → ℝ) (segs : List PathObj) : bp len segs 0 = 0 := by simp [bp]

theorem bp_last (len : PathObj → ℝ) (segs : List PathObj) (hne : segs ≠ [])
    (h : ∀ s ∈ segs, 0 < len s) : bp len segs segs.length = 1 := by
  have := total_pos len segs hne h
  simp [bp, this.ne']

theorem bp_succ (len : PathObj → ℝ) (segs : List PathObj) (h : ∀ s ∈ segs, 0 < len s)
    (i : ℕ) (hi : i < segs.length) : bp len segs i < bp len segs (i + 1) := by
  have hne : segs ≠ [] := by rintro rfl; simp at hi
  have := total_pos len segs hne h
  unfold bp
  apply div_lt_div_of_pos_right _ this
  rw [List.take_succ_eq_append_getElem hi, List.map_append, List.sum_append]
  simp [-List.map_take]
  exact h _ (List.getElem_mem _)

theorem bp_lt (len : PathObj → ℝ) (segs : List PathObj) (h : ∀ s ∈ segs, 0 < len s)
    {i j : ℕ} (hij : i < j) (hj : j ≤ segs.length) : bp len segs i < bp len segs j := by
  induction j with
  | zero => omega
  | succ j ih =>
    rcases Nat.lt_succ_iff_lt_or_eq.1 hij with h' | rfl
    · exact (ih h' (by omega)).trans (bp_succ len segs h j (by omega))
    · exact bp_succ len segs h i (by omega)

theorem bp_le (len : PathObj → ℝ) (segs : List PathObj) (h : ∀ s ∈ segs, 0 < len s)
    {i j : ℕ} (hij : i ≤ j) (hj : j ≤ segs.length) : bp len segs i ≤ bp len segs j := by
  rcases hij.lt_or_eq with h' | rfl
  · exact (bp_lt len segs h h' hj).le
  · exact le_rfl

/-- The list of segments with their parameter intervals. -/
noncomputable def zipped (len : PathObj → ℝ) (segs : List PathObj) : List (PathObj × ℝ × ℝ) :=
  let tv := (List.range (segs.length + 1)).map (bp len segs)
  segs.zip (tv.dropLast.zip tv.tail)

theorem zipped_length (len : PathObj → ℝ) (segs : List PathObj) :
    (zipped len segs).length = segs.length := by simp [zipped]

theorem zipped_get (len : PathObj → ℝ) (segs : List PathObj) (i : ℕ) (hi : i < segs.length) :
    (zipped len segs)[i]'(by rw [zipped_length]; exact hi) =
      (segs[i], bp len segs i, bp len segs (i + 1)) := by
  simp [zipped]

theorem drop_zipped (len : PathObj → ℝ) (segs : List PathObj) (i : ℕ) (hi : i < segs.length) :
    (zipped len segs).drop i =
      (segs[i], bp len segs i, bp len segs (i + 1)) :: (zipped len segs).drop (i + 1) := by
  rw [List.drop_eq_getElem_cons (by rw [zipped_length]; exact hi), zipped_get]

/-- Local parameter. -/
noncomputable def loc (len : PathObj → ℝ) (segs : List PathObj) (i : ℕ) (t : ℝ) : ℝ :=
  (t - bp len segs i) / (bp len segs (i + 1) - bp len segs i)

theorem add_mul_zero (f p : V) : f + p * (0 : ℝ) = f := by ext <;> simp

section
variable (len : PathObj → ℝ) (segs : List PathObj) (hpos : ∀ s ∈ segs, 0 < len s)
  (hcall : ∀ s ∈ segs, ∀ t, ∃ v, s.call t = .ok v)
include hpos hcall

theorem loop_after (t : ℝ) (k : ℕ) : ∀ (i : ℕ) (acc : V), segs.length - i = k → 1 ≤ i →
    (i < segs.length → t ≤ bp len segs i) →
    loop segs.length t i acc ((zipped len segs).drop i) = .ok acc := by
  induction k with
  | zero =>
    intro i acc hk _ _
    rw [List.drop_eq_nil_of_le (by rw [zipped_length]; omega)]
    rfl
  | succ k ih =>
    intro i acc hk hi ht
    have hin : i < segs.length := by omega
    have htt := ht hin
    have hb := bp_succ len segs hpos i hin
    rw [drop_zipped len segs i hin]
    obtain ⟨v, hv⟩ := hcall segs[i] (List.getElem_mem _) (loc len segs i t)
    have hl : ¬ 0 < loc len segs i t := by
      unfold loc; rw [not_lt]
      exact div_nonpos_of_nonpos_of_nonneg (by linarith) (by linarith)
    have hok : isokay segs.length i (loc len segs i t) = false := by
      unfold isokay
      simp [show i ≠ 0 by omega, hl]
    have hd : pdiv (t - bp len segs i) (bp len segs (i + 1) - bp len segs i) = .ok (loc len segs i t) := by
      unfold pdiv loc; rw [if_neg (by linarith)]
    simp only [loop, hd, hv, hok, bind, Except.bind, boolNum, add_mul_zero, Bool.false_eq_true, if_false]
    refine ih (i + 1) acc (by omega) (by omega) fun _ => ?_
    linarith

theorem loop_active (t : ℝ) (hn : 2 ≤ segs.length) (j : ℕ) (hj : Active len segs t j) (k : ℕ) :
    ∀ (i : ℕ) (acc : V), j - i = k → i ≤ j →
    ∃ v, (segs[j]'hj.1).call (loc len segs j t) = .ok v ∧
    loop segs.length t i acc ((zipped len segs).drop i) = .ok (acc + v) := by
  obtain ⟨hjn, h1, h2⟩ := hj
  induction k with
  | zero =>
    intro i acc hk hij
    obtain rfl : i = j := by omega
    have hb := bp_succ len segs hpos i hjn
    have hb' : 0 < bp len segs (i + 1) - bp len segs i := by linarith
    rw [drop_zipped len segs i hjn]
    obtain ⟨v, hv⟩ := hcall segs[i] (List.getElem_mem _) (loc len segs i t)
    refine ⟨v, hv, ?_⟩
    have hd : pdiv (t - bp len segs i) (bp len segs (i + 1) - bp len segs i) = .ok (loc len segs i t) := by
      unfold pdiv loc; rw [if_neg (by linarith)]
    have hok : isokay segs.length i (loc len segs i t) = true := by
      have hgt : i ≠ 0 → 0 < loc len segs i t := by
        intro h0
        have := h1.resolve_left h0
        exact div_pos (by linarith) hb'
      have hle : i + 1 ≠ segs.length → loc len segs i t ≤ 1 := by
        intro h0
        have := h2.resolve_left h0
        unfold loc
        rw [div_le_one hb']; linarith
      unfold isokay
      by_cases c0 : i = 0
      · simp [c0]; subst c0; exact hle (by omega)
      · by_cases c1 : i = segs.length - 1
        · rw [if_neg c0, if_pos c1]; simpa using hgt c0
        · rw [if_neg c0, if_neg c1]; simp [hgt c0, hle (by omega)]
    simp only [loop, hd, hv, hok, bind, Except.bind, boolNum, if_true, Vec.mul_one']
    refine loop_after len segs hpos hcall t _ (i + 1) _ rfl (by omega) fun hlt => ?_
    exact h2.resolve_left (by omega)
  | succ k ih =>
    intro i acc hk hij
    have hin : i < segs.length := by omega
    have hb := bp_succ len segs hpos i hin
    have hb' : 0 < bp len segs (i + 1) - bp len segs i := by linarith
    have hjt := h1.resolve_left (by omega)
    have hle := bp_le len segs hpos (show i + 1 ≤ j by omega) hjn.le
    rw [drop_zipped len segs i hin]
    obtain ⟨v, hv⟩ := hcall segs[i] (List.getElem_mem _) (loc len segs i t)
    have hl : ¬ loc len segs i t ≤ 1 := by
      unfold loc; rw [not_le, one_lt_div hb']; linarith
    have hd : pdiv (t - bp len segs i) (bp len segs (i + 1) - bp len segs i) = .ok (loc len segs i t) := by
      unfold pdiv loc; rw [if_neg (by linarith)]
    have hok : isokay segs.length i (loc len segs i t) = false := by
      unfold isokay
      by_cases c0 : i = 0
      · simp [c0]; subst c0; linarith
      · rw [if_neg c0, if_neg (by omega)]; simp; intro _; linarith
    simp only [loop, hd, hv, hok, bind, Except.bind, boolNum, add_mul_zero, Bool.false_eq_true, if_false]
    exact ih (i + 1) acc (by omega) (by omega)

end

theorem exists_active (len : PathObj → ℝ) (segs : List PathObj) (hne : segs ≠ [])
    (hpos : ∀ s ∈ segs, 0 < len s) (t : ℝ) : ∃! i, Active len segs t i := by
  have hlen : 0 < segs.length := List.length_pos_iff.2 hne
  classical
  let P : ℕ → Prop := fun i => i + 1 = segs.length ∨ t ≤ bp len segs (i + 1)
  have hex : ∃ i, P i := ⟨segs.length - 1, .inl (by omega)⟩
  refine ⟨Nat.find hex, ⟨?_, ?_, Nat.find_spec hex⟩, ?_⟩
  · have := Nat.find_min' hex (m := segs.length - 1) (.inl (by omega)); omega
  · by_cases h0 : Nat.find hex = 0
    · exact .inl h0
    · right
      have := Nat.find_min hex (m := Nat.find hex - 1) (by omega)
      simp only [P, not_or, not_le] at this
      have e : Nat.find hex - 1 + 1 = Nat.find hex := by omega
      rw [e] at this; exact this.2
  · rintro j ⟨hj, h1, h2⟩
    have hle : Nat.find hex ≤ j := Nat.find_min' hex h2
    rcases hle.lt_or_eq with hlt | he
    · exfalso
      have hs := (Nat.find_spec hex).resolve_left (by omega)
      have := h1.resolve_left (by omega)
      have := bp_le len segs hpos (show Nat.find hex + 1 ≤ j by omega) hj.le
      linarith
    · exact he.symm

theorem init_open (len : PathObj → ℝ) (segs : List PathObj) (hne : segs ≠ [])
    (h : ∀ s ∈ segs, s.length = .ok (len s) ∧ 0 < len s) (tol : ℝ) :
    Polyline.init segs false tol = .ok ⟨segs, (List.range (segs.length + 1)).map (bp len segs)⟩ := by
  have := breakpoints_spec len segs (fun s hs => (h s hs).1)
    (total_pos len segs hne fun s hs => (h s hs).2).ne'
  simp [Polyline.init, this, bind, Except.bind, pure, Except.pure]

theorem call_active (len : PathObj → ℝ) (segs : List PathObj)
    (h : ∀ s ∈ segs, s.length = .ok (len s) ∧ 0 < len s)
    (hcall : ∀ s ∈ segs, ∀ t, ∃ v, s.call t = .ok v) (t : ℝ) (i : ℕ) (hi : Active len segs t i) :
    call ⟨segs, (List.range (segs.length + 1)).map (bp len segs)⟩ t =
      (segs[i]'hi.1).call (loc len segs i t) := by
  have hpos := fun s hs => (h s hs).2
  match segs, h, hcall, hi, hpos with
  | [seg], h, hcall, hi, hpos =>
    have h0 : i = 0 := by have := hi.1; simp at this; exact this
    subst h0
    have e0 : bp len [seg] 0 = 0 := bp_zero _ _
    have e1 : bp len [seg] 1 = 1 := bp_last len [seg] (by simp) hpos
    simp [call, loc, e0, e1]
  | s0 :: s1 :: r, h, hcall, hi, hpos =>
    obtain ⟨f0, hf0⟩ := hcall s0 (by simp) t
    obtain ⟨v, hv, hl⟩ := loop_active len (s0 :: s1 :: r) hpos hcall t (by simp) i hi i 0
      (f0.imul 0) (by omega) (by omega)
    rw [hv]
    rw [List.drop_zero] at hl
    unfold call
    simp only [hf0, bind, Except.bind]
    unfold zipped at hl
    rw [hl]
    congr 1
    ext <;> simp [Vec.imul]

end Polyline

/-- C09: a polyline through segments of positive length evaluates, for every parameter, the unique
responsible segment at the matching local parameter; the break points start at 0, end at 1 and
increase strictly; it starts and ends with its first and last segment, and its length is the sum. -/
theorem C09_polyline (len : PathObj → ℝ) (segs : List PathObj) (hne : segs ≠ [])
    (h : ∀ s ∈ segs, s.length = .ok (len s) ∧ 0 < len s)
    (hcall : ∀ s ∈ segs, ∀ t, ∃ v, s.call t = .ok v) (tol : ℝ) :
    ∃ P, Polyline segs false tol = .ok P ∧
      (bp len segs 0 = 0 ∧ bp len segs segs.length = 1 ∧
        ∀ i j, i < j → j ≤ segs.length → bp len segs i < bp len segs j) ∧
      (∀ t, ∃! i, Active len segs t i) ∧
      (∀ t i (hi : Active len segs t i), P.call t = (segs[i]'hi.1).call
        ((t - bp len segs i) / (bp len segs (i + 1) - bp len segs i))) ∧
      P.call 0 = (segs.head hne).call 0 ∧ P.call 1 = (segs.getLast hne).call 1 ∧
      P.length = .ok (segs.map len).sum := by
  have hpos := fun s hs => (h s hs).2
  have hlen : 0 < segs.length := List.length_pos_iff.2 hne
  refine ⟨Polyline.obj ⟨segs, (List.range (segs.length + 1)).map (bp len segs)⟩, ?_, ⟨?_, ?_, ?_⟩, ?_, ?_,
    ?_, ?_, ?_⟩
  · simp [Polyline, Polyline.init_open len segs hne h tol, bind, Except.bind, pure, Except.pure]
  · exact Polyline.bp_zero _ _
  · exact Polyline.bp_last len segs hne hpos
  · intro i j; exact Polyline.bp_lt len segs hpos
  · exact Polyline.exists_active len segs hne hpos
  · intro t i hi; exact Polyline.call_active len segs h hcall t i hi
  · have hb : 0 < bp len segs 1 := by
      have := Polyline.bp_succ len segs hpos 0 hlen; rwa [Polyline.bp_zero] at this
    have ha : Active len segs 0 0 := ⟨hlen, .inl rfl, .inr hb.le⟩
    have := Polyline.call_active len segs h hcall 0 0 ha
    simp only [Polyline.obj]; rw [this]
    simp [Polyline.loc, Polyline.bp_zero, List.head_eq_getElem]
  · have e1 := Polyline.bp_last len segs hne hpos
    have e : segs.length - 1 + 1 = segs.length := by omega
    have hb : bp len segs (segs.length - 1) < 1 := by
      have := Polyline.bp_succ len segs hpos (segs.length - 1) (by omega)
      rwa [e, e1] at this
    have ha : Active len segs 1 (segs.length - 1) := ⟨by omega, .inr hb, .inl e⟩
    have := Polyline.call_active len segs h hcall 1 _ ha
    simp only [Polyline.obj]; rw [this]
    have hd : (1 : ℝ) - bp len segs (segs.length - 1) ≠ 0 := by linarith
    simp [Polyline.loc, e, e1, hd, List.getLast_eq_getElem]
  · simp only [Polyline.obj, Polyline.length]
    have gen : ∀ (l : List PathObj) (acc : ℝ), (∀ s ∈ l, s.length = .ok (len s)) →
        l.foldlM (fun L seg => do let l ← seg.length; return L + l) acc =
          (.ok (acc + (l.map len).sum) : Res ℝ) := by
      intro l
      induction l with
      | nil => intro acc _; simp; rfl
      | cons s r ih =>
        intro acc hl
        simp only [List.foldlM_cons, hl s (by simp), bind, Except.bind, pure, Except.pure] at ih ⊢
        rw [ih (acc + len s) fun s hs => hl s (by simp [hs])]
        simp [add_assoc]
    rw [gen segs 0 fun s hs => (h s hs).1, zero_add]

namespace Polyline

/-- Gluing of the segment functions, by recursion from the last one. -/
noncomputable def glue (b : ℕ → ℝ) (γ : ℕ → ℝ → E3) : ℕ → ℕ → ℝ → E3
  | 0, i, t => γ i ((t - b i) / (b (i + 1) - b i))
  | k + 1, i, t => if t ≤ b (i + 1) then γ i ((t - b i) / (b (i + 1) - b i)) else glue b γ k (i + 1) t

theorem glue_le (b : ℕ → ℝ) (γ : ℕ → ℝ → E3) (k i : ℕ) (t : ℝ) (h : t ≤ b (i + 1)) :
    glue b γ k i t = γ i ((t - b i) / (b (i + 1) - b i)) := by
  cases k with
  | zero => rfl
  | succ k => simp [glue, h]

theorem glue_continuous (b : ℕ → ℝ) (γ : ℕ → ℝ → E3) (k : ℕ) : ∀ i,
    (∀ j, i ≤ j → j ≤ i + k → Continuous (γ j)) → (∀ j, i ≤ j → j ≤ i + k → b j < b (j + 1)) →
    (∀ j, i ≤ j → j < i + k → γ j 1 = γ (j + 1) 0) → Continuous (glue b γ k i) := by
  induction k with
  | zero =>
    intro i h1 _ _
    change Continuous fun t => γ i ((t - b i) / (b (i + 1) - b i))
    exact (h1 i le_rfl (by omega)).comp (by fun_prop)
  | succ k ih =>
    intro i h1 h2 h3
    have hc := h1 i le_rfl (by omega)
    have hrec := ih (i + 1) (fun j a c => h1 j (by omega) (by omega))
      (fun j a c => h2 j (by omega) (by omega)) (fun j a c => h3 j (by omega) (by omega))
    have : glue b γ (k + 1) i = fun t => if t ≤ b (i + 1) then γ i ((t - b i) / (b (i + 1) - b i))
        else glue b γ k (i + 1) t := by funext t; rfl
    rw [this]
    refine Continuous.if_le (hc.comp (by fun_prop)) hrec continuous_id continuous_const ?_
    intro t ht
    subst ht
    have hb := h2 i le_rfl (by omega)
    have hb' := h2 (i + 1) (by omega) (by omega)
    rw [glue_le b γ k (i + 1) _ hb'.le, div_self (by linarith), sub_self, zero_div]
    exact h3 i le_rfl (by omega)

theorem glue_active (b : ℕ → ℝ) (γ : ℕ → ℝ → E3) (k : ℕ) : ∀ i j t, i ≤ j → j ≤ i + k →
    (∀ m, i ≤ m → m ≤ i + k → b m < b (m + 1)) →
    (j = i ∨ b j < t) → (j = i + k ∨ t ≤ b (j + 1)) →
    glue b γ k i t = γ j ((t - b j) / (b (j + 1) - b j)) := by
  induction k with
  | zero => intro i j t h1 h2 _ _ _; obtain rfl : j = i := by omega
            rfl
  | succ k ih =>
    intro i j t h1 h2 hb h3 h4
    rcases h1.lt_or_eq with hlt | rfl
    · have hbj := h3.resolve_left (by omega)
      have hmono : ∀ m, i + 1 ≤ m → m ≤ j → b (i + 1) ≤ b m := by
        intro m hm1
        induction m, hm1 using Nat.le_induction with
        | base => intro _; exact le_rfl
        | succ m hm ihm =>
          intro hmj
          exact (ihm (by omega)).trans (hb m (by omega) (by omega)).le
      have := hmono j hlt le_rfl
      simp only [glue, show ¬ t ≤ b (i + 1) by linarith, if_false]
      exact ih (i + 1) j t hlt (by omega) (fun m a c => hb m (by omega) (by omega)) (.inr hbj)
        (h4.imp (by omega) id)
    · exact glue_le b γ (k + 1) i t (h4.resolve_left (by omega))

end Polyline

/-- C09: if the segments are continuous and each ends where the next starts, the polyline is a
continuous curve. -/
theorem C09_continuous (len : PathObj → ℝ) (segs : List PathObj) (hne : segs ≠ [])
    (h : ∀ s ∈ segs, s.length = .ok (len s) ∧ 0 < len s) (tol : ℝ) (γ : ℕ → ℝ → V)
    (hγ : ∀ i (hi : i < segs.length) t, segs[i].call t = .ok (γ i t))
    (hcont : ∀ i, i < segs.length → Continuous fun t => toE (γ i t))
    (hjoin : ∀ i, i + 1 < segs.length → γ i 1 = γ (i + 1) 0) :
    ∃ (P : PathObj) (Γ : ℝ → V), Polyline segs false tol = .ok P ∧ (∀ t, P.call t = .ok (Γ t)) ∧
      Continuous fun t => toE (Γ t) := by
  have hpos := fun s hs => (h s hs).2
  have hlen : 0 < segs.length := List.length_pos_iff.2 hne
  have hcall : ∀ s ∈ segs, ∀ t, ∃ v, s.call t = .ok v := by
    intro s hs t
    obtain ⟨i, hi, rfl⟩ := List.getElem_of_mem hs
    exact ⟨_, hγ i hi t⟩
  obtain ⟨P, hP, -, hact, hval, -⟩ := C09_polyline len segs hne h hcall tol
  choose act hact1 _ using hact
  refine ⟨P, fun t => γ (act t) ((t - bp len segs (act t)) /
    (bp len segs (act t + 1) - bp len segs (act t))), hP, ?_, ?_⟩
  · intro t
    rw [hval t _ (hact1 t), hγ]
  · have hc := Polyline.glue_continuous (bp len segs) (fun i t => toE (γ i t)) (segs.length - 1) 0
      (fun j _ hj => hcont j (by omega)) (fun j _ hj => Polyline.bp_succ len segs hpos j (by omega))
      (fun j _ hj => by rw [hjoin j (by omega)])
    convert hc using 1
    funext t
    obtain ⟨a1, a2, a3⟩ := hact1 t
    symm
    exact Polyline.glue_active (bp len segs) (fun i t => toE (γ i t)) (segs.length - 1) 0 (act t) t
      (by omega) (by omega) (fun m _ hm => Polyline.bp_succ len segs hpos m (by omega))
      (by simpa using a2) (a3.imp (by omega) id)

/-- A two-segment polyline meets the hypotheses of C09. -/
example : ∀ s ∈ [Line ⟨0, 0, 0⟩ ⟨1, 0, 0⟩, Line ⟨1, 0, 0⟩ ⟨1, 1, 0⟩],
    s.length = .ok 1 ∧ (0 : ℝ) < 1 := by
  intro s hs
  simp only [List.mem_cons, List.not_mem_nil, or_false] at hs
  rcases hs with rfl | rfl <;> simp [Line, Vec.abs]

/-! ## C10 -/

/-- C10 is violated, in general: whenever the end point `p1` of the segments is further than the
tolerance from the start point `p0`, the "closed" polyline ends at `p1`, so it is *not* closed. -/
theorem C10_closed_violated (len : PathObj → ℝ) (segs : List PathObj) (hne : segs ≠ [])
    (h : ∀ s ∈ segs, s.length = .ok (len s) ∧ 0 < len s)
    (hcall : ∀ s ∈ segs, ∀ t, ∃ v, s.call t = .ok v) (tol : ℝ) (htol : 0 ≤ tol) (p0 p1 : V)
    (h0 : (segs.head hne).call 0 = .ok p0) (h1 : (segs.getLast hne).call 1 = .ok p1)
    (hapart : tol < vdist p1 p0) :
    ∃ P, Polyline segs true tol = .ok P ∧ P.call 0 = .ok p0 ∧ P.call 1 = .ok p1 ∧ p0 ≠ p1 := by
  have hne' : segs ++ [Line p0 p1] ≠ [] := by simp
  have hd : 0 < vdist p1 p0 := lt_of_le_of_lt htol hapart
  classical
  let len' : PathObj → ℝ := fun s => match s.length with | .ok l => l | .error _ => 0
  have hl' : ∀ s ∈ segs ++ [Line p0 p1], s.length = .ok (len' s) ∧ 0 < len' s := by
    intro s hs
    rw [List.mem_append] at hs
    rcases hs with hs | hs
    · have := h s hs
      simp only [len', this.1]; exact ⟨trivial, this.2⟩
    · simp only [List.mem_singleton] at hs; subst hs
      have : (Line p0 p1).length = .ok (vdist p1 p0) := by
        simp only [Line, Vec.abs_sub_eq_vdist]
      simp only [len', this]; exact ⟨trivial, hd⟩
  have hc' : ∀ s ∈ segs ++ [Line p0 p1], ∀ t, ∃ v, s.call t = .ok v := by
    intro s hs t
    rw [List.mem_append] at hs
    rcases hs with hs | hs
    · exact hcall s hs t
    · simp only [List.mem_singleton] at hs; subst hs; exact ⟨_, rfl⟩
  obtain ⟨P, hP, -, -, -, c0, c1, -⟩ := C09_polyline len' _ hne' hl' hc' tol
  refine ⟨P, ?_, ?_, ?_, ?_⟩
  · have e0 : segs.head? = some (segs.head hne) := List.head?_eq_some_head hne
    have e1 : segs.getLast? = some (segs.getLast hne) := List.getLast?_eq_some_getLast hne
    rw [← hP]
    unfold Polyline Polyline.init
    simp only [e0, e1, h0, h1, bind, Except.bind, pure, Except.pure, if_true, Bool.false_eq_true,
      if_false, Vec.abs_sub_eq_vdist, gt_iff_lt, hapart]
  · rw [c0]
    have : (segs ++ [Line p0 p1]).head hne' = segs.head hne := by
      rw [List.head_append_of_ne_nil hne]
    rw [this, h0]
  · rw [c1]; simp [(C06_line p0 p1).2.2.1]
  · rintro rfl; simp [vdist] at hd

/-- Concrete instance: an open L-shaped polyline, closed by the code, still ends at (1,1,0). -/
theorem C10_closed_violated_witness :
    ¬ ∀ (segs : List PathObj) (P : PathObj) (a b : V), Polyline segs true = .ok P →
      P.call 0 = .ok a → P.call 1 = .ok b → vdist a b ≤ 1 / 10 ^ 10 := by
  intro hall
  have hs : ∀ s ∈ [Line ⟨0, 0, 0⟩ ⟨1, 0, 0⟩, Line ⟨1, 0, 0⟩ ⟨1, 1, 0⟩],
      s.length = .ok 1 ∧ (0 : ℝ) < 1 := by
    intro s hs
    simp only [List.mem_cons, List.not_mem_nil, or_false] at hs
    rcases hs with rfl | rfl <;> simp [Line, Vec.abs]
  have hdist : 1 / 10 ^ 10 < vdist (⟨1, 1, 0⟩ : V) ⟨0, 0, 0⟩ := by
    rw [← Vec.abs_sub_eq_vdist]
    simp only [Vec.abs, Vec.sub_x, Vec.sub_y, Vec.sub_z]
    rw [Real.lt_sqrt (by positivity)]; norm_num
  obtain ⟨P, h1, h2, h3, -⟩ := C10_closed_violated (fun _ => 1) _ (by simp) hs
    (by
      intro s hs t
      simp only [List.mem_cons, List.not_mem_nil, or_false] at hs
      rcases hs with rfl | rfl <;> exact ⟨_, rfl⟩) (1 / 10 ^ 10) (by positivity) ⟨0, 0, 0⟩ ⟨1, 1, 0⟩
    (by simp [(C06_line _ _).2.1]) (by simp [(C06_line _ _).2.2.1]) hdist
  have := hall _ P _ _ h1 h2 h3
  have e : vdist (⟨0, 0, 0⟩ : V) ⟨1, 1, 0⟩ = vdist (⟨1, 1, 0⟩ : V) ⟨0, 0, 0⟩ := dist_comm _ _
  rw [e] at this
  linarith

/-- C10, what holds: if the segments already end within the tolerance of their start, the closed
polyline is the open one and closes up to the tolerance.  Missing: all other inputs, where the
property fails (`C10_closed_violated`). -/
theorem C10_closed_partial (len : PathObj → ℝ) (segs : List PathObj) (hne : segs ≠ [])
    (h : ∀ s ∈ segs, s.length = .ok (len s) ∧ 0 < len s)
    (hcall : ∀ s ∈ segs, ∀ t, ∃ v, s.call t = .ok v) (tol : ℝ) (p0 p1 : V)
    (h0 : (segs.head hne).call 0 = .ok p0) (h1 : (segs.getLast hne).call 1 = .ok p1)
    (hclose : vdist p1 p0 ≤ tol) :
    ∃ P, Polyline segs true tol = .ok P ∧ Polyline segs false tol = .ok P ∧
      P.call 0 = .ok p0 ∧ P.call 1 = .ok p1 := by
  obtain ⟨P, hP, -, -, -, c0, c1, -⟩ := C09_polyline len _ hne h hcall tol
  refine ⟨P, ?_, hP, by rw [c0, h0], by rw [c1, h1]⟩
  have e0 : segs.head? = some (segs.head hne) := List.head?_eq_some_head hne
  have e1 : segs.getLast? = some (segs.getLast hne) := List.getLast?_eq_some_getLast hne
  rw [← hP]
  unfold Polyline Polyline.init
  simp only [e0, e1, h0, h1, bind, Except.bind, pure, Except.pure, if_true, Bool.false_eq_true,
    if_false, Vec.abs_sub_eq_vdist, gt_iff_lt, not_lt.2 hclose]

/-! ## C11 -/

namespace Polyline

theorem loop_error (n : ℕ) (t : ℝ) (L : List (PathObj × ℝ × ℝ)) (h : ∃ e ∈ L, e.2.1 = e.2.2) :
    ∀ i acc, ∃ err, loop n t i acc L = .error err := by
  induction L with
  | nil => simp at h
  | cons a r ih =>
    intro i acc
    obtain ⟨seg, tl, tu⟩ := a
    by_cases he : tu - tl = 0
    · exact ⟨.zeroDiv, by simp [loop, pdiv, he, bind, Except.bind]⟩
    · obtain ⟨e, hmem, heq⟩ := h
      rcases List.mem_cons.1 hmem with rfl | hmem
      · simp at heq; exact absurd (by linarith) he
      · simp only [loop, pdiv, he, if_false, bind, Except.bind]
        cases hc : seg.call ((t - tl) / (tu - tl)) with
        | error e => exact ⟨e, rfl⟩
        | ok p => exact ih ⟨e, hmem, heq⟩ (i + 1) _

end Polyline

/-- C11 is violated, in general: a polyline of at least two segments of known lengths and positive
total length one of which has zero length is constructed, but raises for *every* parameter. -/
theorem C11_zero_length_violated (len : PathObj → ℝ) (segs : List PathObj) (hn : 2 ≤ segs.length)
    (h : ∀ s ∈ segs, s.length = .ok (len s)) (hsum : (segs.map len).sum ≠ 0) (tol : ℝ)
    (i : ℕ) (hi : i < segs.length) (hz : len segs[i] = 0) :
    ∃ P, Polyline segs false tol = .ok P ∧ ∀ t, ∃ e, P.call t = .error e := by
  have hb := Polyline.breakpoints_spec len segs h hsum
  refine ⟨Polyline.obj ⟨segs, (List.range (segs.length + 1)).map (bp len segs)⟩, ?_, ?_⟩
  · simp [Polyline, Polyline.init, hb, bind, Except.bind, pure, Except.pure]
  · intro t
    have hbp : bp len segs i = bp len segs (i + 1) := by
      unfold bp
      rw [List.take_succ_eq_append_getElem hi, List.map_append, List.sum_append]
      simp [-List.map_take, hz]
    match segs, hn, hi, hz, hbp with
    | s0 :: s1 :: r, _, hi, hz, hbp =>
      simp only [Polyline.obj, Polyline.call]
      cases hc : s0.call t with
      | error e => exact ⟨e, rfl⟩
      | ok f0 =>
        simp only [bind, Except.bind]
        apply Polyline.loop_error
        refine ⟨(Polyline.zipped len (s0 :: s1 :: r))[i]'(by rw [Polyline.zipped_length]; exact hi),
          List.getElem_mem _, ?_⟩
        rw [Polyline.zipped_get _ _ _ hi]
        exact hbp

/-- Concrete instance for C11: a repeated point between two unit lines. -/
theorem C11_zero_length_violated_witness :
    ∃ P, Polyline [Line ⟨0, 0, 0⟩ ⟨1, 0, 0⟩, Line ⟨1, 0, 0⟩ ⟨1, 0, 0⟩] = .ok P ∧
      ∀ t, ∃ e, P.call t = .error e := by
  classical
  let len : PathObj → ℝ := fun s => match s.length with | .ok l => l | .error _ => 0
  have e1 : (Line ⟨0, 0, 0⟩ ⟨1, 0, 0⟩).length = .ok 1 := by simp [Line, Vec.abs]
  have e2 : (Line ⟨1, 0, 0⟩ ⟨1, 0, 0⟩).length = .ok 0 := by simp [Line, Vec.abs]
  refine C11_zero_length_violated len _ (by simp) ?_ ?_ _ 1 (by simp) ?_
  · intro s hs
    simp only [List.mem_cons, List.not_mem_nil, or_false] at hs
    rcases hs with rfl | rfl
    · simp [len, e1]
    · simp [len, e2]
  · simp [len, e1, e2]
  · simp [len, e2]

/-- C11, what holds: with all segments of positive length every parameter evaluates.  Missing: zero
length segments, where the property fails. -/
theorem C11_evaluates_partial (len : PathObj → ℝ) (segs : List PathObj) (hne : segs ≠ [])
    (h : ∀ s ∈ segs, s.length = .ok (len s) ∧ 0 < len s)
    (hcall : ∀ s ∈ segs, ∀ t, ∃ v, s.call t = .ok v) (tol : ℝ) :
    ∃ P, Polyline segs false tol = .ok P ∧ ∀ t, ∃ v, P.call t = .ok v := by
  obtain ⟨P, hP, -, hact, hval, -⟩ := C09_polyline len segs hne h hcall tol
  refine ⟨P, hP, fun t => ?_⟩
  obtain ⟨i, hi, -⟩ := hact t
  rw [hval t i hi]
  exact hcall _ (List.getElem_mem _) _

example : ∀ s ∈ [Line ⟨0, 0, 0⟩ ⟨1, 0, 0⟩], ∀ t, ∃ v, s.call t = .ok v := by
  intro s hs t
  simp only [List.mem_singleton] at hs; subst hs; exact ⟨_, rfl⟩

end HV
