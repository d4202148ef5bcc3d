import Verif.Props.Polyline
import Verif.Props.Common
import Verif.Props.RevolvedVolume
import Verif.Props.Swept

/-!
# Polylines as functions: monotone runs and positive radii
-/

namespace HV
open Spec

/-- The length of a path that has one. -/
noncomputable def lenOf (s : PathObj) : ℝ := match s.length with
  | .ok l => l
  | .error _ => 0

/-- The point function of a path that evaluates everywhere. -/
noncomputable def fnOf (s : PathObj) (t : ℝ) : V := okv (s.call t)

/-- A segment that evaluates everywhere and has positive length. -/
def GoodSeg (s : PathObj) : Prop := (∃ l, s.length = .ok l ∧ 0 < l) ∧ ∀ t, ∃ v, s.call t = .ok v

theorem GoodSeg.len {s : PathObj} (h : GoodSeg s) : s.length = .ok (lenOf s) ∧ 0 < lenOf s := by
  obtain ⟨⟨l, hl, hp⟩, -⟩ := h
  rw [lenOf, hl]
  exact ⟨rfl, hp⟩

theorem GoodSeg.call {s : PathObj} (h : GoodSeg s) (t : ℝ) : s.call t = .ok (fnOf s t) := okv_eq (h.2 t)

/-- A polyline of good segments. -/
theorem goodPolyline (segs : List PathObj) (hne : segs ≠ []) (h : ∀ s ∈ segs, GoodSeg s) :
    ∃ P, Polyline segs = .ok P ∧ GoodSeg P ∧ fnOf P 0 = fnOf (segs.head hne) 0 ∧ fnOf P 1 = fnOf (segs.getLast hne) 1 ∧
      ∀ t ∈ Set.Icc (0 : ℝ) 1, ∃ (i : ℕ) (hi : i < segs.length), ∃ u ∈ Set.Icc (0 : ℝ) 1, (i ≠ 0 → 0 < u) ∧
        Active lenOf segs t i ∧ u = (t - bp lenOf segs i) / (bp lenOf segs (i + 1) - bp lenOf segs i) ∧
        fnOf P t = fnOf (segs[i]'hi) u := by
  obtain ⟨P, hP, ⟨b0, b1, hb⟩, hex, hact, h0, h1, hlen⟩ := C09_polyline lenOf segs hne (fun s hs => (h s hs).len)
    (fun s hs => (h s hs).2) (1 / 10 ^ 10)
  have hcall : ∀ t, ∃ v, P.call t = .ok v := by
    intro t
    obtain ⟨i, hi, -⟩ := hex t
    rw [hact t i hi]
    exact (h _ (List.getElem_mem _)).2 _
  refine ⟨P, hP, ⟨⟨_, hlen, ?_⟩, hcall⟩, ?_, ?_, ?_⟩
  · exact Polyline.total_pos lenOf segs hne fun s hs => ((h s hs).len).2
  · unfold fnOf; rw [h0]
  · unfold fnOf; rw [h1]
  · intro t ht
    obtain ⟨i, hi, -⟩ := hex t
    have hil := hi.1
    have hd : 0 < bp lenOf segs (i + 1) - bp lenOf segs i := sub_pos.2 (hb i (i + 1) (by omega) (by omega))
    have hlo : bp lenOf segs i ≤ t ∧ (i ≠ 0 → bp lenOf segs i < t) := by
      rcases hi.2.1 with h | h
      · subst h
        rw [b0]
        exact ⟨ht.1, fun h => absurd rfl h⟩
      · exact ⟨h.le, fun _ => h⟩
    have hhi : t ≤ bp lenOf segs (i + 1) := by
      rcases hi.2.2 with h | h
      · rw [h, b1]; exact ht.2
      · exact h
    refine ⟨i, hil, _, ⟨div_nonneg (by linarith) hd.le, (div_le_one hd).2 (by linarith)⟩, ?_, hi, rfl, ?_⟩
    · intro hne0
      exact div_pos (by linarith [hlo.2 hne0]) hd
    · unfold fnOf
      rw [hact t i hi]

/-- `x` does not increase along the path. -/
def RunsBack (s : PathObj) : Prop := ∀ t ∈ Set.Icc (0 : ℝ) 1, ∀ u ∈ Set.Icc (0 : ℝ) 1, t ≤ u → (fnOf s u).x ≤ (fnOf s t).x

/-- The quantity `q` does not increase along the path. -/
def Falls (q : V → ℝ) (s : PathObj) : Prop := ∀ t ∈ Set.Icc (0 : ℝ) 1, ∀ u ∈ Set.Icc (0 : ℝ) 1, t ≤ u → q (fnOf s u) ≤ q (fnOf s t)

/-- A quantity that does not increase along the segments, and agrees where they meet, does not increase along the polyline. -/
theorem polyline_falls (q : V → ℝ) (segs : List PathObj) (hne : segs ≠ []) (h : ∀ s ∈ segs, GoodSeg s) (hr : ∀ s ∈ segs, Falls q s)
    (hj : ∀ (i : ℕ) (hi : i + 1 < segs.length), q (fnOf (segs[i]'(by omega)) 1) = q (fnOf segs[i + 1] 0)) (P : PathObj)
    (hP : Polyline segs = .ok P) : Falls q P := by
  obtain ⟨P', hP', -, -, -, hact⟩ := goodPolyline segs hne h
  rw [hP] at hP'
  obtain rfl := Except.ok.inj hP'
  have z01 : (0 : ℝ) ∈ Set.Icc (0 : ℝ) 1 := by simp
  have o01 : (1 : ℝ) ∈ Set.Icc (0 : ℝ) 1 := by simp
  have hpos : ∀ s ∈ segs, 0 < lenOf s := fun s hs => ((h s hs).len).2
  -- from the end of segment `i` to the start of segment `j`
  have chain : ∀ (k i : ℕ) (hk : i + 1 + k < segs.length), q (fnOf (segs[i + 1 + k]) 0) ≤ q (fnOf (segs[i]'(by omega)) 1) := by
    intro k
    induction k with
    | zero => intro i hk; exact (hj i hk).ge
    | succ k ih =>
      intro i hk
      have h1 := ih i (by omega)
      have h2 := hr _ (List.getElem_mem (show i + 1 + k < segs.length by omega)) 0 z01 1 o01 zero_le_one
      have h3 := hj (i + 1 + k) (by omega)
      have e : segs[i + 1 + (k + 1)] = segs[i + 1 + k + 1]'(by omega) := rfl
      rw [e, ← h3]
      exact h2.trans h1
  intro t ht u hu htu
  obtain ⟨i, hi, s, hs, -, hai, hse, hit⟩ := hact t ht
  obtain ⟨j, hj', w, hw, -, haj, hwe, hjt⟩ := hact u hu
  rw [hit, hjt]
  rcases Nat.lt_trichotomy i j with hij | hij | hij
  · obtain ⟨k, rfl⟩ : ∃ k, j = i + 1 + k := ⟨j - (i + 1), by omega⟩
    have h1 := hr _ (List.getElem_mem hi) s hs 1 o01 hs.2
    have h2 := hr _ (List.getElem_mem hj') 0 z01 w hw hw.1
    exact h2.trans ((chain k i hj').trans h1)
  · subst hij
    refine hr _ (List.getElem_mem hi) s hs w hw ?_
    rw [hse, hwe]
    have hd := Polyline.bp_succ lenOf segs hpos i hi
    exact div_le_div_of_nonneg_right (by linarith) (by linarith)
  · exfalso
    have h1 : bp lenOf segs i < t := by
      rcases hai.2.1 with h | h
      · omega
      · exact h
    have h2 : u ≤ bp lenOf segs (j + 1) := by
      rcases haj.2.2 with h | h
      · omega
      · exact h
    have h3 := Polyline.bp_le lenOf segs hpos (show j + 1 ≤ i by omega) hi.le
    linarith

theorem polyline_runsBack (segs : List PathObj) (hne : segs ≠ []) (h : ∀ s ∈ segs, GoodSeg s) (hr : ∀ s ∈ segs, RunsBack s)
    (hj : ∀ (i : ℕ) (hi : i + 1 < segs.length), (fnOf (segs[i]'(by omega)) 1).x = (fnOf segs[i + 1] 0).x) (P : PathObj)
    (hP : Polyline segs = .ok P) : RunsBack P := polyline_falls Vec.x segs hne h hr hj P hP

/-- A property of points that holds within the segments holds within the polyline. -/
theorem polyline_inside (segs : List PathObj) (hne : segs ≠ []) (h : ∀ s ∈ segs, GoodSeg s) (Q : V → Prop)
    (hi : ∀ (i : ℕ) (hi : i < segs.length) (t : ℝ), 0 < t → (t < 1 ∨ t = 1 ∧ i + 1 ≠ segs.length) → Q (fnOf segs[i] t))
    (P : PathObj) (hP : Polyline segs = .ok P) (t : ℝ) (h0 : 0 < t) (h1 : t < 1) : Q (fnOf P t) := by
  obtain ⟨P', hP', -, -, -, hact⟩ := goodPolyline segs hne h
  rw [hP] at hP'
  obtain rfl := Except.ok.inj hP'
  have hpos : ∀ s ∈ segs, 0 < lenOf s := fun s hs => ((h s hs).len).2
  obtain ⟨i, hil, u, hu, hu0, ha, hue, hit⟩ := hact t ⟨h0.le, h1.le⟩
  have hd := Polyline.bp_succ lenOf segs hpos i hil
  rw [hit]
  apply hi
  · by_cases hz : i = 0
    · subst hz
      rw [hue, Polyline.bp_zero]
      rw [Polyline.bp_zero] at hd
      exact div_pos (by linarith) (by linarith)
    · exact hu0 hz
  · rcases hu.2.lt_or_eq with h | h
    · exact .inl h
    · refine .inr ⟨h, fun hl => ?_⟩
      rw [hue, hl, Polyline.bp_last lenOf segs hne hpos, div_eq_one_iff_eq (by rw [hl, Polyline.bp_last lenOf segs hne hpos] at hd; linarith)] at h
      linarith

/-- A body of revolution whose line runs towards negative `x` and has positive radius inside encloses a negative volume. -/
theorem polygonalVolume_neg (f : ℝ → V) (hx : ∀ t ∈ Set.Icc (0 : ℝ) 1, ∀ u ∈ Set.Icc (0 : ℝ) 1, t ≤ u → (f u).x ≤ (f t).x)
    (hlt : (f 1).x < (f 0).x) (hy : ∀ t, 0 < t → t < 1 → 0 < (f t).y) (n : ℕ) (hn : 2 ≤ n) :
    polygonalVolume (4 * n) n (fun i => (f ((i : ℝ) / n)).x) (fun i => ((f ((i : ℝ) / n)).y, (f ((i : ℝ) / n)).z)) < 0 := by
  have hn0 : (0 : ℝ) < n := by exact_mod_cast (by omega : 0 < n)
  have hmem : ∀ i ≤ n, (i : ℝ) / n ∈ Set.Icc (0 : ℝ) 1 := fun i hi =>
    ⟨by positivity, (div_le_one hn0).2 (by exact_mod_cast hi)⟩
  unfold polygonalVolume
  apply mul_neg_of_pos_of_neg
  · apply mul_pos (by positivity)
    apply Real.sin_pos_of_pos_of_lt_pi
    · have := Real.pi_pos; positivity
    · have := Real.pi_pos
      rw [div_lt_iff₀ (by positivity)]
      have : (2 : ℝ) < (4 * n : ℕ) := by exact_mod_cast (by omega : 2 < 4 * n)
      nlinarith
  set F : ℕ → V := fun i => f ((i : ℝ) / n) with hF
  show ∑ i ∈ Finset.range n, ((F (i + 1)).x - (F i).x) * (((F i).y ^ 2 + (F i).z ^ 2) + ((F i).y * (F (i + 1)).y + (F i).z * (F (i + 1)).z) +
    ((F (i + 1)).y ^ 2 + (F (i + 1)).z ^ 2)) / 3 < 0
  have hstep : ∀ i < n, (F (i + 1)).x ≤ (F i).x := by
    intro i hi
    refine hx _ (hmem i hi.le) _ (hmem (i + 1) hi) (div_le_div_of_nonneg_right ?_ hn0.le)
    push_cast; linarith
  have hq : ∀ i, 0 ≤ ((F i).y ^ 2 + (F i).z ^ 2) + ((F i).y * (F (i + 1)).y + (F i).z * (F (i + 1)).z) +
      ((F (i + 1)).y ^ 2 + (F (i + 1)).z ^ 2) := by
    intro i
    nlinarith [sq_nonneg ((F i).y + (F (i + 1)).y), sq_nonneg ((F i).z + (F (i + 1)).z), sq_nonneg (F i).y, sq_nonneg (F (i + 1)).y,
      sq_nonneg (F i).z, sq_nonneg (F (i + 1)).z]
  apply Finset.sum_neg'
  · intro i hi
    have := mul_nonpos_of_nonpos_of_nonneg (sub_nonpos.2 (hstep i (Finset.mem_range.1 hi))) (hq i)
    linarith
  · by_contra hcon
    push Not at hcon
    have hzero : ∀ i < n, (F (i + 1)).x = (F i).x := by
      intro i hi
      have h1 := hcon i (Finset.mem_range.2 hi)
      by_contra hne
      have h2 : (F (i + 1)).x - (F i).x < 0 := sub_neg.2 (lt_of_le_of_ne (hstep i hi) hne)
      have h3 : 0 < ((F i).y ^ 2 + (F i).z ^ 2) + ((F i).y * (F (i + 1)).y + (F i).z * (F (i + 1)).z) +
          ((F (i + 1)).y ^ 2 + (F (i + 1)).z ^ 2) := by
        have : (F i).y ≠ 0 ∨ (F (i + 1)).y ≠ 0 := by
          by_cases hi0 : i = 0
          · right
            refine (hy _ (by positivity) ?_).ne'
            rw [div_lt_one hn0]
            exact_mod_cast (by omega : i + 1 < n)
          · left
            have : 0 < i := by omega
            refine (hy _ (by positivity) ?_).ne'
            rw [div_lt_one hn0]
            exact_mod_cast hi
        rcases this with h | h
        · have := sq_pos_of_ne_zero h
          nlinarith [sq_nonneg ((F i).y + 2 * (F (i + 1)).y), sq_nonneg ((F i).z + (F (i + 1)).z), sq_nonneg (F i).z, sq_nonneg (F (i + 1)).z]
        · have := sq_pos_of_ne_zero h
          nlinarith [sq_nonneg (2 * (F i).y + (F (i + 1)).y), sq_nonneg ((F i).z + (F (i + 1)).z), sq_nonneg (F i).z, sq_nonneg (F (i + 1)).z]
      have := mul_neg_of_neg_of_pos h2 h3
      linarith
    have hall : ∀ i ≤ n, (F i).x = (F 0).x := by
      intro i
      induction i with
      | zero => intro _; rfl
      | succ i ih => intro hi; rw [hzero i (by omega), ih (by omega)]
    have := hall n le_rfl
    simp only [hF, div_self hn0.ne', Nat.cast_zero, zero_div] at this
    linarith

/-! ## Segments -/

theorem goodLine (p q : V) (h : p ≠ q) : GoodSeg (Line p q) := by
  refine ⟨⟨_, rfl, ?_⟩, fun t => ⟨_, rfl⟩⟩
  rw [Vec.abs_sub_eq_vdist, vdist, dist_pos]
  intro e
  apply h
  have h0 := congrFun (congrArg WithLp.ofLp e) 0
  have h1 := congrFun (congrArg WithLp.ofLp e) 1
  have h2 := congrFun (congrArg WithLp.ofLp e) 2
  simp [toE] at h0 h1 h2
  ext
  exacts [h0.symm, h1.symm, h2.symm]

theorem fnOf_line (p q : V) (t : ℝ) : fnOf (Line p q) t = ⟨p.x * (1 - t) + q.x * t, p.y * (1 - t) + q.y * t, p.z * (1 - t) + q.z * t⟩ := by
  show lineAt p q t = _
  ext <;> simp [lineAt]

theorem runsBack_line (p q : V) (h : q.x ≤ p.x) : RunsBack (Line p q) := by
  intro t _ u _ htu
  rw [fnOf_line, fnOf_line]
  show p.x * (1 - u) + q.x * u ≤ p.x * (1 - t) + q.x * t
  nlinarith

/-- The arc between two polar angles about a centre in the plane `z = 0`. -/
theorem arc_polar (c : V) (R α β : ℝ) (hR : 0 < R) (hlt : α < β) (hpi : β - α < Real.pi) (hz : c.z = 0) :
    (Arc ⟨c.x + R * Real.cos α, c.y + R * Real.sin α, 0⟩ ⟨c.x + R * Real.cos β, c.y + R * Real.sin β, 0⟩ c).length =
      .ok ((β - α) * R) ∧
    ∀ t, (Arc ⟨c.x + R * Real.cos α, c.y + R * Real.sin α, 0⟩ ⟨c.x + R * Real.cos β, c.y + R * Real.sin β, 0⟩ c).call t =
      .ok ⟨c.x + R * Real.cos (α + (β - α) * t), c.y + R * Real.sin (α + (β - α) * t), 0⟩ := by
  set a : V := ⟨c.x + R * Real.cos α, c.y + R * Real.sin α, 0⟩
  set b : V := ⟨c.x + R * Real.cos β, c.y + R * Real.sin β, 0⟩
  have ea : a - c = ⟨R * Real.cos α, R * Real.sin α, 0⟩ := by ext <;> simp [a, hz]
  have eb : b - c = ⟨R * Real.cos β, R * Real.sin β, 0⟩ := by ext <;> simp [b, hz]
  have ha2 := Real.sin_sq_add_cos_sq α
  have hb2 := Real.sin_sq_add_cos_sq β
  have da : vdist a c = R := by
    rw [← Vec.abs_sub_eq_vdist, ea, Vec.abs_eq_sqrt_dot]
    simp only [Vec.dot]
    rw [show R * Real.cos α * (R * Real.cos α) + R * Real.sin α * (R * Real.sin α) + 0 * 0 = R ^ 2 by linear_combination R ^ 2 * ha2,
      Real.sqrt_sq hR.le]
  have db : vdist b c = R := by
    rw [← Vec.abs_sub_eq_vdist, eb, Vec.abs_eq_sqrt_dot]
    simp only [Vec.dot]
    rw [show R * Real.cos β * (R * Real.cos β) + R * Real.sin β * (R * Real.sin β) + 0 * 0 = R ^ 2 by linear_combination R ^ 2 * hb2,
      Real.sqrt_sq hR.le]
  have hs : 0 < Real.sin (β - α) := Real.sin_pos_of_pos_of_lt_pi (by linarith) hpi
  have hcz : (Vec.cross (a - c) (b - c)).z = R ^ 2 * Real.sin (β - α) := by
    rw [ea, eb, Real.sin_sub]; simp [Vec.cross]; ring
  obtain ⟨θ, h1, h2, h3, h4, h5, h6⟩ := arc_slerp a b c (da.trans db.symm) (by rw [ea, eb]; simp [Vec.cross])
    (by rw [hcz]; positivity)
  have hθ : θ = β - α := by
    rw [h1, EuclideanGeometry.angle, InnerProductGeometry.angle, vsub_eq_sub, vsub_eq_sub, ← Vec.toE_sub, ← Vec.toE_sub,
      ← Vec.dot_eq_inner]
    have na : ‖toE (a - c)‖ = R := by rw [Vec.toE_sub, ← dist_eq_norm]; exact da
    have nb : ‖toE (b - c)‖ = R := by rw [Vec.toE_sub, ← dist_eq_norm]; exact db
    rw [na, nb, ea, eb]
    simp only [Vec.dot]
    rw [show (R * Real.cos α * (R * Real.cos β) + R * Real.sin α * (R * Real.sin β) + 0 * 0) / (R * R) = Real.cos (β - α) by
      rw [Real.cos_sub]; field_simp; ring]
    exact Real.arccos_cos (by linarith) hpi.le
  refine ⟨by rw [h5, hθ, db], fun t => ?_⟩
  rw [h6, hθ, ea, eb]
  have e1 : Real.sin ((β - α) * (1 - t)) = Real.sin (β - α) * Real.cos ((β - α) * t) - Real.cos (β - α) * Real.sin ((β - α) * t) := by
    rw [mul_sub, mul_one, Real.sin_sub]
  have e2 : Real.cos β = Real.cos α * Real.cos (β - α) - Real.sin α * Real.sin (β - α) := by
    rw [← Real.cos_add]; congr 1; ring
  have e3 : Real.sin β = Real.sin α * Real.cos (β - α) + Real.cos α * Real.sin (β - α) := by
    rw [← Real.sin_add]; congr 1; ring
  rw [e1, e2, e3, Real.cos_add, Real.sin_add]
  congr 1
  ext
  · simp; field_simp; ring
  · simp; field_simp; ring
  · simp [hz]

end HV
