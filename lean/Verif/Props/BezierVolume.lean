import Verif.Props.VolumeError

/-!
# C158 for Bezier curves: the error of the volume in terms of the control points
-/

namespace HV
open Spec Veh

/-- One coordinate of a Bezier curve of degree `k`. -/
noncomputable def bez (k : ℕ) (Q : ℕ → ℝ) (t : ℝ) : ℝ := ∑ j ∈ Finset.range (k + 1), Bezier.bw t k j * Q j

theorem bez_succ (k : ℕ) (Q : ℕ → ℝ) (t : ℝ) :
    bez (k + 1) Q t = (1 - t) * bez k Q t + t * bez k (fun j => Q (j + 1)) t := by
  unfold bez
  rw [Finset.sum_range_succ' _ (k + 1), Bezier.bw_succ_zero]
  have h1 : ∑ j ∈ Finset.range (k + 1), Bezier.bw t (k + 1) (j + 1) * Q (j + 1) =
      ∑ j ∈ Finset.range (k + 1), (1 - t) * (Bezier.bw t k (j + 1) * Q (j + 1)) +
      ∑ j ∈ Finset.range (k + 1), t * (Bezier.bw t k j * Q (j + 1)) := by
    rw [← Finset.sum_add_distrib]
    refine Finset.sum_congr rfl fun j hj => ?_
    rw [Bezier.bw_succ_succ t k j (Nat.lt_succ_iff.1 (Finset.mem_range.1 hj))]
    ring
  have h2 : ∑ j ∈ Finset.range (k + 1), (1 - t) * (Bezier.bw t k (j + 1) * Q (j + 1)) =
      ∑ j ∈ Finset.range k, (1 - t) * (Bezier.bw t k (j + 1) * Q (j + 1)) := by
    rw [Finset.sum_range_succ]
    have : Bezier.bw t k (k + 1) = 0 := by simp [Bezier.bw]
    rw [this]; simp
  rw [h1, h2, Finset.sum_range_succ' (fun j => Bezier.bw t k j * Q j) k, ← Finset.mul_sum, ← Finset.mul_sum]
  ring

theorem bez_sub (k : ℕ) (P Q : ℕ → ℝ) (t : ℝ) : bez k (fun j => P j - Q j) t = bez k P t - bez k Q t := by
  unfold bez
  rw [← Finset.sum_sub_distrib]
  exact Finset.sum_congr rfl fun j _ => by ring

/-- A coordinate stays within the bounds of the control points. -/
theorem bez_abs (k : ℕ) (Q : ℕ → ℝ) (R : ℝ) (hQ : ∀ j ≤ k, |Q j| ≤ R) (t : ℝ) (h0 : 0 ≤ t) (h1 : t ≤ 1) : |bez k Q t| ≤ R := by
  induction k generalizing Q with
  | zero => simpa [bez, Bezier.bw] using hQ 0 le_rfl
  | succ k ih =>
    rw [bez_succ]
    have a1 := abs_le.1 (ih Q fun j hj => hQ j (by omega))
    have a2 := abs_le.1 (ih (fun j => Q (j + 1)) fun j hj => hQ (j + 1) (by omega))
    rw [abs_le]
    constructor <;> nlinarith

/-- The derivative of a coordinate of degree `k + 1`. -/
theorem bez_deriv (k : ℕ) (Q : ℕ → ℝ) (t : ℝ) :
    HasDerivAt (bez (k + 1) Q) ((k + 1 : ℕ) * bez k (fun j => Q (j + 1) - Q j) t) t := by
  induction k generalizing Q with
  | zero =>
    have e : bez (0 + 1) Q = fun t => (1 - t) * Q 0 + t * Q 1 := by
      funext t
      rw [bez_succ]
      simp [bez, Bezier.bw]
    rw [e]
    have := (((hasDerivAt_id t).const_sub 1).mul_const (Q 0)).add ((hasDerivAt_id t).mul_const (Q 1))
    refine this.congr_deriv ?_
    simp [bez, Bezier.bw]
    ring
  | succ k ih =>
    have e : bez (k + 1 + 1) Q = fun t => (1 - t) * bez (k + 1) Q t + t * bez (k + 1) (fun j => Q (j + 1)) t := by
      funext t; rw [bez_succ]
    rw [e]
    have := (((hasDerivAt_id t).const_sub 1).mul (ih Q)).add ((hasDerivAt_id t).mul (ih fun j => Q (j + 1)))
    refine this.congr_deriv ?_
    have e1 := bez_succ k (fun j => Q (j + 1) - Q j) t
    have e2 := bez_sub (k + 1) (fun j => Q (j + 1)) Q t
    simp only [id]
    rw [e1] at e2 ⊢
    push_cast
    linear_combination (-1 : ℝ) * e2

theorem bez_continuous (k : ℕ) (Q : ℕ → ℝ) : Continuous (bez k Q) := by
  unfold bez Bezier.bw
  fun_prop

/-- A coordinate varies at most `k` times as fast as the control points. -/
theorem bez_lip (k : ℕ) (Q : ℕ → ℝ) (D : ℝ) (hD : ∀ j < k, |Q (j + 1) - Q j| ≤ D) (t : ℝ) (ht : t ∈ Set.Icc (0 : ℝ) 1) (u : ℝ)
    (hu : u ∈ Set.Icc (0 : ℝ) 1) : |bez k Q t - bez k Q u| ≤ k * D * |t - u| := by
  cases k with
  | zero => simp [bez, Bezier.bw]
  | succ k =>
    have := (convex_Icc (0 : ℝ) 1).norm_image_sub_le_of_norm_hasDerivWithin_le (f := bez (k + 1) Q) (C := ((k + 1 : ℕ) : ℝ) * D)
      (fun v _ => (bez_deriv k Q v).hasDerivWithinAt) (fun v hv => by
        rw [Real.norm_eq_abs, abs_mul, Nat.abs_cast]
        exact mul_le_mul_of_nonneg_left (bez_abs k _ D (fun j hj => hD j (by omega)) v hv.1 hv.2) (by positivity)) hu ht
    simpa only [Real.norm_eq_abs] using this

/-- The coordinates of a Bezier curve. -/
theorem bezier_coords (B : List V) (hB : B ≠ []) (t : ℝ) :
    (Bezier B).call t = .ok ⟨bez (B.length - 1) (fun i => (B.getD i ⟨0, 0, 0⟩).x) t, bez (B.length - 1) (fun i => (B.getD i ⟨0, 0, 0⟩).y) t,
      bez (B.length - 1) (fun i => (B.getD i ⟨0, 0, 0⟩).z) t⟩ := by
  obtain ⟨q, h1, h2⟩ := Bezier.call_spec B hB t
  have hlen : B.length = B.length - 1 + 1 := by have := List.length_pos_iff.2 hB; omega
  show Bezier.call B t = _
  rw [h1]
  congr 1
  apply Vec.toE_injective
  rw [h2]
  unfold bernsteinPoint
  rw [hlen]
  ext i
  simp only [Nat.add_sub_cancel]
  fin_cases i <;> simp [toE, bez, Bezier.bw]

/-- C158: a Bezier curve with the control points `B` that starts and ends on the axis.  At every resolution `n` the mesh of its
body of revolution is closed, and its volume is that of the body up to `2 π d² X (R Y + R' Z) / n` and the fraction
`π² / (24 n²)`.  Here `d` is the degree, `R` and `R'` bound the coordinates `y` and `z` of the control points, and `X`, `Y`, `Z`
the differences between consecutive ones. -/
theorem C158_bezier (B : List V) (hB : 2 ≤ B.length) (b c : V) (hb : B.head? = some b) (hc : B.getLast? = some c)
    (h0 : b.y = 0 ∧ b.z = 0) (h1 : c.y = 0 ∧ c.z = 0) (R R' X Y Z : ℝ)
    (hR : ∀ v ∈ B, |v.y| ≤ R ∧ |v.z| ≤ R')
    (hD : ∀ (j : ℕ) (hj : j + 1 < B.length), |B[j + 1].x - B[j].x| ≤ X ∧ |B[j + 1].y - B[j].y| ≤ Y ∧ |B[j + 1].z - B[j].z| ≤ Z)
    (f : ℝ → V) (hf : ∀ t, (Bezier B).call t = .ok (f t)) (vol : ℝ)
    (hvol : vol = Real.pi * ∫ t in (0 : ℝ)..1, deriv (fun t => (f t).x) t * ((f t).y ^ 2 + (f t).z ^ 2))
    (n : ℕ) (hn : 1 ≤ n) (name : Option String) (h : Heap) (id : ℕ) (hid : h id = RevolvedComponent (Bezier B) n name) :
    ∃ h' M c', generatePatches h id = (.ok (), h') ∧ (h' id).mesh = (.ok M, c') ∧ Closed M.tris ∧
      |signedVolume M.tris - vol| ≤ 2 * Real.pi * ((B.length - 1 : ℕ) : ℝ) ^ 2 * X * (R * Y + R' * Z) / n +
        Real.pi ^ 2 / (24 * n ^ 2) * |vol| := by
  have hne : B ≠ [] := by rintro rfl; simp at hB
  have hfe : f = fun t => ⟨bez (B.length - 1) (fun i => (B.getD i ⟨0, 0, 0⟩).x) t, bez (B.length - 1) (fun i => (B.getD i ⟨0, 0, 0⟩).y) t,
      bez (B.length - 1) (fun i => (B.getD i ⟨0, 0, 0⟩).z) t⟩ := by
    funext t
    have := bezier_coords B hne t
    rw [hf t] at this
    exact Except.ok.inj this
  have f0 : f 0 = b := by
    have := (C07_bernstein B).2.1 b hb
    rw [hf 0] at this
    exact Except.ok.inj this
  have f1 : f 1 = c := by
    have := (C07_bernstein B).2.2.1 c hc
    rw [hf 1] at this
    exact Except.ok.inj this
  obtain ⟨d, hd⟩ : ∃ d, B.length = d + 1 + 1 := ⟨B.length - 2, by omega⟩
  have hget : ∀ j < B.length, ∃ hj : j < B.length, B.getD j ⟨0, 0, 0⟩ = B[j] := fun j hj => ⟨hj, by simp [List.getD, hj]⟩
  have hy : ∀ j ≤ B.length - 1, |(B.getD j ⟨0, 0, 0⟩).y| ≤ R := by
    intro j hj
    obtain ⟨k, e⟩ := hget j (by omega)
    rw [e]; exact (hR _ (List.getElem_mem k)).1
  have hz : ∀ j ≤ B.length - 1, |(B.getD j ⟨0, 0, 0⟩).z| ≤ R' := by
    intro j hj
    obtain ⟨k, e⟩ := hget j (by omega)
    rw [e]; exact (hR _ (List.getElem_mem k)).2
  have hdiff : ∀ j < B.length - 1, |(B.getD (j + 1) ⟨0, 0, 0⟩).x - (B.getD j ⟨0, 0, 0⟩).x| ≤ X ∧
      |(B.getD (j + 1) ⟨0, 0, 0⟩).y - (B.getD j ⟨0, 0, 0⟩).y| ≤ Y ∧ |(B.getD (j + 1) ⟨0, 0, 0⟩).z - (B.getD j ⟨0, 0, 0⟩).z| ≤ Z := by
    intro j hj
    obtain ⟨k, e⟩ := hget j (by omega)
    obtain ⟨k', e'⟩ := hget (j + 1) (by omega)
    rw [e, e']
    exact hD j k'
  have hder : ∀ t, HasDerivAt (fun t => (f t).x)
      (((d + 1 : ℕ) : ℝ) * bez d (fun j => (B.getD (j + 1) ⟨0, 0, 0⟩).x - (B.getD j ⟨0, 0, 0⟩).x) t) t := by
    intro t
    have := bez_deriv d (fun i => (B.getD i ⟨0, 0, 0⟩).x) t
    rw [hfe, hd]
    exact this
  have hder' : ∀ t, deriv (fun t => (f t).x) t =
      ((d + 1 : ℕ) : ℝ) * bez d (fun j => (B.getD (j + 1) ⟨0, 0, 0⟩).x - (B.getD j ⟨0, 0, 0⟩).x) t := fun t => (hder t).deriv
  have hd1 : B.length - 1 = d + 1 := by omega
  obtain ⟨h', M, c', g1, g2, g3, g4⟩ := C158_revolved (Bezier B) f (fun t _ _ => hf t) (by rw [f0]; exact h0) (by rw [f1]; exact h1)
    (by rw [hfe]; exact (bez_continuous _ _).continuousOn) R ((B.length - 1 : ℕ) * Y) R' ((B.length - 1 : ℕ) * Z)
    (by rw [hfe]; exact fun t ht => bez_abs _ _ R hy t ht.1 ht.2)
    (by rw [hfe]; exact fun t ht u hu => bez_lip _ _ Y (fun j hj => (hdiff j hj).2.1) t ht u hu)
    (by rw [hfe]; exact fun t ht => bez_abs _ _ R' hz t ht.1 ht.2)
    (by rw [hfe]; exact fun t ht u hu => bez_lip _ _ Z (fun j hj => (hdiff j hj).2.2) t ht u hu)
    (deriv fun t => (f t).x) ∅ Set.countable_empty ((B.length - 1 : ℕ) * X)
    (fun t _ => (hder t).differentiableAt.hasDerivAt)
    (by
      intro t ht
      rw [hder' t, abs_mul, Nat.abs_cast, hd1]
      exact mul_le_mul_of_nonneg_left (bez_abs d _ X (fun j hj => (hdiff j (by omega)).1) t ht.1 ht.2) (by positivity))
    (by
      have : (deriv fun t => (f t).x) = fun t =>
        ((d + 1 : ℕ) : ℝ) * bez d (fun j => (B.getD (j + 1) ⟨0, 0, 0⟩).x - (B.getD j ⟨0, 0, 0⟩).x) t := funext hder'
      rw [this]
      exact (continuous_const.mul (bez_continuous _ _)).intervalIntegrable _ _) vol hvol n hn name h id hid
  refine ⟨h', M, c', g1, g2, g3, g4.trans (le_of_eq ?_)⟩
  ring

/-- A curve of degree three that meets the hypotheses. -/
example : ∃ (B : List V) (b c : V), 2 ≤ B.length ∧ B.head? = some b ∧ B.getLast? = some c ∧ (b.y = 0 ∧ b.z = 0) ∧ (c.y = 0 ∧ c.z = 0) ∧
    (∀ v ∈ B, |v.y| ≤ 1 ∧ |v.z| ≤ 0) ∧
    (∀ (j : ℕ) (hj : j + 1 < B.length), |B[j + 1].x - B[j].x| ≤ 2 ∧ |B[j + 1].y - B[j].y| ≤ 1 ∧ |B[j + 1].z - B[j].z| ≤ 0) ∧
    ∃ f : ℝ → V, ∀ t, (Bezier B).call t = .ok (f t) := by
  refine ⟨[⟨0, 0, 0⟩, ⟨0, 1, 0⟩, ⟨2, 1, 0⟩, ⟨4, 0, 0⟩], ⟨0, 0, 0⟩, ⟨4, 0, 0⟩, by simp, rfl, rfl, ⟨rfl, rfl⟩, ⟨rfl, rfl⟩, by simp, ?_, _,
    fun t => bezier_coords _ (by simp) t⟩
  intro j hj
  simp only [List.length_cons, List.length_nil] at hj
  have : j = 0 ∨ j = 1 ∨ j = 2 := by omega
  rcases this with rfl | rfl | rfl <;> norm_num

end HV
