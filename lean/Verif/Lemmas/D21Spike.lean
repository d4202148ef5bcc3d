import Verif.Lemmas.D21Wing
import Verif.Lemmas.MeshVertex

/-!
# The nose of the D-21's wing
-/

namespace HV
open Spec Veh

namespace Spec

/-- The resolution is so high that the mesh of the wing has a point within the last part of the leading edge, which runs across the nose. -/
def D21Fine (p : D21.Params) (n : ℕ) : Prop :=
  √((0.4 * p.L_w - 0.3) ^ 2 + 4 / 3 * (0.35 * p.W_w) ^ 2) + 1e-6 * (p.L_w + p.W_w) ≤ (2 * n - 1) * (0.15 * p.W_w)

end Spec

namespace D21
variable {p : Params} {P : PathObj} {l1 l2 T1 T2 : ℝ}

/-- The thickness function within the last part. -/
theorem spike_height (h : EdgeOf p P l1 l2 T1 T2) (hp : D21Ok p) (t : ℝ) (h2 : T2 ≤ t) :
    topH p P (L p T1 T2 t).x (L p T1 T2 t).y = -(0.075 * p.R_b) - 0.5 + 500 * (0.15 * p.W_w * (1 - (t - T2) / (1 - T2))) := by
  have q1 := h.T1_pos hp.span
  have q2 := h.T12 hp.span
  have e : (L p T1 T2 t).x = ex p.L_w T1 T2 1 := by
    simp only [L]
    rw [ex_third q1 q2 h2, ex_one q1 q2 (h.T2_lt hp.span)]
  rw [e]
  simp only [topH, lw_tip h hp, L, wing_thickness]
  rw [ey_third q1 q2 h2]
  ring

/-- At a fine resolution one of the sample points of the nose is in its outer half, or nearly. -/
theorem spike_point (h : EdgeOf p P l1 l2 T1 T2) (hp : D21Ok p) (n : ℕ) (hn : 1 ≤ n) (hf : D21Fine p n) (t : ℝ) (h1 : t ∈ Set.Icc (0 : ℝ) 1)
    (hd : |t - T1| ≤ 6e-7) : ∃ k ≤ n, T2 ≤ 1 - (k : ℝ) / n * (1 - 0.5 * (1 + t)) ∧
      0.4 ≤ 1 - (1 - (k : ℝ) / n * (1 - 0.5 * (1 + t)) - T2) / (1 - T2) := by
  have hn0 : (0 : ℝ) < n := by exact_mod_cast hn
  have hl := h.lenPos hp.span
  have e1 := h.T1
  have e2 := h.T2
  have e3 := h.total
  have e4 := h.bend
  have e5 := h.bend'
  have hW := hp.span
  have hLw := hp.wing
  have hs := hp.slender
  have q3 := h.T2_lt hp.span
  obtain ⟨d1, d2⟩ := abs_le.1 hd
  set l := l1 + l2 + 0.15 * p.W_w with hl'
  have a2 : (1 - T1) * l = l2 + 0.15 * p.W_w := by simp only [hl'] at e1 ⊢; linarith
  have a3 : (1 - T2) * l = 0.15 * p.W_w := by simp only [hl'] at e2 ⊢; linarith
  have hl2 : l2 ≤ √((0.4 * p.L_w - 0.3) ^ 2 + 4 / 3 * (0.35 * p.W_w) ^ 2) := Real.le_sqrt_of_sq_le e5
  have hch : 0.35 * p.W_w ≤ l2 := by
    refine le_trans ?_ e4
    unfold chord
    exact Real.le_sqrt_of_sq_le (by nlinarith [sq_nonneg (0.4 * p.L_w - 0.3)])
  unfold D21Fine at hf
  set D := 1 - T2 with hD
  have D0 : 0 < D := by linarith
  set u := 1 - 0.5 * (1 + t) with hu
  -- the distance between two samples is at most the length of the last part
  have b1 : u / n ≤ D := by
    rw [div_le_iff₀ hn0]
    have : u * l ≤ D * n * l := by
      have k1 : u * l ≤ 0.5 * (l2 + 0.15 * p.W_w) + 3e-7 * l := by
        have : u ≤ 0.5 * (1 - T1) + 3e-7 := by rw [hu]; linarith
        nlinarith
      have k2 : D * n * l = n * (0.15 * p.W_w) := by rw [← a3]; ring
      rw [k2]
      linarith
    exact le_of_mul_le_mul_right this hl
  -- all samples together cover nearly half of it
  have b2 : 0.4 * D ≤ u := by
    have : 0.4 * D * l ≤ u * l := by
      have k1 : 0.5 * (l2 + 0.15 * p.W_w) - 3e-7 * l ≤ u * l := by
        have : 0.5 * (1 - T1) - 3e-7 ≤ u := by rw [hu]; linarith
        nlinarith
      have k2 : 0.4 * D * l = 0.4 * (0.15 * p.W_w) := by rw [mul_assoc, a3]
      rw [k2]
      linarith
    exact le_of_mul_le_mul_right this hl
  have u0 : 0 < u := by linarith [mul_pos (by norm_num : (0 : ℝ) < 0.4) D0]
  have key : ∃ k ≤ n, (k : ℝ) / n * u ≤ D ∧ 0.4 * D ≤ (k : ℝ) / n * u := by
    by_cases hb : u ≤ D
    · refine ⟨n, le_rfl, ?_, ?_⟩ <;> rw [div_self hn0.ne', one_mul]
      · exact hb
      · exact b2
    · have hb := not_le.1 hb
      set δ := u / n with hδ
      have δ0 : 0 < δ := div_pos u0 hn0
      refine ⟨⌊D / δ⌋₊, ?_, ?_, ?_⟩
      · apply Nat.floor_le_of_le
        rw [div_le_iff₀ δ0, hδ, mul_div_cancel₀ _ hn0.ne']
        exact hb.le
      · have := Nat.floor_le (div_nonneg D0.le δ0.le)
        rw [div_mul_eq_mul_div, mul_div_assoc, ← hδ]
        calc _ ≤ D / δ * δ := mul_le_mul_of_nonneg_right this δ0.le
          _ = D := div_mul_cancel₀ _ δ0.ne'
      · have h1 : (1 : ℝ) ≤ ⌊D / δ⌋₊ := by
          exact_mod_cast Nat.floor_pos.2 ((one_le_div δ0).2 b1)
        have h2 : D / δ < ⌊D / δ⌋₊ + 1 := Nat.lt_floor_add_one _
        rw [div_lt_iff₀ δ0] at h2
        rw [div_mul_eq_mul_div, mul_div_assoc, ← hδ]
        have : δ ≤ ⌊D / δ⌋₊ * δ := by nlinarith
        linarith
  obtain ⟨k, hk, k1, k2⟩ := key
  refine ⟨k, hk, by linarith, ?_⟩
  have : 1 - (1 - (k : ℝ) / n * u - T2) / D = (k : ℝ) / n * u / D := by
    rw [eq_div_iff D0.ne', sub_mul, div_mul_cancel₀ _ D0.ne']
    rw [hD]; ring
  rw [this, le_div_iff₀ D0]
  exact k2

/-- At a fine resolution the mesh of the wing, if there is one, has a vertex far above the wing. -/
theorem wing_spike (h : EdgeOf p P l1 l2 T1 T2) (hp : D21Ok p) {ptan : ℝ → ℝ} (hT : FloatTan ptan) (w : Wing.State)
    (hw : Wing.init (rounded bisect01) (wingArgs bisect01 P p) = .ok w) (h1 : w.t_B1 ∈ Set.Icc (0 : ℝ) 1) (hd : |w.t_B1 - T1| ≤ 6e-7)
    (n : ℕ) (hn : 1 ≤ n) (hf : D21Fine p n) (H : Heap) (k : ℕ) (name : Option String) (hk : H k = wingOf ptan w n name (some "y")) (g : Heap) (c : Comp)
    (g1 : generatePatches H k = (.ok (), g)) (g2 : pipeline 0 (g k) = (.ok (), c)) (M : StlMesh) (c' : Comp) (g3 : c.mesh = (.ok M, c')) :
    ∃ v, IsVertex v M.tris ∧ v.x = -0.3 ∧ 30 * p.W_w - 0.5 - 0.075 * p.R_b ≤ v.z := by
  obtain ⟨hwa, hon⟩ := wing_on h hp hT w hw h1
  obtain ⟨p0, p1, f0, f1, hpl, hv⟩ := reflected_wing_vertex ptan w n hn H k name hk g c g1 g2 M c' g3
  obtain ⟨B1, t2, hB1, ht2, -, -, -, hf1⟩ := Wing.planform_ok hpl
  rw [hon.t2eq] at ht2
  obtain rfl := Option.some.inj ht2
  obtain ⟨i, hi, i1, i2⟩ := spike_point h hp n hn hf w.t_B1 h1 hd
  obtain ⟨v, v1, v2⟩ := hv ("top_patch_1", OffsetPatchFunction f1 w.args.top_tf) (by simp) 0 (Nat.zero_le _) i hi
  refine ⟨v, v2, ?_⟩
  obtain ⟨q, o, k1, k2, rfl⟩ := offsetPatch_ok.1 v1
  obtain ⟨cp, hc, hcp⟩ := bind_ok.1 hf1
  rw [← pure_ok.1 hcp, Nat.cast_zero, zero_div] at k1
  have hline : ∀ t, w.args.line.call t = .ok (L p T1 T2 t) := hon.line
  obtain ⟨hW, -, -⟩ := C22_edges_general _ _ _ _ _ cp hc ((i : ℝ) / n) _ _ _ _ rfl (hline _) (hline _) rfl
  rw [hW] at k1
  have hq : q = L p T1 T2 (1 - (i : ℝ) / n * (1 - 0.5 * (1 + w.t_B1))) := by
    rw [← Except.ok.inj k1, show 1 + (i : ℝ) / n * (0.5 * (1 + w.t_B1) - 1) = 1 - (i : ℝ) / n * (1 - 0.5 * (1 + w.t_B1)) by ring]
    ext <;> simp
  set t := 1 - (i : ℝ) / n * (1 - 0.5 * (1 + w.t_B1)) with ht
  have hx : q.x = -0.3 := by
    rw [hq]; exact ex_third (h.T1_pos hp.span) (h.T12 hp.span) i1
  have hy : q.y = 0.15 * p.W_w * (1 - (t - T2) / (1 - T2)) := by
    rw [hq]; exact ey_third (h.T1_pos hp.span) (h.T12 hp.span) i1
  have hW := hp.span
  have hy0 : 0.06 * p.W_w ≤ q.y := by rw [hy]; nlinarith
  have hD := hon.top q.x q.y q.z ⟨by rw [hx]; linarith [hp.wing], by rw [hx], by linarith⟩
  rw [hD] at k2
  obtain rfl := Except.ok.inj k2
  have hz := spike_height h hp t i1
  rw [← hq, ← hy] at hz
  refine ⟨by simp [hx], ?_⟩
  have hqz : q.z = 0 := by rw [hq]; rfl
  simp only [Vec.add_z, hqz, hz]
  linarith

end D21
end HV
