import Verif.Props.PhysicalFalcon
import Verif.Props.PassCheck
import Verif.Props.Degenerate

/-!
# C149 and C160 for the Falcon 9
-/

namespace HV
open Spec Veh

/-- `x` decreases along the path. -/
def StrictlyBack (s : PathObj) : Prop := ∀ t ∈ Set.Icc (0 : ℝ) 1, ∀ u ∈ Set.Icc (0 : ℝ) 1, t < u → (fnOf s u).x < (fnOf s t).x

theorem StrictlyBack.runs {s : PathObj} (h : StrictlyBack s) : RunsBack s := by
  intro t ht u hu htu
  rcases htu.eq_or_lt with rfl | htu
  · exact le_rfl
  · exact (h t ht u hu htu).le

theorem StrictlyBack.inj {s : PathObj} (h : StrictlyBack s) : Set.InjOn (fnOf s) (Set.Icc 0 1) := by
  intro t ht u hu e
  rcases lt_trichotomy t u with h1 | h1 | h1
  · exact absurd (congrArg Vec.x e) (h t ht u hu h1).ne'
  · exact h1
  · exact absurd (congrArg Vec.x e) (h u hu t ht h1).ne

theorem strictlyBack_line (p q : V) (h : q.x < p.x) : StrictlyBack (Line p q) := by
  intro t _ u _ htu
  rw [fnOf_line, fnOf_line]
  show p.x * (1 - u) + q.x * u < p.x * (1 - t) + q.x * t
  nlinarith

theorem strictlyBack_arc (a b c : V) (R α β : ℝ) (hR : 0 < R) (h0 : 0 ≤ α) (hlt : α < β) (hb : β ≤ Real.pi)
    (hf : ∀ t, fnOf (Arc a b c) t = ⟨c.x + R * Real.cos (α + (β - α) * t), c.y + R * Real.sin (α + (β - α) * t), 0⟩) :
    StrictlyBack (Arc a b c) := by
  intro t ht u hu htu
  rw [hf, hf]
  show c.x + R * Real.cos (α + (β - α) * u) < c.x + R * Real.cos (α + (β - α) * t)
  have h1 : Real.cos (α + (β - α) * u) < Real.cos (α + (β - α) * t) := by
    apply Real.cos_lt_cos_of_nonneg_of_le_pi
    · nlinarith [ht.1]
    · nlinarith [hu.2]
    · nlinarith
  nlinarith

/-- A polyline of segments along which `x` decreases. -/
theorem polyline_strictlyBack (segs : List PathObj) (hne : segs ≠ []) (h : ∀ s ∈ segs, GoodSeg s) (hr : ∀ s ∈ segs, StrictlyBack s)
    (hj : ∀ (i : ℕ) (hi : i + 1 < segs.length), (fnOf (segs[i]'(by omega)) 1).x = (fnOf segs[i + 1] 0).x) (P : PathObj)
    (hP : Polyline segs = .ok P) : StrictlyBack P := by
  obtain ⟨P', hP', -, -, -, hact⟩ := goodPolyline segs hne h
  rw [hP] at hP'
  obtain rfl := Except.ok.inj hP'
  have z01 : (0 : ℝ) ∈ Set.Icc (0 : ℝ) 1 := by simp
  have o01 : (1 : ℝ) ∈ Set.Icc (0 : ℝ) 1 := by simp
  have hpos : ∀ s ∈ segs, 0 < lenOf s := fun s hs => ((h s hs).len).2
  have chain : ∀ (k i : ℕ) (hk : i + 1 + k < segs.length), (fnOf (segs[i + 1 + k]) 0).x ≤ (fnOf (segs[i]'(by omega)) 1).x := by
    intro k
    induction k with
    | zero => intro i hk; exact (hj i hk).ge
    | succ k ih =>
      intro i hk
      have h1 := ih i (by omega)
      have h2 := (hr _ (List.getElem_mem (show i + 1 + k < segs.length by omega))).runs 0 z01 1 o01 zero_le_one
      have h3 := hj (i + 1 + k) (by omega)
      have e : segs[i + 1 + (k + 1)] = segs[i + 1 + k + 1]'(by omega) := rfl
      rw [e, ← h3]
      exact h2.trans h1
  intro t ht u hu htu
  obtain ⟨i, hi, s, hs, -, hai, hse, hit⟩ := hact t ht
  obtain ⟨j, hj', w, hw, hw0, haj, hwe, hjt⟩ := hact u hu
  rw [hit, hjt]
  rcases Nat.lt_trichotomy i j with hij | hij | hij
  · obtain ⟨k, rfl⟩ : ∃ k, j = i + 1 + k := ⟨j - (i + 1), by omega⟩
    have h1 := (hr _ (List.getElem_mem hi)).runs s hs 1 o01 hs.2
    have h2 := hr _ (List.getElem_mem hj') 0 z01 w hw (hw0 (by omega))
    exact h2.trans_le ((chain k i hj').trans h1)
  · subst hij
    refine hr _ (List.getElem_mem hi) s hs w hw ?_
    rw [hse, hwe]
    have hd := Polyline.bp_succ lenOf segs hpos i hi
    exact div_lt_div_of_pos_right (by linarith) (by linarith)
  · exfalso
    have h1 : bp lenOf segs i < t := by
      rcases hai.2.1 with h | h
      · omega
      · exact h
    have h2 : u ≤ bp lenOf segs (j + 1) := by
      rcases haj.2.2 with h | h
      · omega
      · exact h
    have h3 := Polyline.bp_le lenOf segs hpos (show j + 1 ≤ i by omega) hi.le
    linarith

/-- Along the outline of the fairing `x` decreases. -/
theorem fairing_strict (D L_b h r_n r_o f_L : ℝ) (hd : FalconDims D L_b h r_n r_o f_L) (P : PathObj)
    (hP : Falcon9.fairingLine D h r_n r_o f_L = .ok P) : StrictlyBack P := by
  obtain ⟨⟨hD, hL⟩, hf, ⟨h1, h2⟩, h3⟩ := hd
  obtain ⟨q, κ, hq, hq2, hκ, hseg⟩ := fairing_segments D h r_n r_o f_L h1 h2 h3
  have g4 : GoodSeg (Line ⟨-f_L, h, 0⟩ ⟨-f_L - 0.1 * f_L, D / 2, 0⟩) := goodLine _ _ (by intro e; have := congrArg Vec.x e; simp at this; linarith)
  have g5 : GoodSeg (Line ⟨-f_L - 0.1 * f_L, D / 2, 0⟩ ⟨-f_L - 0.3 * f_L, 0, 0⟩) := goodLine _ _ (by intro e; have := congrArg Vec.y e; simp at this; linarith)
  have hgood5 : ∀ s ∈ [Line ⟨-f_L, h, 0⟩ ⟨-f_L - 0.1 * f_L, D / 2, 0⟩, Line ⟨-f_L - 0.1 * f_L, D / 2, 0⟩ ⟨-f_L - 0.3 * f_L, 0, 0⟩], GoodSeg s := by
    intro s hs
    simp only [List.mem_cons, List.not_mem_nil, or_false] at hs
    rcases hs with rfl | rfl <;> assumption
  obtain ⟨B, hB, gB, B0, -, -⟩ := goodPolyline _ (by simp) hgood5
  have B0' : fnOf B 0 = ⟨-f_L, h, 0⟩ := by rw [B0]; exact fnOf_line_zero _ _
  rw [hseg, hB] at hP
  change Polyline _ = _ at hP
  have rB : StrictlyBack B := by
    refine polyline_strictlyBack _ (by simp) hgood5 ?_ ?_ B hB
    · intro s hs
      simp only [List.mem_cons, List.not_mem_nil, or_false] at hs
      rcases hs with rfl | rfl
      · exact strictlyBack_line _ _ (by show -f_L - 0.1 * f_L < -f_L; linarith)
      · exact strictlyBack_line _ _ (by show -f_L - 0.3 * f_L < -f_L - 0.1 * f_L; linarith)
    · intro i hi
      simp only [List.length_cons, List.length_nil] at hi
      obtain rfl : i = 0 := by omega
      simp only [List.getElem_cons_zero, List.getElem_cons_succ, fnOf_line_one, fnOf_line_zero]
  set ρ := r_o - r_n with hρ
  have hρ0 : 0 < ρ := by linarith
  have hlt : r_o - h < ρ := by linarith
  set α := Real.arcsin ((r_o - h) / ρ) with hα
  have hq0 : 0 < (r_o - h) / ρ := div_pos (by linarith) hρ0
  have hq1 : (r_o - h) / ρ < 1 := (div_lt_one hρ0).2 hlt
  have hα0 : 0 < α := Real.arcsin_pos.2 hq0
  have hα1 : α < Real.pi / 2 := Real.arcsin_lt_pi_div_two.2 hq1
  have hsin : ρ * Real.sin α = r_o - h := by rw [Real.sin_arcsin (by linarith) hq1.le]; field_simp
  have hcos : ρ * Real.cos α = q := by
    rw [hα, Real.cos_arcsin, show 1 - ((r_o - h) / ρ) ^ 2 = (q / ρ) ^ 2 by rw [div_pow, div_pow, hq2]; field_simp,
      Real.sqrt_sq (by positivity)]
    field_simp
  have hpi := Real.pi_pos
  have hκs : κ * (r_o - h) = r_n * Real.sin α := by rw [← hsin, ← hκ]; ring
  have hκc : κ * q = r_n * Real.cos α := by rw [← hcos, ← hκ]; ring
  rw [hκs, hκc] at hP
  set T : V := ⟨q + r_n * Real.cos α, r_n * Real.sin α, 0⟩ with hT
  obtain ⟨gn, fn⟩ := goodArc ⟨q + r_n, 0, 0⟩ T ⟨q, 0, 0⟩ r_n 0 α h1 hα0 (by linarith) rfl
    (by rw [Real.cos_zero, Real.sin_zero]; ext <;> simp) (by ext <;> simp [T])
  have hro : r_o = ρ + r_n := by rw [hρ]; ring
  obtain ⟨go, fo⟩ := goodArc T ⟨0, h, 0⟩ ⟨0, h - r_o, 0⟩ r_o α (Real.pi / 2) (by linarith) hα1 (by linarith) rfl
    (by
      ext
      · simp [T]; linear_combination (-1 : ℝ) * hcos + Real.cos α * (-1) * hro
      · simp [T]; linear_combination (-1 : ℝ) * hsin - Real.sin α * hro
      · rfl)
    (by rw [Real.cos_pi_div_two, Real.sin_pi_div_two]; ext <;> simp)
  have g3 : GoodSeg (Line ⟨0, h, 0⟩ ⟨-f_L, h, 0⟩) := goodLine _ _ (by intro e; have := congrArg Vec.x e; simp at this; linarith)
  have hgood : ∀ s ∈ [Arc ⟨q + r_n, 0, 0⟩ T ⟨q, 0, 0⟩, Arc T ⟨0, h, 0⟩ ⟨0, h - r_o, 0⟩, Line ⟨0, h, 0⟩ ⟨-f_L, h, 0⟩, B], GoodSeg s := by
    intro s hs
    simp only [List.mem_cons, List.not_mem_nil, or_false] at hs
    rcases hs with rfl | rfl | rfl | rfl <;> assumption
  refine polyline_strictlyBack _ (by simp) hgood ?_ ?_ P hP
  · intro s hs
    simp only [List.mem_cons, List.not_mem_nil, or_false] at hs
    rcases hs with rfl | rfl | rfl | rfl
    · exact strictlyBack_arc _ _ _ r_n 0 α h1 le_rfl hα0 (by linarith) fn
    · exact strictlyBack_arc _ _ _ r_o α (Real.pi / 2) (by linarith) hα0.le hα1 (by linarith) fo
    · exact strictlyBack_line _ _ (by show -f_L < 0; linarith)
    · exact rB
  · intro i hi
    simp only [List.length_cons, List.length_nil] at hi
    obtain rfl | rfl | rfl : i = 0 ∨ i = 1 ∨ i = 2 := by omega
    · simp only [List.getElem_cons_zero, List.getElem_cons_succ, fn, fo]
      simp only [mul_one, mul_zero, sub_zero, zero_add, add_zero]
      have e1 : α + (Real.pi / 2 - α) * 0 = α := by ring
      linear_combination (-1 : ℝ) * hcos - Real.cos α * hro
    · simp only [List.getElem_cons_zero, List.getElem_cons_succ, fo, fnOf_line_zero]
      simp
    · simp only [List.getElem_cons_zero, List.getElem_cons_succ, fnOf_line_one, B0']

/-- The outline of the body does not meet itself. -/
theorem body_injective (D L_b f_L : ℝ) (hD : 0 < D) (hL : 0 < L_b) (Q : ℝ → V)
    (fQ : ∀ t ∈ Set.Icc (0 : ℝ) 1, (Q t).x = -f_L - L_b * max 0 (min 1 ((t * (D + L_b) - D / 2) / L_b)) ∧
      (Q t).y = min (D / 2) (min (t * (D + L_b)) ((1 - t) * (D + L_b))) ∧ (Q t).z = 0) : Set.InjOn Q (Set.Icc 0 1) := by
  have hT : 0 < D + L_b := by linarith
  have clamp : ∀ a : ℝ, L_b * max 0 (min 1 (a / L_b)) = max 0 (min L_b a) := by
    intro a
    rw [mul_max_of_nonneg _ _ hL.le, mul_min_of_nonneg _ _ hL.le, mul_zero, mul_one, mul_div_cancel₀ _ hL.ne']
  have key : ∀ t ∈ Set.Icc (0 : ℝ) 1, ∀ u ∈ Set.Icc (0 : ℝ) 1, t < u → Q t ≠ Q u := by
    intro t ht u hu htu e
    obtain ⟨tx, ty, -⟩ := fQ t ht
    obtain ⟨ux, uy, -⟩ := fQ u hu
    rw [e, ux, clamp, clamp] at tx
    rw [e, uy] at ty
    have a0 := mul_nonneg ht.1 hT.le
    have a1 := mul_nonneg (sub_nonneg.2 hu.2) hT.le
    have a2 := mul_lt_mul_of_pos_right htu hT
    have r1 : (1 - t) * (D + L_b) = (D + L_b) - t * (D + L_b) := by ring
    have r2 : (1 - u) * (D + L_b) = (D + L_b) - u * (D + L_b) := by ring
    rw [r1, r2] at ty
    rw [r2] at a1
    generalize t * (D + L_b) = a at *
    generalize u * (D + L_b) = b at *
    rcases le_or_gt b (D / 2) with c1 | c1
    · rw [min_eq_left (by linarith : b ≤ D + L_b - b), min_eq_left (by linarith : a ≤ D + L_b - a), min_eq_right c1,
        min_eq_right (by linarith : a ≤ D / 2)] at ty
      linarith
    rcases le_or_gt (D / 2 + L_b) a with c2 | c2
    · rw [min_eq_right (by linarith : D + L_b - b ≤ b), min_eq_right (by linarith : D + L_b - a ≤ a),
        min_eq_right (by linarith : D + L_b - b ≤ D / 2), min_eq_right (by linarith : D + L_b - a ≤ D / 2)] at ty
      linarith
    have m1 : max 0 (min L_b (a - D / 2)) < max 0 (min L_b (b - D / 2)) := by
      rw [max_eq_right (by rw [le_min_iff]; constructor <;> linarith : 0 ≤ min L_b (b - D / 2)), max_lt_iff, lt_min_iff, lt_min_iff]
      refine ⟨⟨hL, by linarith⟩, ?_, ?_⟩
      · exact lt_of_le_of_lt (min_le_right _ _) (by linarith)
      · exact lt_of_le_of_lt (min_le_right _ _) (by linarith)
    linarith
  intro t ht u hu e
  rcases lt_trichotomy t u with h1 | h1 | h1
  · exact absurd e (key t ht u hu h1)
  · exact h1
  · exact absurd e.symm (key u hu t ht h1)

/-- A revolved component of a plain vehicle is generated like the component alone. -/
theorem revolved_plain (lib : Lib) (depth : ℕ) (st st' : VState) (hang : st.veh.angleOffset = 0) (htr : st.veh.transformations = [])
    (han : st.veh.analyseOn = none) (hu : Unshared st.heap st.veh.components) (h : generate lib depth st = (.ok (), st')) (k : ℕ)
    (hk : k ∈ st.veh.components) (line : PathObj) (n : ℕ) (hc : st.heap k = RevolvedComponent line n) :
    ∃ g, generatePatches st.heap k = (.ok (), g) ∧ st'.heap k = g k := by
  obtain ⟨g, g1, g2⟩ := generate_plain_component lib depth st st' hang htr han hu h k hk
  refine ⟨g, g1, ?_⟩
  obtain ⟨A, B, C, e⟩ := generatePatches_opts st.heap k (by unfold Comp.children; rw [hc]; simp [RevolvedComponent])
  rw [g1] at e
  simp only [hc] at e
  have hp : pipeline 0 (g k) = (.ok (), g k) := by
    apply pipeline_plain <;> rw [e] <;> rfl
  rw [hp] at g2
  exact ((Prod.mk.inj g2).2).symm

/-- The two generated bodies of the Falcon 9 and their outlines. -/
theorem falcon_outlines (hp : Heap) (id1 id2 : ℕ) (hid : id1 ≠ id2) (kwargs : Dict String ℝ) (D L_b h r_n r_o f_L : ℝ)
    (ha : FalconArgs kwargs D L_b h r_n r_o f_L) (hd : FalconDims D L_b h r_n r_o f_L) (lib : Lib) (depth : ℕ) :
    ∃ st P Q, Falcon9.instanceOf hp id1 id2 kwargs = .ok st ∧ st.veh.named = [("revolved_1", id1), ("revolved_2", id2)] ∧
      BackLine P (Real.sqrt ((r_o - r_n) ^ 2 - (r_o - h) ^ 2) + r_n) (-1.3 * f_L) ∧ BackLine Q (-f_L) (-f_L - L_b) ∧
      (∀ t ∈ Set.Icc (0 : ℝ) 1, (fnOf P t).z = 0) ∧ (∀ t ∈ Set.Icc (0 : ℝ) 1, (fnOf Q t).z = 0) ∧
      Set.InjOn (fnOf P) (Set.Icc 0 1) ∧ Set.InjOn (fnOf Q) (Set.Icc 0 1) ∧
      ∀ n1 n2 : ℕ, 1 ≤ n1 → 1 ≤ n2 → ∃ st' H g1 g2,
        generate lib depth (withResolution (withResolution st id1 n1) id2 n2) = (.ok (), st') ∧
        H id1 = RevolvedComponent P n1 ∧ H id2 = RevolvedComponent Q n2 ∧ generatePatches H id1 = (.ok (), g1) ∧
        generatePatches H id2 = (.ok (), g2) ∧ st'.heap id1 = g1 id1 ∧ st'.heap id2 = g2 id2 := by
  obtain ⟨P, hP, bP⟩ := fairing_backLine D L_b h r_n r_o f_L hd
  obtain ⟨Q, hQ, bQ, fQ⟩ := body_backLine D L_b h f_L hd.body.1 hd.body.2
  obtain ⟨st, h1, h2, h3, h4⟩ := falcon_instance hp id1 id2 hid kwargs ha.keys D L_b h r_n r_o f_L ha.D ha.L_b ha.h' ha.nose ha.ogive
    ha.fairing P Q hP hQ
  refine ⟨st, P, Q, h1, by rw [h2]; rfl, bP, bQ, fairing_flat D L_b h r_n r_o f_L hd P hP, fun t ht => (fQ t ht).2.2,
    (fairing_strict D L_b h r_n r_o f_L hd P hP).inj, body_injective D L_b f_L hd.body.1 hd.body.2 _ fQ, fun n1 n2 hn1 hn2 => ?_⟩
  obtain ⟨st', M1, M2, c1, c2, s1, -⟩ :=
    falcon_generate st id1 id2 hid h2 P Q 100 50 h3 h4 _ _ _ _ bP bQ n1 n2 hn1 hn2 lib depth
  set w := withResolution (withResolution st id1 n1) id2 n2 with hw
  have w1 : w.heap id1 = RevolvedComponent P n1 := by
    show ((st.heap.upd id1 _).upd id2 _) id1 = _
    rw [upd_ne _ _ _ _ hid, upd_self, h3]; rfl
  have w2 : w.heap id2 = RevolvedComponent Q n2 := by
    show ((st.heap.upd id1 _).upd id2 { (st.heap.upd id1 _) id2 with stl_resolution := .int n2 }) id2 = _
    rw [upd_self, upd_ne _ _ _ _ hid.symm, h4]; rfl
  have wv : w.veh = falconVeh id1 id2 := h2
  have hcs : w.veh.components = [id1, id2] := by rw [wv]; rfl
  have hun : Unshared w.heap w.veh.components := by
    rw [hcs]
    refine unshared_leaves _ _ (by simp [hid]) ?_
    intro k hk
    simp only [List.mem_cons, List.not_mem_nil, or_false] at hk
    rcases hk with rfl | rfl
    · unfold Comp.children; rw [w1]; rfl
    · unfold Comp.children; rw [w2]; rfl
  obtain ⟨g1, a1, b1⟩ := revolved_plain lib depth w st' (by rw [wv]; rfl) (by rw [wv]; rfl) (by rw [wv]; rfl) hun s1 id1 (by rw [hcs]; simp) P n1 w1
  obtain ⟨g2, a2, b2⟩ := revolved_plain lib depth w st' (by rw [wv]; rfl) (by rw [wv]; rfl) (by rw [wv]; rfl) hun s1 id2 (by rw [hcs]; simp) Q n2 w2
  exact ⟨st', w.heap, g1, g2, s1, w1, w2, a1, a2, b1, b2⟩

/-- C149 for the Falcon 9: the triangles without area of its two meshes are those at the tips, with two corners in the same point
of the axis; all others have an area. -/
theorem C149_falcon9_partial (hp : Heap) (id1 id2 : ℕ) (hid : id1 ≠ id2) (kwargs : Dict String ℝ) (D L_b h r_n r_o f_L : ℝ)
    (ha : FalconArgs kwargs D L_b h r_n r_o f_L) (hd : FalconDims D L_b h r_n r_o f_L) (lib : Lib) (depth : ℕ) (n1 n2 : ℕ) (hn1 : 2 ≤ n1)
    (hn2 : 2 ≤ n2) :
    ∃ st st' M1 M2 c1 c2, Falcon9.instanceOf hp id1 id2 kwargs = .ok st ∧ st.veh.named = [("revolved_1", id1), ("revolved_2", id2)] ∧
      generate lib depth (withResolution (withResolution st id1 n1) id2 n2) = (.ok (), st') ∧
      (st'.heap id1).mesh = (.ok M1, c1) ∧ (st'.heap id2).mesh = (.ok M2, c2) ∧
      (∀ t ∈ M1.tris, Degenerate t → t.v1 = t.v0 ∧
        (t.v0 = ⟨Real.sqrt ((r_o - r_n) ^ 2 - (r_o - h) ^ 2) + r_n, 0, 0⟩ ∨ t.v0 = ⟨-1.3 * f_L, 0, 0⟩)) ∧
      ∀ t ∈ M2.tris, Degenerate t → t.v1 = t.v0 ∧ (t.v0 = ⟨-f_L, 0, 0⟩ ∨ t.v0 = ⟨-f_L - L_b, 0, 0⟩) := by
  obtain ⟨st, P, Q, h1, h2, bP, bQ, zP, zQ, iP, iQ, hgen⟩ := falcon_outlines hp id1 id2 hid kwargs D L_b h r_n r_o f_L ha hd lib depth
  obtain ⟨st', H, g1, g2, s1, k1, k2, a1, a2, b1, b2⟩ := hgen n1 n2 (by omega) (by omega)
  obtain ⟨g1', M1, c1, p1, p2, p3⟩ := C149_revolved_partial P (fnOf P) (fun t _ _ => bP.good.call t) zP iP (fun t ht => bP.above t ht.1 ht.2)
    (by rw [bP.first]) (by rw [bP.last]) n1 hn1 none H id1 k1
  obtain ⟨g2', M2, c2, q1, q2, q3⟩ := C149_revolved_partial Q (fnOf Q) (fun t _ _ => bQ.good.call t) zQ iQ (fun t ht => bQ.above t ht.1 ht.2)
    (by rw [bQ.first]) (by rw [bQ.last]) n2 hn2 none H id2 k2
  rw [a1] at p1
  rw [a2] at q1
  obtain rfl : g1 = g1' := congrArg Prod.snd p1
  obtain rfl : g2 = g2' := congrArg Prod.snd q1
  rw [bP.first, bP.last] at p3
  rw [bQ.first, bQ.last] at q3
  exact ⟨st, st', M1, M2, c1, c2, h1, h2, s1, by rw [b1]; exact p2, by rw [b2]; exact q2, fun t ht hdeg => (p3 t ht hdeg).2,
    fun t ht hdeg => (q3 t ht hdeg).2⟩

/-- C149 fails for the Falcon 9: both its meshes have triangles without area at every resolution. -/
theorem C149_falcon9_violated (hp : Heap) (id1 id2 : ℕ) (hid : id1 ≠ id2) (kwargs : Dict String ℝ) (D L_b h r_n r_o f_L : ℝ)
    (ha : FalconArgs kwargs D L_b h r_n r_o f_L) (hd : FalconDims D L_b h r_n r_o f_L) (lib : Lib) (depth : ℕ) (n1 n2 : ℕ) (hn1 : 1 ≤ n1)
    (hn2 : 1 ≤ n2) :
    ∃ st st' M1 M2 c1 c2, Falcon9.instanceOf hp id1 id2 kwargs = .ok st ∧ st.veh.named = [("revolved_1", id1), ("revolved_2", id2)] ∧
      generate lib depth (withResolution (withResolution st id1 n1) id2 n2) = (.ok (), st') ∧
      (st'.heap id1).mesh = (.ok M1, c1) ∧ (st'.heap id2).mesh = (.ok M2, c2) ∧ (∃ t ∈ M1.tris, Degenerate t) ∧ ∃ t ∈ M2.tris, Degenerate t := by
  obtain ⟨st, P, Q, h1, h2, bP, bQ, -, -, -, -, hgen⟩ := falcon_outlines hp id1 id2 hid kwargs D L_b h r_n r_o f_L ha hd lib depth
  obtain ⟨st', H, g1, g2, s1, k1, k2, a1, a2, b1, b2⟩ := hgen n1 n2 hn1 hn2
  obtain ⟨g1', M1, c1, p1, p2, t1, p3, p4, -⟩ := C149_revolved_violated P (fnOf P) (fun t _ _ => bP.good.call t)
    (.inl (by rw [bP.first]; exact ⟨rfl, rfl⟩)) n1 hn1 none H id1 k1
  obtain ⟨g2', M2, c2, q1, q2, t2, q3, q4, -⟩ := C149_revolved_violated Q (fnOf Q) (fun t _ _ => bQ.good.call t)
    (.inl (by rw [bQ.first]; exact ⟨rfl, rfl⟩)) n2 hn2 none H id2 k2
  rw [a1] at p1
  rw [a2] at q1
  obtain rfl : g1 = g1' := congrArg Prod.snd p1
  obtain rfl : g2 = g2' := congrArg Prod.snd q1
  exact ⟨st, st', M1, M2, c1, c2, h1, h2, s1, by rw [b1]; exact p2, by rw [b2]; exact q2, ⟨t1, p3, p4⟩, t2, q3, q4⟩

/-- C160 fails for the Falcon 9: at every resolution both meshes are closed, and the check rejects both. -/
theorem C160_falcon9_violated (hp : Heap) (id1 id2 : ℕ) (hid : id1 ≠ id2) (kwargs : Dict String ℝ) (D L_b h r_n r_o f_L : ℝ)
    (ha : FalconArgs kwargs D L_b h r_n r_o f_L) (hd : FalconDims D L_b h r_n r_o f_L) (lib : Lib) (depth : ℕ) (n1 n2 : ℕ) (hn1 : 1 ≤ n1)
    (hn2 : 1 ≤ n2) :
    ∃ st st' M1 M2 c1 c2, Falcon9.instanceOf hp id1 id2 kwargs = .ok st ∧ st.veh.named = [("revolved_1", id1), ("revolved_2", id2)] ∧
      generate lib depth (withResolution (withResolution st id1 n1) id2 n2) = (.ok (), st') ∧
      (st'.heap id1).mesh = (.ok M1, c1) ∧ (st'.heap id2).mesh = (.ok M2, c2) ∧ Closed M1.tris ∧ Closed M2.tris ∧
      ∀ (eps : ℝ) (pa : Bool), 0 ≤ eps → stlCheck eps M1 pa true = .ok false ∧ stlCheck eps M2 pa true = .ok false := by
  obtain ⟨st, P, Q, h1, h2, bP, bQ, -, -, -, -, hgen⟩ := falcon_outlines hp id1 id2 hid kwargs D L_b h r_n r_o f_L ha hd lib depth
  obtain ⟨st', H, g1, g2, s1, k1, k2, a1, a2, b1, b2⟩ := hgen n1 n2 hn1 hn2
  obtain ⟨g1', M1, c1, p1, p2, p3, p4⟩ := C160_revolved_violated P (fnOf P) (fun t _ _ => bP.good.call t)
    (by rw [bP.first]; exact ⟨rfl, rfl⟩) (by rw [bP.last]; exact ⟨rfl, rfl⟩) n1 hn1 none H id1 k1
  obtain ⟨g2', M2, c2, q1, q2, q3, q4⟩ := C160_revolved_violated Q (fnOf Q) (fun t _ _ => bQ.good.call t)
    (by rw [bQ.first]; exact ⟨rfl, rfl⟩) (by rw [bQ.last]; exact ⟨rfl, rfl⟩) n2 hn2 none H id2 k2
  rw [a1] at p1
  rw [a2] at q1
  obtain rfl : g1 = g1' := congrArg Prod.snd p1
  obtain rfl : g2 = g2' := congrArg Prod.snd q1
  exact ⟨st, st', M1, M2, c1, c2, h1, h2, s1, by rw [b1]; exact p2, by rw [b2]; exact q2, p3, q3, fun eps pa he => ⟨p4 eps pa he, q4 eps pa he⟩⟩

/-- The default dimensions meet the hypotheses. -/
example : FalconArgs [] 3.75 60 (5 / 2) 0.75 7 6 ∧ FalconDims 3.75 60 (5 / 2) 0.75 7 6 := by
  refine ⟨⟨by simp [Dict.keys], ?_, ?_, ?_, ?_, ?_, ?_⟩, ⟨by norm_num, by norm_num, by norm_num, by norm_num⟩⟩ <;> simp [given]

end HV
