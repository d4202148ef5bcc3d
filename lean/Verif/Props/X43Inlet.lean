import Verif.Props.X43Size

/-!
# C170: the inlet of the X-43 stays below the back of its body
-/

namespace HV
open Spec Veh

/-- As `liesOver_half`, for a leading edge that first runs towards the border of the half plane and then away from it. -/
theorem liesOver_peak {A0 A1 : V} {L : ℝ → V} (α β δ : ℝ) (h0 : α * A0.x + β * A0.y ≤ δ) (h1 : α * A1.x + β * A1.y ≤ δ)
    (hL : ∀ t ∈ Set.Icc (0 : ℝ) 1, α * (L t).x + β * (L t).y ≤ δ)
    (hm : ∀ t ∈ Set.Icc (0 : ℝ) 1, (∀ u ∈ Set.Icc (0 : ℝ) 1, u ≤ t → α * (L u).x + β * (L u).y ≤ α * (L t).x + β * (L t).y) ∨
      (∀ u ∈ Set.Icc (0 : ℝ) 1, t ≤ u → α * (L u).x + β * (L u).y ≤ α * (L t).x + β * (L t).y)) :
    LiesOver (fun x y => α * x + β * y ≤ δ) A0 A1 L := by
  constructor
  · intro t1 ht1 r hr s hs
    have hm : r * t1 ∈ Set.Icc (0 : ℝ) 1 := ⟨mul_nonneg hr.1 ht1.1, mul_le_one₀ hr.2 ht1.1 ht1.2⟩
    have hr' : 0 ≤ 1 - r := by linarith [hr.2]
    have hs' : 0 ≤ 1 - s := by linarith [hs.2]
    have k := add_le_add (mul_le_mul_of_nonneg_left h0 hr') (mul_le_mul_of_nonneg_left h1 hr.1)
    have k2 := add_le_add (mul_le_mul_of_nonneg_left k hs') (mul_le_mul_of_nonneg_left (hL _ hm) hs.1)
    simp only [lineAt, Vec.add_x, Vec.mul_x, Vec.add_y, Vec.mul_y]
    linarith
  · intro t1 ht1 t2 ht2 r hr s hs
    have h2 : t2 ∈ Set.Icc (0 : ℝ) 1 := ⟨ht1.1.trans ht2.1, ht2.2⟩
    have hd : 0 ≤ t2 - t1 := by linarith [ht2.1]
    have hd' : 0 ≤ 1 - t2 := by linarith [ht2.2]
    have n2 : t1 + r * (t2 - t1) ≤ t2 := by nlinarith [mul_le_mul_of_nonneg_right hr.2 hd]
    have hN : t1 + r * (t2 - t1) ∈ Set.Icc (0 : ℝ) 1 := ⟨add_nonneg ht1.1 (mul_nonneg hr.1 hd), n2.trans h2.2⟩
    have e2 : t2 ≤ 1 + s * (t2 - 1) := by nlinarith [mul_le_mul_of_nonneg_right hs.2 hd']
    have hE : 1 + s * (t2 - 1) ∈ Set.Icc (0 : ℝ) 1 := ⟨h2.1.trans e2, by nlinarith [mul_nonneg hs.1 hd']⟩
    have p1 := hL _ hN
    have p2 := hL _ hE
    have p3 := hL _ h2
    have hr' : 0 ≤ 1 - r := by linarith [hr.2]
    have hs' : 0 ≤ 1 - s := by linarith [hs.2]
    have a1 := mul_le_mul_of_nonneg_left h1 (mul_nonneg hr' hs')
    rcases hm _ h2 with hm | hm
    · have i1 := hm _ hN n2
      generalize L (t1 + r * (t2 - t1)) = N at *
      generalize L (1 + s * (t2 - 1)) = E at *
      generalize L t2 = M at *
      have b1 := mul_le_mul_of_nonneg_left i1 hs.1
      have b2 := mul_le_mul_of_nonneg_left p3 (mul_nonneg hr' hs.1)
      have b3 := mul_le_mul_of_nonneg_left p2 hr.1
      linarith
    · have i1 := hm _ hE e2
      generalize L (t1 + r * (t2 - t1)) = N at *
      generalize L (1 + s * (t2 - 1)) = E at *
      generalize L t2 = M at *
      have b1 := mul_le_mul_of_nonneg_left i1 hr.1
      have b2 := mul_le_mul_of_nonneg_left p3 (mul_nonneg hs' hr.1)
      have b3 := mul_le_mul_of_nonneg_left p1 hs.1
      linarith

namespace X43
variable {p : Params}

/-- How much the half of the body narrows per length in front of the break. -/
noncomputable def taper (p : Params) : ℝ := 0.3 * p.body_width / (p.body_length - (B1 p).x)

/-- The planform of the half of the inlet. -/
def InletArea (p : Params) (x y : ℝ) : Prop :=
  ((box p x y ∧ y ≤ p.body_width / 2) ∧ 1 * x + 0 * y ≤ (iTT p).x) ∧ taper p * x + 1 * y ≤ p.body_width / 2 + taper p * (B1 p).x

theorem taper_pos (hp : X43Ok p) : 0 < taper p := by
  have := b1_pos hp
  have hw := hp.width
  unfold taper
  exact div_pos (by positivity) (by linarith)

theorem taper_line (hp : X43Ok p) {x : ℝ} (hx : (B1 p).x ≤ x) : ly p x = p.body_width / 2 + taper p * (B1 p).x - taper p * x := by
  rw [ly_front hp hx]
  have := b1_pos hp
  have hd : p.body_length - (B1 p).x ≠ 0 := by linarith
  unfold taper
  field_simp
  ring

theorem area_le (hp : X43Ok p) {x y : ℝ} (h : InletArea p x y) : y ≤ ly p x := by
  obtain ⟨⟨⟨-, h1⟩, -⟩, h2⟩ := h
  rcases lt_or_ge x (B1 p).x with k | k
  · rw [ly_rear hp k]; exact h1
  · rw [taper_line hp k]; linarith

/-- As `edge_mono`, with the segments. -/
theorem edge_segs {es : List (V × V)} (hne : es ≠ []) (hd : ∀ e ∈ es, e.1 ≠ e.2)
    (hj : ∀ i (h : i + 1 < es.length), (es[i]'(by omega)).2 = (es[i + 1]'h).1) (hx : ∀ e ∈ es, e.1.x ≤ e.2.x)
    (hy : ∀ e ∈ es, e.2.y ≤ e.1.y) (hz : ∀ e ∈ es, e.1.z = 0 ∧ e.2.z = 0) {P : PathObj} (hP : Polyline (es.map fun e => Line e.1 e.2) = .ok P)
    {L : ℝ → V} (hL : ∀ t, P.call t = .ok (L t)) :
    L 0 = (es.head hne).1 ∧ L 1 = (es.getLast hne).2 ∧ MonoEdge L ∧ (∀ t ∈ Set.Icc (0 : ℝ) 1, (L t).z = 0) ∧
      ∀ t ∈ Set.Icc (0 : ℝ) 1, ∃ e ∈ es, ∃ u ∈ Set.Icc (0 : ℝ) 1, L t = lineAt e.1 e.2 u := by
  obtain ⟨a1, a2, a3, a4⟩ := edge_mono hne hd hj hx hy hz hP hL
  refine ⟨a1, a2, a3, a4, ?_⟩
  obtain ⟨P', h1, h2, h3, h4, h5, h6, h7⟩ := lines_edge es hne hd hj
  rw [hP] at h1
  obtain rfl := Except.ok.inj h1
  obtain rfl : L = fnOf P := funext fun t => Except.ok.inj ((hL t).symm.trans (h2 t))
  exact h5

/-- The inlet over its planform. -/
theorem inlet_narrow (hp : X43Ok p) {ptan : ℝ → ℝ} (hT : FloatTan ptan) : ∃ a L wd, inletArgs p = .ok a ∧
    SmoothWing ptan (InletArea p) a L (fun x y => botH p x y - 0.05)
      (fun x y => engineH p x + botH p x y - taperH p x y + 0.00001) wd 1e-12 ∧ FlatPlanform a L wd 0.001 ∧ wd 0 = 0.001 ∧ wd 1 = 0.001 ∧
    a.t_B1 = none ∧ (L 0).x ≤ a.A1.x ∧ a.A1.x ≤ (L 1).x ∧ a.A0 = ⟨0, 0, 0⟩ ∧ a.A1 = ⟨(B1 p).x, 0, 0⟩ ∧ a.B0 = ⟨0, p.body_width / 2, 0⟩ ∧
    a.TT = ⟨(iTT p).x, 0, 0⟩ ∧ a.flap_length = 0 := by
  obtain ⟨a, L, ea, sa, tb, tc, y0, y1, yT, l0, l1⟩ := inlet_smooth hp hT
  have h := b1_pos hp
  have hb := b0y_pos hp
  have hi := itt_gt hp
  have hq2 : pdiv (((iTT p).x - (B2 p).x) * ((B2 p).y - (B1 p).y)) ((B2 p).x - (B1 p).x) = .ok (ly p (iTT p).x - (B2 p).y) := by
    have e1 : (B2 p).x = p.body_length := rfl
    rw [pdiv_ok _ _ (by rw [e1]; linarith)]
    unfold ly
    rw [if_neg (by linarith)]
    congr 1; ring
  unfold inletArgs at ea
  rw [hq2, ok_bind] at ea
  simp only [sub_add_cancel] at ea
  obtain ⟨P, hP, e⟩ := bind_ok.1 ea
  obtain rfl := pure_ok.1 e
  have b1y : (B1 p).y = (B0 p).y := rfl
  have b0x : (B0 p).x = 0 := rfl
  have ity : (iTT p).y = 0 := rfl
  have ei : (iTT p).x = (B1 p).x + 0.5 * (p.body_length - (B1 p).x) := by simp only [iTT, TT]; ring
  have el : ly p (iTT p).x = (B0 p).y * 0.7 := by rw [ei, ly_mid hp _ (by norm_num)]; ring
  obtain ⟨h3, h4, hm, hz, hseg⟩ := edge_segs (es := [(B0 p, B1 p), (B1 p, (⟨(iTT p).x, ly p (iTT p).x, 0⟩ : V)), (⟨(iTT p).x, ly p (iTT p).x, 0⟩, iTT p)]) (by simp)
    (by
      intro e he
      simp only [List.mem_cons, List.not_mem_nil, or_false] at he
      rcases he with rfl | rfl | rfl <;> intro hc
      · have := congrArg Vec.x hc; simp only [B0] at this; linarith
      · have := congrArg Vec.x hc; simp only at this; linarith
      · have := congrArg Vec.y hc; simp only [el, ity] at this; linarith)
    (by
      intro i hi
      simp only [List.length_cons, List.length_nil] at hi
      obtain rfl | rfl : i = 0 ∨ i = 1 := by omega
      all_goals rfl)
    (by
      intro e he
      simp only [List.mem_cons, List.not_mem_nil, or_false] at he
      rcases he with rfl | rfl | rfl <;> simp only [el, b1y, b0x, ity] <;> linarith)
    (by
      intro e he
      simp only [List.mem_cons, List.not_mem_nil, or_false] at he
      rcases he with rfl | rfl | rfl <;> simp only [el, b1y, b0x, ity] <;> linarith)
    (by
      intro e he
      simp only [List.mem_cons, List.not_mem_nil, or_false] at he
      rcases he with rfl | rfl | rfl <;> exact ⟨rfl, rfl⟩)
    hP sa.line
  simp only [List.head_cons, List.getLast_cons, List.getLast_singleton, ne_eq, reduceCtorEq, not_false_eq_true, List.cons_ne_nil] at h3 h4
  have seg : ∀ t ∈ Set.Icc (0 : ℝ) 1, ((L t).y = p.body_width / 2 ∧ (L t).x ≤ (B1 p).x) ∨
      taper p * (L t).x + 1 * (L t).y = p.body_width / 2 + taper p * (B1 p).x ∨ ((L t).x = (iTT p).x ∧ (L t).y ≤ ly p (iTT p).x) := by
    intro t ht
    obtain ⟨e, he, u, hu, hq⟩ := hseg t ht
    simp only [List.mem_cons, List.not_mem_nil, or_false] at he
    rw [hq]
    have eb : (B0 p).y = p.body_width / 2 := rfl
    rcases he with rfl | rfl | rfl
    · refine .inl ⟨?_, ?_⟩
      · simp only [lineAt, Vec.add_y, Vec.mul_y, b1y, eb]; ring
      · simp only [lineAt, Vec.add_x, Vec.mul_x, b0x]
        nlinarith [hu.2, h.1]
    · refine .inr (.inl ?_)
      simp only [lineAt, Vec.add_x, Vec.mul_x, Vec.add_y, Vec.mul_y, b1y, eb, taper_line hp hi.1.le]
      ring
    · refine .inr (.inr ⟨?_, ?_⟩)
      · simp only [lineAt, Vec.add_x, Vec.mul_x]; ring
      · simp only [lineAt, Vec.add_y, Vec.mul_y, ity]
        have := ly_pos hp hi.2.le
        nlinarith [hu.1]
  refine ⟨_, L, _, by unfold inletArgs; rw [hq2, ok_bind]; simp only [sub_add_cancel]; rw [hP]; rfl,
    sa.over' (fun x y h => h.1.1.1) (((sa.over.and (liesOver_low hm rfl rfl (by rw [h4]; exact le_rfl) _ (by rw [h3]; exact le_rfl))).and
      (liesOver_half 1 0 _ ?_ ?_ ?_ (.inl ?_))).and (liesOver_peak (taper p) 1 _ ?_ ?_ ?_ ?_)),
    ⟨rfl, rfl, hz, fun _ _ => le_rfl⟩, rfl, rfl, rfl, l0, l1, rfl, rfl, rfl, rfl, rfl⟩
  · simp only; linarith
  · have : (A1 p).x = (B1 p).x := rfl
    simp only [this]; linarith
  · intro t ht
    have := hm.fwd t ht 1 ⟨zero_le_one, le_rfl⟩ ht.2
    rw [h4] at this
    linarith
  · intro t ht u hu htu
    linarith [hm.fwd t ht u hu htu]
  · have := taper_pos hp
    have := h.1
    have := hp.width
    simp only; nlinarith
  · have e : (A1 p).x = (B1 p).x := rfl
    have := hp.width
    simp only [e, show (A1 p).y = 0 from rfl]; linarith
  · intro t ht
    rcases seg t ht with ⟨k1, k2⟩ | k | ⟨k1, k2⟩
    · have := mul_le_mul_of_nonneg_left k2 (taper_pos hp).le
      rw [k1]; linarith
    · exact k.le
    · have := taper_line hp hi.1.le
      rw [k1]; linarith
  · intro t ht
    rcases seg t ht with ⟨k1, k2⟩ | k | ⟨k1, k2⟩
    · refine .inl fun u hu hut => ?_
      have a1 := mul_le_mul_of_nonneg_left (hm.fwd u hu t ht hut) (taper_pos hp).le
      have a2 := hm.inw 0 ⟨le_rfl, zero_le_one⟩ u hu hu.1
      rw [h3] at a2
      have : (B0 p).y = p.body_width / 2 := rfl
      rw [k1]; linarith
    · refine .inl fun u hu hut => ?_
      rw [k]
      rcases seg u hu with ⟨k1, k2⟩ | k | ⟨k1, k2⟩
      · have := mul_le_mul_of_nonneg_left k2 (taper_pos hp).le
        rw [k1]; linarith
      · exact k.le
      · have := taper_line hp hi.1.le
        rw [k1]; linarith
    · refine .inr fun u hu htu => ?_
      have a1 := hm.inw t ht u hu htu
      have a2 := hm.fwd u hu 1 ⟨zero_le_one, le_rfl⟩ hu.2
      rw [h4] at a2
      have := mul_le_mul_of_nonneg_left a2 (taper_pos hp).le
      rw [k1]; linarith

/-- The lower side of the inlet is not above the underside of the body. -/
theorem inlet_low (hp : X43Ok p) (he : 0 ≤ p.engine_h) {x y : ℝ} (h : InletArea p x y) : 0 ≤ engineH p x - taperH p x y := by
  have hy := area_le hp h
  obtain ⟨⟨⟨⟨h0, h1, -⟩, -⟩, h2⟩, -⟩ := h
  have h2' : x ≤ (iTT p).x := by linarith
  have hl := ly_pos hp h1
  have hE := (engineH_le hp he h0 h2').1
  unfold taperH
  split_ifs with k
  · have : 5 * y / ly p x ≤ 5 := (div_le_iff₀ hl).2 (by linarith)
    nlinarith
  · linarith

end X43

namespace Spec

/-- The height of the upper edges of the body of an X-43 at station `x`; its back rises above them (to smaller `z`). -/
noncomputable def X43Edge (p : X43.Params) (x : ℝ) : ℝ :=
  (x - p.body_length) * (Real.tan (p.body_angle * Real.pi / 180) + 0.075 / 3.7) - 0.025 * p.body_length / 3.7

/-- The body has corners at the ends of its upper edges, and the inlet stays below the edges (at greater `z`), up to the width of its own rounded edge. -/
structure X43InletBelow (p : X43.Params) (body inlet : TriMesh ℝ) : Prop where
  rear : ∀ s, s = 1 ∨ s = -1 → IsVertex ⟨0, s * (p.body_width / 2), X43Edge p 0⟩ body
  nose : IsVertex ⟨p.body_length, 0, X43Edge p p.body_length⟩ body
  below : ∀ v, IsVertex v inlet → X43Edge p v.x - 0.001 * |Real.tan (p.body_angle * Real.pi / 180) + 0.075 / 3.7| - 1e-12 ≤ v.z

/-- The inlet sticks out of the back: some vertex is beyond a plane that has the whole of the body on its other side. -/
def SticksOut (body inlet : TriMesh ℝ) : Prop :=
  ∃ k d : ℝ, (∀ v, IsVertex v body → k * v.x + d ≤ v.z) ∧ ∃ v, IsVertex v inlet ∧ v.z < k * v.x + d

end Spec

/-- The meshes of the body and of the inlet. -/
theorem x43_skins (ptan : ℝ → ℝ) (hT : FloatTan ptan) (h : Heap) (ids : ℕ → ℕ) (hi : Function.Injective ids) (kwargs : Dict String ℝ)
    (p : X43.Params) (ha : X43Args kwargs p) (hp : X43Sized p) :
    ∃ st, X43.instanceOf bisect01 ptan h ids kwargs = .ok st ∧ ∀ st0 lib depth, Rescaled st st0 → ∃ st', generate lib depth st0 = (.ok (), st') ∧
      ∃ M M' c c', (st'.heap (ids 0)).mesh = (.ok M, c) ∧ (st'.heap (ids 3)).mesh = (.ok M', c') ∧
        ∃ a b m m' n n', M.tris = m ++ mapVerts (mirrorV 1) m ∧ M'.tris = m' ++ mapVerts (mirrorV 1) m' ∧
          WingSized (fun x y => X43.box p x y ∧ y ≤ p.body_width / 2) a (X43.topH p) (X43.botH p) 0.02 0.05 0.05 1e-12 n m ∧
          a.A0 = ⟨0, 0, 0⟩ ∧ a.B0 = ⟨0, p.body_width / 2, 0⟩ ∧ a.TT = ⟨p.body_length, 0, 0⟩ ∧ a.flap_length = 0 ∧
          WingSized (X43.InletArea p) b (fun x y => X43.botH p x y - 0.05)
            (fun x y => X43.engineH p x + X43.botH p x y - X43.taperH p x y + 0.00001) 0.001 0.001 0.001 1e-12 n' m' ∧
          b.A0 = ⟨0, 0, 0⟩ ∧ b.B0 = ⟨0, p.body_width / 2, 0⟩ ∧ b.TT = ⟨(X43.iTT p).x, 0, 0⟩ ∧ b.flap_length = 0 := by
  have hp' := hp.toX43Ok
  obtain ⟨a1, L1, wd1, e1, s1, u1, v10, v11, t1, k1, k1', A10, B10, T10, F1⟩ := X43.body_planform hp' hT
  obtain ⟨a2, L2, wd2, e2, s2, u2, v20, v21, t2, k2, k2', A20, B20, T20, F2, G2⟩ := X43.wing_planform hp hT
  obtain ⟨a3, L3, wd3, e3, s3, u3, v30, v31, t3, k3, k3', A30, A31, B30, T30, F3⟩ := X43.inlet_narrow hp' hT
  obtain ⟨w1, i1, m1⟩ := wing_break a1 t1 L1 s1.line k1 k1'
  obtain ⟨w2, i2, m2⟩ := wing_break a2 t2 L2 s2.line k2 k2'
  obtain ⟨w3, i3, m3⟩ := wing_break a3 t3 L3 s3.line k3 k3'
  obtain ⟨st, b1, b2, f0, f1, f2, f3, f4, f5⟩ := x43_instance ptan h ids hi kwargs p ha a1 a2 a3 w1 w2 w3 e1 e2 e3 i1 i2 i3
  refine ⟨st, b1, fun st0 lib depth hr => ?_⟩
  obtain ⟨n0, q0, r0⟩ := hr.wing (by norm_num) f0
  obtain ⟨n1, q1, r1⟩ := hr.wing (by norm_num) f1
  obtain ⟨n2, q2, r2⟩ := hr.wing (by norm_num) f2
  obtain ⟨n3, q3, r3⟩ := hr.wing (by norm_num) f3
  have hfin : ∀ k a nm, st.heap k = Fin.comp (rounded bisect01) ptan a 2 nm → ∃ n : ℕ, 1 ≤ n ∧
      st0.heap k = Fin.comp (rounded bisect01) ptan a n nm := by
    intro k a nm hk
    rcases hr.2 k with h | ⟨m, hm, h⟩
    · exact ⟨2, by norm_num, h.trans hk⟩
    · exact ⟨m, hm, by rw [h, hk]; rfl⟩
  obtain ⟨n4, q4, r4⟩ := hfin _ _ _ f4
  obtain ⟨n5, q5, r5⟩ := hfin _ _ _ f5
  have hv : st0.veh = x43Veh ids := hr.1.trans b2
  have hcs : st0.veh.components = [ids 0, ids 1, ids 2, ids 3, ids 4, ids 5] := by rw [hv]; rfl
  obtain ⟨g0, d0, g01, g02, M0, c0', z0, g03, g04, g05⟩ := reflected_sized i1 s1 u1 m1 n0 q0 st0.heap (ids 0) _ r0
  obtain ⟨g1, d1, g11, g12, M1, c1', g13, g14⟩ := plain_sized i2 s2 u2 m2 n1 q1 st0.heap (ids 1) _ r1
  obtain ⟨g2, d2, g21, g22, M2, c2', z2, g23, g24, g25⟩ := reflected_sized i2 s2 u2 m2 n2 q2 st0.heap (ids 2) _ r2
  obtain ⟨g3, d3, g31, g32, M3, c3', z3, g33, g34, g35⟩ := reflected_sized i3 s3 u3 m3 n3 q3 st0.heap (ids 3) _ r3
  obtain ⟨g4, d4, g41, g42, M4, c4', g43, g44⟩ := x43_fin_sized hp hT 1 n4 q4 _ st0.heap (ids 4) r4
  obtain ⟨g5, d5, g51, g52, M5, c5', g53, g54⟩ := x43_fin_sized hp hT (-1) n5 q5 _ st0.heap (ids 5) r5
  obtain ⟨st', h1, h2, h3⟩ := generate_each lib depth st0 (by rw [hv]; rfl) (by rw [hv]; rfl) (by rw [hv]; rfl)
    (by rw [hcs]; simp [hi.eq_iff])
    (by
      intro k hk
      rw [hcs] at hk
      simp only [List.mem_cons, List.not_mem_nil, or_false] at hk
      rcases hk with rfl | rfl | rfl | rfl | rfl | rfl
      · rw [r0]; rfl
      · rw [r1]; rfl
      · rw [r2]; rfl
      · rw [r3]; rfl
      · rw [r4]; rfl
      · rw [r5]; rfl)
    (fun k c => (k = ids 0 → c = d0) ∧ (k = ids 1 → c = d1) ∧ (k = ids 2 → c = d2) ∧ (k = ids 3 → c = d3) ∧ (k = ids 4 → c = d4) ∧
      (k = ids 5 → c = d5))
    (by
      intro k hk
      rw [hcs] at hk
      simp only [List.mem_cons, List.not_mem_nil, or_false] at hk
      rcases hk with rfl | rfl | rfl | rfl | rfl | rfl
      · exact ⟨g0, d0, g01, g02, by simp [hi.eq_iff]⟩
      · exact ⟨g1, d1, g11, g12, by simp [hi.eq_iff]⟩
      · exact ⟨g2, d2, g21, g22, by simp [hi.eq_iff]⟩
      · exact ⟨g3, d3, g31, g32, by simp [hi.eq_iff]⟩
      · exact ⟨g4, d4, g41, g42, by simp [hi.eq_iff]⟩
      · exact ⟨g5, d5, g51, g52, by simp [hi.eq_iff]⟩)
  rw [hcs] at h3
  rw [v10, v11] at g04
  rw [v30, v31] at g34
  refine ⟨st', h1, M0, M3, c0', c3', ?_, ?_, a1, a3, z0, z3, n0, n3, g05, g35, g04, A10, B10, T10, F1, g34, A30, B30, T30, F3⟩
  · rw [(h3 (ids 0) (by simp)).1 rfl]; exact g03
  · rw [(h3 (ids 3) (by simp)).2.2.2.1 rfl]; exact g33

/-- C170: the inlet of every X-43 of at least 2.1 m stays below the upper edges of the body, at every mesh resolution. -/
theorem C170_partial (ptan : ℝ → ℝ) (hT : FloatTan ptan) (h : Heap) (ids : ℕ → ℕ) (hi : Function.Injective ids) (kwargs : Dict String ℝ)
    (p : X43.Params) (ha : X43Args kwargs p) (hp : X43Sized p) (hL : 2.1 ≤ p.body_length) :
    ∃ st, X43.instanceOf bisect01 ptan h ids kwargs = .ok st ∧ ∀ st0 lib depth, Rescaled st st0 → ∃ st', generate lib depth st0 = (.ok (), st') ∧
      ∃ M M' c c', (st'.heap (ids 0)).mesh = (.ok M, c) ∧ (st'.heap (ids 3)).mesh = (.ok M', c') ∧ X43InletBelow p M.tris M'.tris := by
  obtain ⟨st, h1, h2⟩ := x43_skins ptan hT h ids hi kwargs p ha hp
  refine ⟨st, h1, fun st0 lib depth hr => ?_⟩
  obtain ⟨st', h3, M, M', c, c', h4, h5, a, b, m, m', n, n', e1, e2, w1, A0, B0, TT, F, w2, A0', B0', TT', F'⟩ := h2 st0 lib depth hr
  refine ⟨st', h3, M, M', c, c', h4, h5, ?_⟩
  have hp' := hp.toX43Ok
  have hl := hp.length
  have hw := hp.width
  have hb1 := X43.b1_pos hp'
  have eT : Real.tan (p.body_angle * Real.pi / 180) = X43.slope p := rfl
  have eI : (X43.iTT p).x = 2.75 / 3.7 * p.body_length := by
    simp only [X43.iTT, X43.TT, X43.B1, X43.A1, X43.L_nom]; ring
  rw [e1, e2]
  constructor
  · have hv := (w1.skins a.B0 (by simp)).1
    have ez : X43.topH p 0 (p.body_width / 2) = X43Edge p 0 := by
      rw [X43.topH_eq hp', X43.ly_rear hp' hb1.1, div_self (by positivity), X43Edge, eT]; ring
    rw [B0] at hv
    simp only [ez] at hv
    rintro s (rfl | rfl)
    · simpa using right_of hv
    · simpa using left_of hv
  · have hv := (w1.skins a.TT (by simp)).1
    rw [TT] at hv
    have ez : X43.topH p p.body_length 0 = X43Edge p p.body_length := by
      rw [X43.topH_eq hp', X43Edge, eT]; ring
    simp only [ez] at hv
    exact right_of hv
  · have thick : ∀ x y, x ≤ (X43.iTT p).x → X43Edge p x ≤ X43.botH p x y - 0.05 := by
      intro x y hx
      rw [X43.botH_eq hp', X43Edge, eT]
      rw [eI] at hx
      have key : (x - p.body_length) * (X43.slope p - 0.075 / 3.7) + 0.025 * p.body_length / 3.7 - 0.05 -
          ((x - p.body_length) * (X43.slope p + 0.075 / 3.7) - 0.025 * p.body_length / 3.7) =
          0.15 / 3.7 * (2.75 / 3.7 * p.body_length - x) + (0.2 / 3.7 - 0.15 / 3.7 * (2.75 / 3.7)) * p.body_length - 0.05 := by ring
      have k1 : 0 ≤ 0.15 / 3.7 * (2.75 / 3.7 * p.body_length - x) := mul_nonneg (by norm_num) (by linarith)
      have k2 : (0.05 : ℝ) ≤ (0.2 / 3.7 - 0.15 / 3.7 * (2.75 / 3.7)) * p.body_length := by
        have := mul_le_mul_of_nonneg_left hL (show (0 : ℝ) ≤ 0.2 / 3.7 - 0.15 / 3.7 * (2.75 / 3.7) by norm_num)
        norm_num at this ⊢
        linarith
      linarith
    have low : ∀ x y, X43.InletArea p x y → X43Edge p x ≤ X43.botH p x y - 0.05 ∧
        X43Edge p x ≤ X43.engineH p x + X43.botH p x y - X43.taperH p x y + 0.00001 := by
      intro x y hxy
      have k := thick x y (by have := hxy.1.2; linarith)
      have k2 := X43.inlet_low hp' hp.engine hxy
      exact ⟨k, by linarith⟩
    have hi0 : 0 ≤ (X43.iTT p).x := by linarith [X43.itt_gt hp']
    have ht := X43.taper_pos hp'
    have hc : ∀ y, 0 ≤ y → y ≤ p.body_width / 2 → X43.InletArea p 0 y := fun y k1 k2 =>
      ⟨⟨⟨⟨le_rfl, hl.le, k1⟩, k2⟩, by linarith⟩, by nlinarith [hb1.1]⟩
    have on : ∀ q, OnWing (X43.InletArea p) b (fun x y => X43.botH p x y - 0.05)
        (fun x y => X43.engineH p x + X43.botH p x y - X43.taperH p x y + 0.00001) q → X43Edge p q.x ≤ q.z := by
      rintro q (⟨k, hz⟩ | rfl | rfl)
      · rcases hz with hz | hz <;> rw [hz]
        · exact (low _ _ k).1
        · exact (low _ _ k).2
      · have := low 0 0 (hc 0 le_rfl (by positivity))
        simp only [flapEnd, F', A0', zero_mul, sub_zero, add_zero]
        linarith [this.1, this.2]
      · have := low 0 (p.body_width / 2) (hc _ (by positivity) le_rfl)
        simp only [flapEnd, F', B0', zero_mul, sub_zero, add_zero]
        linarith [this.1, this.2]
    rw [eT]
    refine both_sides (Q := fun v => X43Edge p v.x - 0.001 * |X43.slope p + 0.075 / 3.7| - 1e-12 ≤ v.z) (fun v hv => ?_) (fun v hv => hv)
    have := (w2.within v hv).slanted' (X43.slope p + 0.075 / 3.7) (-p.body_length * (X43.slope p + 0.075 / 3.7) - 0.025 * p.body_length / 3.7)
      (fun q hq => by
        have := on q hq
        rw [X43Edge, eT] at this
        linarith)
    rw [X43Edge, eT]
    linarith

/-- C170: the inlet of every X-43 of at most 1.4 m (whose body is tilted by no more than about five degrees) sticks out of its back, at every resolution:
it begins 50 mm above the underside whatever the size, and the body is thinner than that there. -/
theorem C170_violated (ptan : ℝ → ℝ) (hT : FloatTan ptan) (h : Heap) (ids : ℕ → ℕ) (hi : Function.Injective ids) (kwargs : Dict String ℝ)
    (p : X43.Params) (ha : X43Args kwargs p) (hp : X43Sized p) (hL : p.body_length ≤ 1.4) (hA : |Real.tan (p.body_angle * Real.pi / 180)| ≤ 0.1) :
    ∃ st, X43.instanceOf bisect01 ptan h ids kwargs = .ok st ∧ ∀ st0 lib depth, Rescaled st st0 → ∃ st', generate lib depth st0 = (.ok (), st') ∧
      ∃ M M' c c', (st'.heap (ids 0)).mesh = (.ok M, c) ∧ (st'.heap (ids 3)).mesh = (.ok M', c') ∧ SticksOut M.tris M'.tris := by
  obtain ⟨st, h1, h2⟩ := x43_skins ptan hT h ids hi kwargs p ha hp
  refine ⟨st, h1, fun st0 lib depth hr => ?_⟩
  obtain ⟨st', h3, M, M', c, c', h4, h5, a, b, m, m', n, n', e1, e2, w1, A0, B0, TT, F, w2, A0', B0', TT', F'⟩ := h2 st0 lib depth hr
  refine ⟨st', h3, M, M', c, c', h4, h5, ?_⟩
  have hp' := hp.toX43Ok
  have eI : (X43.iTT p).x = 2.75 / 3.7 * p.body_length := by
    simp only [X43.iTT, X43.TT, X43.B1, X43.A1, X43.L_nom]; ring
  have hb := x43_body_sized hp' w1 A0 B0 TT F
  rw [e1, e2]
  have hv := (w2.skins b.TT (by simp)).1
  rw [TT', eI] at hv
  simp only [X43.botH_eq hp'] at hv
  have eT : Real.tan (p.body_angle * Real.pi / 180) = X43.slope p := rfl
  have ho := hb.over
  rw [eT] at ho hA
  have hk : |X43.slope p + 0.075 / 3.7 + 0.025| ≤ 0.146 := by
    rw [abs_le] at hA ⊢
    constructor <;> linarith [hA.1, hA.2]
  refine ⟨X43.slope p + 0.075 / 3.7 + 0.025, -p.body_length * (X43.slope p + 0.075 / 3.7 + 0.025) - 0.025 * p.body_length / 3.7 -
    0.05 * |X43.slope p + 0.075 / 3.7 + 0.025| - 1e-12, fun v hv => by linarith [ho v hv], _, right_of hv, ?_⟩
  simp only
  have key : (2.75 / 3.7 * p.body_length - p.body_length) * (X43.slope p - 0.075 / 3.7) + 0.025 * p.body_length / 3.7 - 0.05 -
      ((X43.slope p + 0.075 / 3.7 + 0.025) * (2.75 / 3.7 * p.body_length) + (-p.body_length * (X43.slope p + 0.075 / 3.7 + 0.025) - 0.025 * p.body_length / 3.7)) =
      ((0.15 / 3.7 + 0.025) * (1 - 2.75 / 3.7) + 0.05 / 3.7) * p.body_length - 0.05 := by ring
  have k2 : ((0.15 / 3.7 + 0.025) * (1 - 2.75 / 3.7) + 0.05 / 3.7) * p.body_length ≤ 0.0425 := by
    have := mul_le_mul_of_nonneg_left hL (show (0 : ℝ) ≤ (0.15 / 3.7 + 0.025) * (1 - 2.75 / 3.7) + 0.05 / 3.7 by norm_num)
    norm_num at this ⊢
    linarith
  linarith

/-- The default X-43 at the original size, and at 1.2 m. -/
noncomputable def x43Short : X43.Params := ⟨1.2, 1, 0, 0.4, 1, 0.25, 0.3, 0.1, 0.3, 1, 0.2, 0, 0⟩

example (h : Heap) : (X43Args [] x43Default ∧ X43Sized x43Default ∧ 2.1 ≤ x43Default.body_length) ∧
    X43Args [("body_length", 1.2)] x43Short ∧ X43Sized x43Short ∧
    ∃ st, X43.instanceOf bisect01 ieeeTan h id [("body_length", 1.2)] = .ok st ∧ ∀ lib depth, ∃ st', generate lib depth st = (.ok (), st') ∧
      ∃ M M' c c', (st'.heap 0).mesh = (.ok M, c) ∧ (st'.heap 3).mesh = (.ok M', c') ∧ SticksOut M.tris M'.tris := by
  have hp : X43Sized x43Default := ⟨x43Default_ok.2, by norm_num [x43Default], by norm_num [x43Default], by norm_num [x43Default],
    by norm_num [x43Default], by norm_num [x43Default], by norm_num [x43Default], by norm_num [x43Default], by norm_num [x43Default]⟩
  have hs : X43Sized x43Short := by
    refine ⟨?_, ?_, ?_, ?_, ?_, ?_, ?_, ?_, ?_⟩
    · constructor <;> simp only [x43Short] <;> norm_num
    all_goals norm_num [x43Short]
  have ha : X43Args [("body_length", 1.2)] x43Short := by
    refine ⟨by decide, ?_, ?_, ?_, ?_, ?_, ?_, ?_, ?_, ?_, ?_, ?_, ?_, ?_⟩ <;> simp [given, x43Short]
  refine ⟨⟨x43Default_ok.1, hp, by norm_num [x43Default]⟩, ha, hs, ?_⟩
  obtain ⟨st, e1, e2⟩ := C170_violated ieeeTan ieeeTan_float h id Function.injective_id _ _ ha hs (by norm_num [x43Short]) (by norm_num [x43Short])
  exact ⟨st, e1, fun lib depth => e2 st lib depth ⟨rfl, fun k => .inl rfl⟩⟩

end HV
