import Verif.Props.D21Size
import Verif.Props.Htv

/-!
# C146: the hypersonic technology vehicle as assembled has the length and the width given, but not the height
-/

namespace HV
open Spec Veh

/-- A wing added with its reflection: the mesh is the sized half and its mirror image. -/
theorem reflected_sized {ptan : ℝ → ℝ} {D : ℝ → ℝ → Prop} {a : Wing.Args} {w : Wing.State} {L : ℝ → V} {ht hb : ℝ → ℝ → ℝ} {wd : ℝ → ℝ} {W ε : ℝ}
    {find : (ℝ → Res ℝ) → Res ℝ} (hw : Wing.init find a = .ok w) (hs : SmoothWing ptan D a L ht hb wd ε) (hf : FlatPlanform a L wd W)
    (h1 : w.t_B1 ∈ Set.Icc (0 : ℝ) 1) (n : ℕ) (hn : 1 ≤ n) (H : Heap) (k : ℕ)
    (name : Option String) (hk : H k = wingOf ptan w n name (some "y")) :
    ∃ g c, generatePatches H k = (.ok (), g) ∧ pipeline 0 (g k) = (.ok (), c) ∧ ∃ M c' m, c.mesh = (.ok M, c') ∧
      WingSized D a ht hb (wd 0) (wd 1) W ε n m ∧ M.tris = m ++ mapVerts (mirrorV 1) m := by
  obtain ⟨h', M, c', g1, g2, g3⟩ := C140_wing find ptan D a w L ht hb wd W ε hw hs hf h1 n hn none (fun _ => Wing.comp ptan w n none) 0 rfl
  obtain ⟨g, c, M', c'', b1, b2, b3, b4⟩ := reflected_wing ptan w n hn h' M c' g1 g2 H k name hk
  exact ⟨g, c, b1, b2, M', c'', _, b3, g3, b4⟩

/-- The same without reflection. -/
theorem plain_sized {ptan : ℝ → ℝ} {D : ℝ → ℝ → Prop} {a : Wing.Args} {w : Wing.State} {L : ℝ → V} {ht hb : ℝ → ℝ → ℝ} {wd : ℝ → ℝ} {W ε : ℝ}
    {find : (ℝ → Res ℝ) → Res ℝ} (hw : Wing.init find a = .ok w) (hs : SmoothWing ptan D a L ht hb wd ε) (hf : FlatPlanform a L wd W)
    (h1 : w.t_B1 ∈ Set.Icc (0 : ℝ) 1) (n : ℕ) (hn : 1 ≤ n) (H : Heap) (k : ℕ)
    (name : Option String) (hk : H k = wingOf ptan w n name none) :
    ∃ g c, generatePatches H k = (.ok (), g) ∧ pipeline 0 (g k) = (.ok (), c) ∧ ∃ M c', c.mesh = (.ok M, c') ∧
      WingSized D a ht hb (wd 0) (wd 1) W ε n M.tris := by
  obtain ⟨h', M, c', g1, g2, g3⟩ := C140_wing find ptan D a w L ht hb wd W ε hw hs hf h1 n hn none (fun _ => Wing.comp ptan w n none) 0 rfl
  obtain ⟨g, c, M', c'', b1, b2, b3, b4⟩ := plain_wing ptan w n hn h' M c' g1 g2 H k name hk
  exact ⟨g, c, b1, b2, M', c'', b3, by rw [b4]; exact g3⟩

namespace HTV
variable {p : Params}

theorem body_args {bis : (ℝ → Res ℝ) → Res ℝ} {a : Wing.Args} (e : bodyArgs bis p = .ok a) :
    ∃ P, Polyline [Line ⟨0, p.body_width / 2, 0⟩ ⟨0.15 * p.L, p.body_width / 2, 0⟩, Line ⟨0.15 * p.L, p.body_width / 2, 0⟩ ⟨p.L, 0, 0⟩] = .ok P ∧
      a = { A1 := ⟨0.15 * p.L, 0, 0⟩, TT := ⟨p.L, 0, 0⟩, B0 := ⟨0, p.body_width / 2, 0⟩, line := P, top_tf := bodyTop bis P p, bot_tf := bodyBot p,
            LE_wf := some fun _ => .ok 0.01 } := by
  unfold bodyArgs at e
  obtain ⟨P, hP, e⟩ := bind_ok.1 e
  exact ⟨P, hP, (pure_ok.1 e).symm⟩

/-- The leading edge of the body. -/
theorem body_edge (hp : HTVOk p) {P : PathObj}
    (hP : Polyline [Line ⟨0, p.body_width / 2, 0⟩ ⟨0.15 * p.L, p.body_width / 2, 0⟩, Line ⟨0.15 * p.L, p.body_width / 2, 0⟩ ⟨p.L, 0, 0⟩] = .ok P) :
    (∀ t, P.call t = .ok (fnOf P t)) ∧ fnOf P 0 = ⟨0, p.body_width / 2, 0⟩ ∧ fnOf P 1 = ⟨p.L, 0, 0⟩ ∧ MonoEdge (fnOf P) ∧
      ∀ t ∈ Set.Icc (0 : ℝ) 1, (fnOf P t).z = 0 := by
  have hl := hp.length
  have hw := hp.width
  obtain ⟨P', h1, h2, h3, h4, h5, h6, h7⟩ := lines_edge [((⟨0, p.body_width / 2, 0⟩ : V), (⟨0.15 * p.L, p.body_width / 2, 0⟩ : V)),
      (⟨0.15 * p.L, p.body_width / 2, 0⟩, ⟨p.L, 0, 0⟩)] (by simp)
    (by
      intro e he
      simp only [List.mem_cons, List.not_mem_nil, or_false] at he
      rcases he with rfl | rfl <;> intro hc
      · have := congrArg Vec.x hc; simp only at this; linarith
      · have := congrArg Vec.x hc; simp only at this; linarith)
    (by
      intro i hi
      simp only [List.length_cons, List.length_nil] at hi
      obtain rfl : i = 0 := by omega
      rfl)
  simp only [List.map_cons, List.map_nil] at h1
  rw [hP] at h1
  obtain rfl := Except.ok.inj h1
  simp only [List.head_cons, List.getLast_cons, List.getLast_singleton, ne_eq, reduceCtorEq, not_false_eq_true, List.cons_ne_nil] at h3 h4
  refine ⟨h2, h3, h4, ⟨h6 ?_, h7 ?_⟩, ?_⟩
  · intro e he
    simp only [List.mem_cons, List.not_mem_nil, or_false] at he
    rcases he with rfl | rfl <;> simp only <;> linarith
  · intro e he
    simp only [List.mem_cons, List.not_mem_nil, or_false] at he
    rcases he with rfl | rfl <;> simp only <;> linarith
  · intro t ht
    obtain ⟨e, he, u, hu, hq⟩ := h5 t ht
    rw [hq]
    simp only [List.mem_cons, List.not_mem_nil, or_false] at he
    rcases he with rfl | rfl <;> simp [lineAt]

/-- At the rear the width found by the bisection is the width of the body. -/
theorem lw_rear {P : PathObj} (h2 : ∀ t, P.call t = .ok (fnOf P t)) (h0 : fnOf P 0 = ⟨0, p.body_width / 2, 0⟩) : lw P 0 = p.body_width := by
  have : localWidth bisect01 P 0 = .ok p.body_width := by
    unfold localWidth bisect01 scipyBisect
    simp only [h2, h0, bind, Except.bind, pure, Except.pure, sub_zero, if_true]
    congr 1; ring
  rw [lw, this]; rfl

theorem topFrac_le (hp : HTVOk p) (P : PathObj) (x y : ℝ) : topFrac P p x y ≤ max p.h p.t_LE := by
  have h1 := hp.height
  have h3 := hp.edge
  unfold topFrac
  split_ifs
  · have c1 := Real.cos_le_one (2 * Real.pi * y / (lw P x - 2 * p.t_LE))
    have c2 := Real.neg_one_le_cos (2 * Real.pi * y / (lw P x - 2 * p.t_LE))
    set c := Real.cos (2 * Real.pi * y / (lw P x - 2 * p.t_LE))
    rcases le_total p.t_LE p.h with h | h
    · rw [max_eq_left h]; nlinarith
    · rw [max_eq_right h]; nlinarith
  · exact le_max_right _ _

/-- The body over its planform. -/
theorem body_planform (hp : HTVOk p) {ptan : ℝ → ℝ} (hT : FloatTan ptan) : ∃ a L ht, bodyArgs bisect01 p = .ok a ∧
    SmoothWing ptan (fun x y => (0 ≤ x ∧ x ≤ p.L ∧ 0 ≤ y) ∧ y ≤ p.body_width / 2) a L ht (fun _ _ => 0.2 * p.t_LE) (fun _ => 0.01) 1e-12 ∧
    FlatPlanform a L (fun _ => 0.01) 0.01 ∧ a.t_B1 = none ∧ a.close_wing = false ∧ (L 0).x ≤ a.A1.x ∧ a.A1.x ≤ (L 1).x ∧
    a.A0 = ⟨0, 0, 0⟩ ∧ a.A1 = ⟨0.15 * p.L, 0, 0⟩ ∧ a.B0 = ⟨0, p.body_width / 2, 0⟩ ∧ a.TT = ⟨p.L, 0, 0⟩ ∧ a.flap_length = 0 ∧
    (∀ x y, 0 ≤ x → x ≤ p.L → 0 ≤ y → -(max p.h p.t_LE * (p.L - x + 0.05)) ≤ ht x y ∧ ht x y < 0) ∧
    (2 * p.t_LE < p.body_width → ht 0 0 = -(p.h * (p.L + 0.05))) ∧ ht 0 (p.body_width / 2) = -(p.t_LE * (p.L + 0.05)) := by
  obtain ⟨a, L, ht, ea, sa, tb, tc, y0, y1, yT, l0, l1⟩ := body_smooth hp hT
  obtain ⟨P, hP, rfl⟩ := body_args ea
  obtain ⟨h2, h3, h4, hm, hz⟩ := body_edge hp hP
  have hL : ∀ t, L t = fnOf P t := fun t => by
    have := sa.line t
    simp only [h2] at this
    exact (Except.ok.inj this).symm
  obtain rfl : L = fnOf P := funext hL
  have hl := hp.length
  have hw := hp.width
  have ht' : ∀ x y, 0 ≤ x → x ≤ p.L → 0 ≤ y → ht x y = topH P p x y := by
    intro x y k1 k2 k3
    have a1 := sa.top x y 0 ⟨k1, k2, k3⟩
    have a2 := bodyTop_eq (p := p) P h2 x y 0 (by rw [h3]; exact k1) (by rw [h4]; exact k2) k3
    simp only at a1
    rw [a2] at a1
    exact (congrArg Vec.z (Except.ok.inj a1)).symm
  refine ⟨_, fnOf P, ht, ea, sa.over' (fun x y h => h.1) (sa.over.and (liesOver_low hm rfl rfl (by rw [h4]) _ (by rw [h3]))),
    ⟨rfl, rfl, hz, fun _ _ => le_rfl⟩, rfl, rfl, l0, l1, rfl, rfl, rfl, rfl, rfl, ?_, ?_, ?_⟩
  · intro x y k1 k2 k3
    rw [ht' x y k1 k2 k3, topH]
    have c1 := topFrac_le hp P x y
    have c2 := (topFrac_pos hp P x y).1
    have c3 : 0 < p.L - x + 0.05 := by linarith
    refine ⟨?_, ?_⟩
    · have := mul_le_mul_of_nonneg_right c1 c3.le
      linarith
    · have := mul_pos c2 c3
      linarith
  · intro hb
    rw [ht' 0 0 le_rfl hl.le le_rfl, topH, topFrac, lw_rear h2 h3, if_pos (by linarith)]
    simp only [mul_zero, zero_div, Real.cos_zero]
    ring
  · rw [ht' 0 _ le_rfl hl.le (by linarith), topH, topFrac, lw_rear h2 h3, if_neg (by linarith [hp.edge])]
    ring

theorem flap_args {a : Wing.Args} (hL : p.L_nom ≠ 0) (hW : p.body_width_nom ≠ 0) (e : flapArgs p = .ok a) :
    ∃ P, Polyline [Line ⟨0.2 * (p.L / p.L_nom), 0.8 * p.body_width / 2 + 0.5 * (0.01 * (p.body_width / p.body_width_nom)), 0⟩
        ⟨0.2 * (p.L / p.L_nom) + 0.05 * p.L, 0.5 * (0.8 * p.body_width / 2 + 0.5 * (0.01 * (p.body_width / p.body_width_nom))), 0⟩,
      Line ⟨0.2 * (p.L / p.L_nom) + 0.05 * p.L, 0.5 * (0.8 * p.body_width / 2 + 0.5 * (0.01 * (p.body_width / p.body_width_nom))), 0⟩
        ⟨0.2 * (p.L / p.L_nom) + 0.1 * p.L, 0 + 0.5 * (0.01 * (p.body_width / p.body_width_nom)), 0⟩] = .ok P ∧ a.line = P ∧ a.LE_wf = none ∧
      a.A1 = ⟨0.2 * (p.L / p.L_nom) + 0.05 * p.L, 0 + 0.5 * (0.01 * (p.body_width / p.body_width_nom)), 0⟩ ∧
      a.TT = ⟨0.2 * (p.L / p.L_nom) + 0.1 * p.L, 0 + 0.5 * (0.01 * (p.body_width / p.body_width_nom)), 0⟩ := by
  unfold flapArgs at e
  rw [pdiv_ok _ _ hL, ok_bind, pdiv_ok _ _ hW, ok_bind] at e
  obtain ⟨P, hP, e⟩ := bind_ok.1 e
  obtain rfl := pure_ok.1 e
  exact ⟨P, hP, rfl, rfl, rfl, rfl⟩

/-- A flap over its planform. -/
theorem flap_planform (hp : HTVOk p) (hn : 0.0125 ≤ p.body_width_nom) {ptan : ℝ → ℝ} (hT : FloatTan ptan) : ∃ a L wd, flapArgs p = .ok a ∧
    SmoothWing ptan (fun x y => ((-1 * x + 0 * y ≤ -(0.2 * (p.L / p.L_nom)) ∧ 1 * x + 0 * y ≤ 0.2 * (p.L / p.L_nom) + 0.1 * p.L) ∧
        0 * x + -1 * y ≤ -root p) ∧ 0 * x + 1 * y ≤ 0.4 * p.body_width + root p)
      a L (fun _ _ => -1.1 * p.t_LE) (fun _ _ => 0.1 * p.t_LE) wd 1e-12 ∧
    FlatPlanform a L wd 0.055 ∧ wd 0 = 0.01 ∧ wd 1 = 0.01 ∧ a.t_B1 = none ∧ a.close_wing = false ∧ (L 0).x ≤ a.A1.x ∧ a.A1.x ≤ (L 1).x ∧
    a.A0 = ⟨0.2 * (p.L / p.L_nom), root p, 0⟩ ∧ a.B0 = ⟨0.2 * (p.L / p.L_nom), 0.4 * p.body_width + root p, 0⟩ ∧
    a.TT = ⟨0.2 * (p.L / p.L_nom) + 0.1 * p.L, root p, 0⟩ ∧ a.flap_length = 0.2 * (p.L / p.L_nom) ∧ a.flap_angle = deg2rad p.flap_angle := by
  obtain ⟨a, L, wd, ea, sa, tb, tc, eA0, -, -, eB0, l0, l1, efl, efa⟩ := flap_smooth hp hT
  obtain ⟨P, hP, ePl, eW, eA1, eTT⟩ := flap_args hp.nominalL hp.nominalW ea
  have hl := hp.length
  have hw := hp.width
  have hr0 : 0.5 * (0.01 * (p.body_width / p.body_width_nom)) = root p := rfl
  have hr : 0 < root p ∧ root p ≤ 0.4 * p.body_width := by
    have hb : 0 < p.body_width_nom := by linarith
    have h1 : p.body_width / p.body_width_nom ≤ 80 * p.body_width := by
      rw [div_le_iff₀ hb]; nlinarith
    have h2 : 0 < p.body_width / p.body_width_nom := div_pos hw hb
    unfold root
    constructor <;> linarith
  rw [hr0] at hP eA1 eTT
  simp only [zero_add] at hP eA1 eTT
  generalize root p = r at *
  generalize 0.2 * (p.L / p.L_nom) = fl at *
  obtain ⟨P', h1, h2, h3, h4, h5, h6, h7⟩ := lines_edge [((⟨fl, 0.8 * p.body_width / 2 + r, 0⟩ : V),
      (⟨fl + 0.05 * p.L, 0.5 * (0.8 * p.body_width / 2 + r), 0⟩ : V)),
      (⟨fl + 0.05 * p.L, 0.5 * (0.8 * p.body_width / 2 + r), 0⟩, ⟨fl + 0.1 * p.L, r, 0⟩)] (by simp)
    (by
      intro e he
      simp only [List.mem_cons, List.not_mem_nil, or_false] at he
      rcases he with rfl | rfl <;> intro hc
      · have := congrArg Vec.x hc; simp only at this; linarith
      · have := congrArg Vec.x hc; simp only at this; linarith)
    (by
      intro i hi
      simp only [List.length_cons, List.length_nil] at hi
      obtain rfl : i = 0 := by omega
      rfl)
  simp only [List.map_cons, List.map_nil] at h1
  rw [hP] at h1
  obtain rfl := Except.ok.inj h1
  simp only [List.head_cons, List.getLast_cons, List.getLast_singleton, ne_eq, reduceCtorEq, not_false_eq_true, List.cons_ne_nil] at h3 h4
  have hL : ∀ t, L t = fnOf P t := fun t => by
    have := sa.line t
    rw [ePl, h2] at this
    exact (Except.ok.inj this).symm
  obtain rfl : L = fnOf P := funext hL
  have z0 : (0 : ℝ) ∈ Set.Icc (0 : ℝ) 1 := ⟨le_rfl, zero_le_one⟩
  have z1 : (1 : ℝ) ∈ Set.Icc (0 : ℝ) 1 := ⟨zero_le_one, le_rfl⟩
  have mx := h6 (by
    intro e he
    simp only [List.mem_cons, List.not_mem_nil, or_false] at he
    rcases he with rfl | rfl <;> simp only <;> linarith)
  have my := h7 (by
    intro e he
    simp only [List.mem_cons, List.not_mem_nil, or_false] at he
    rcases he with rfl | rfl <;> simp only <;> linarith)
  have hwd : ∀ t ∈ Set.Icc (0 : ℝ) 1, wd t = 0.01 + 0.18 * t * (1 - t) := by
    intro t ht
    have := sa.width t ht
    rw [eW, Option.getD_none, leadingEdgeWidth_eq] at this
    exact (Except.ok.inj this).symm
  refine ⟨a, fnOf P, wd, ea, sa.over' (fun _ _ _ => trivial) ((((liesOver_half (-1) 0 _ ?_ ?_ ?_ (.inr ?_)).and
      (liesOver_half 1 0 _ ?_ ?_ ?_ (.inl ?_))).and (liesOver_half 0 (-1) _ ?_ ?_ ?_ (.inl ?_))).and (liesOver_half 0 1 _ ?_ ?_ ?_ (.inr ?_))),
    ⟨by rw [eA0], by rw [eA1], ?_, ?_⟩, ?_, ?_, tb, tc, l0, l1, eA0, eB0, eTT, efl, efa⟩
  · rw [eA0]; simp
  · rw [eA1]; simp only; linarith
  · intro t ht
    have := mx 0 z0 t ht ht.1
    rw [h3] at this
    linarith
  · intro t ht u hu htu
    linarith [mx t ht u hu htu]
  · rw [eA0]; simp only; linarith
  · rw [eA1]; simp only; linarith
  · intro t ht
    have := mx t ht 1 z1 ht.2
    rw [h4] at this
    linarith
  · intro t ht u hu htu
    linarith [mx t ht u hu htu]
  · rw [eA0]; simp
  · rw [eA1]; simp
  · intro t ht
    have := my t ht 1 z1 ht.2
    rw [h4] at this
    linarith
  · intro t ht u hu htu
    linarith [my t ht u hu htu]
  · rw [eA0]; simp only; linarith
  · rw [eA1]; simp only; linarith
  · intro t ht
    have := my 0 z0 t ht ht.1
    rw [h3] at this
    linarith
  · intro t ht u hu htu
    linarith [my t ht u hu htu]
  · intro t ht
    obtain ⟨e, he, u, hu, hq⟩ := h5 t ht
    rw [hq]
    simp only [List.mem_cons, List.not_mem_nil, or_false] at he
    rcases he with rfl | rfl <;> simp [lineAt]
  · intro t ht
    rw [hwd t ht]
    nlinarith [sq_nonneg (t - 0.5)]
  · rw [hwd 0 z0]; norm_num
  · rw [hwd 1 z1]; norm_num

end HTV

namespace Spec

/-- The body of an HTV has the length and the width given, up to the rounded edge; its underside is flat, and it is no higher than the larger of `h` and
`t_LE` times its length and 0.05. -/
structure HTVBody (p : HTV.Params) (m : TriMesh ℝ) : Prop where
  within : ∀ v, IsVertex v m → -0.01 ≤ v.x ∧ v.x ≤ p.L + 0.01 ∧ |v.y| ≤ p.body_width / 2 + 0.01 ∧
    -(max p.h p.t_LE * (p.L + 0.05)) - 1e-12 ≤ v.z ∧ v.z ≤ 0.2 * p.t_LE + 1e-12
  rear : IsVertex ⟨0, 0, 0.2 * p.t_LE⟩ m
  sides : ∀ s, s = 1 ∨ s = -1 → IsVertex ⟨0, s * (p.body_width / 2 + 0.01), -(p.t_LE * (p.L - 0.15)) / 2⟩ m
  nose : ∃ z, IsVertex ⟨p.L + 0.01, 0, z⟩ m
  back : 2 * p.t_LE < p.body_width → IsVertex ⟨0, 0, -(p.h * (p.L + 0.05))⟩ m

/-- A flap of an HTV on the right: it starts at the gap given for its width, is 0.4 times as wide as the body, and ends with the flap turned by its angle. -/
structure HTVFlap (p : HTV.Params) (m : TriMesh ℝ) : Prop where
  within : ∀ v, IsVertex v m → 0.2 * (p.L / p.L_nom) * (1 - |Real.cos (p.flap_angle * Real.pi / 180)|) - 0.055 ≤ v.x ∧
    0.005 * (p.body_width / p.body_width_nom) - 0.055 ≤ v.y ∧ v.y ≤ 0.4 * p.body_width + 0.005 * (p.body_width / p.body_width_nom) + 0.055
  ends : ∀ y ∈ [0.005 * (p.body_width / p.body_width_nom), 0.4 * p.body_width + 0.005 * (p.body_width / p.body_width_nom)],
    IsVertex ⟨0.2 * (p.L / p.L_nom) * (1 - Real.cos (p.flap_angle * Real.pi / 180)), y,
      -0.5 * p.t_LE + 0.2 * (p.L / p.L_nom) * Real.sin (p.flap_angle * Real.pi / 180)⟩ m
  front : IsVertex ⟨0.2 * (p.L / p.L_nom) + 0.1 * p.L + 0.01, 0.005 * (p.body_width / p.body_width_nom), -0.5 * p.t_LE⟩ m

end Spec

theorem htv_body_sized (p : HTV.Params) (hp : HTVOk p) {a : Wing.Args} {ht : ℝ → ℝ → ℝ} {n : ℕ} {m : TriMesh ℝ}
    (h : WingSized (fun x y => (0 ≤ x ∧ x ≤ p.L ∧ 0 ≤ y) ∧ y ≤ p.body_width / 2) a ht (fun _ _ => 0.2 * p.t_LE) 0.01 0.01 0.01 1e-12 n m)
    (eA0 : a.A0 = ⟨0, 0, 0⟩) (eB0 : a.B0 = ⟨0, p.body_width / 2, 0⟩) (eTT : a.TT = ⟨p.L, 0, 0⟩) (efl : a.flap_length = 0)
    (hb : ∀ x y, 0 ≤ x → x ≤ p.L → 0 ≤ y → -(max p.h p.t_LE * (p.L - x + 0.05)) ≤ ht x y ∧ ht x y < 0)
    (ht0 : 2 * p.t_LE < p.body_width → ht 0 0 = -(p.h * (p.L + 0.05))) (htB : ht 0 (p.body_width / 2) = -(p.t_LE * (p.L + 0.05))) :
    HTVBody p (m ++ mapVerts (mirrorV 1) m) := by
  have hl := hp.length
  have hw := hp.width
  have he := hp.edge
  have hx : 0 < max p.h p.t_LE := lt_max_of_lt_right he
  have low : ∀ x y, 0 ≤ x → x ≤ p.L → 0 ≤ y → -(max p.h p.t_LE * (p.L + 0.05)) ≤ ht x y := by
    intro x y k1 k2 k3
    have := (hb x y k1 k2 k3).1
    have := mul_nonneg hx.le k1
    linarith
  have box : ∀ v, IsVertex v m → -0.01 ≤ v.x ∧ v.x ≤ p.L + 0.01 ∧ |v.y| ≤ p.body_width / 2 + 0.01 ∧
      -(max p.h p.t_LE * (p.L + 0.05)) - 1e-12 ≤ v.z ∧ v.z ≤ 0.2 * p.t_LE + 1e-12 := by
    intro v hv
    have k := (h.within v hv).box (x0 := 0) (x1 := p.L) (y0 := 0) (y1 := p.body_width / 2) (z0 := -(max p.h p.t_LE * (p.L + 0.05)))
      (z1 := 0.2 * p.t_LE) (by
      have key : ∀ x y, 0 ≤ x → x ≤ p.L → 0 ≤ y → -(max p.h p.t_LE * (p.L + 0.05)) ≤ (ht x y + 0.2 * p.t_LE) / 2 ∧
          (ht x y + 0.2 * p.t_LE) / 2 ≤ 0.2 * p.t_LE := by
        intro x y k1 k2 k3
        have := low x y k1 k2 k3
        have := (hb x y k1 k2 k3).2
        constructor <;> linarith
      rintro q (⟨⟨⟨k1, k2, k3⟩, k4⟩, hz⟩ | rfl | rfl)
      · have := low q.x q.y k1 k2 k3
        have := (hb q.x q.y k1 k2 k3).2
        refine ⟨k1, k2, k3, k4, ?_, ?_⟩ <;> rcases hz with hz | hz <;> rw [hz] <;> linarith
      · have := key 0 0 le_rfl hl.le le_rfl
        simp only [flapEnd, efl, eA0, zero_mul, sub_zero, add_zero]
        exact ⟨le_rfl, hl.le, le_rfl, by linarith, this.1, this.2⟩
      · have := key 0 (p.body_width / 2) le_rfl hl.le (by linarith)
        simp only [flapEnd, efl, eB0, zero_mul, sub_zero, add_zero]
        exact ⟨le_rfl, hl.le, by linarith, le_rfl, this.1, this.2⟩)
    refine ⟨by linarith [k.1], k.2.1, ?_, k.2.2.2.2.1, k.2.2.2.2.2⟩
    rw [abs_le]; constructor <;> linarith [k.2.2.1, k.2.2.2.1]
  have right : ∀ v, IsVertex v m → IsVertex v (m ++ mapVerts (mirrorV 1) m) := fun v hv => isVertex_two.2 (.inl hv)
  have left : ∀ v : V, IsVertex v m → IsVertex ⟨v.x, -v.y, v.z⟩ (m ++ mapVerts (mirrorV 1) m) := fun v hv =>
    isVertex_two.2 (.inr (isVertex_mapVerts.2 ⟨v, hv, by simp [mirrorV]⟩))
  constructor
  · intro v hv
    rcases isVertex_two.1 hv with hv | hv
    · exact box v hv
    · obtain ⟨u, hu, rfl⟩ := isVertex_mapVerts.1 hv
      have := box u hu
      simpa [mirrorV, abs_neg] using this
  · have := (h.skins a.A0 (by simp)).2
    rw [eA0] at this
    exact right _ this
  · have hs := h.side
    rw [eB0] at hs
    simp only at hs
    rw [htB] at hs
    have e : (-(p.t_LE * (p.L + 0.05)) + 0.2 * p.t_LE) / 2 = -(p.t_LE * (p.L - 0.15)) / 2 := by ring
    rw [e] at hs
    rintro s (rfl | rfl)
    · simpa using right _ hs
    · have := left _ hs
      simpa using this
  · have := h.front
    rw [eTT] at this
    exact ⟨_, right _ this⟩
  · intro hb'
    have := (h.skins a.A0 (by simp)).1
    rw [eA0] at this
    simp only at this
    rw [ht0 hb'] at this
    exact right _ this

theorem htv_flap_sized (p : HTV.Params) (hp : HTVOk p) (hn : 0 < p.L_nom) {a : Wing.Args} {n : ℕ} {m : TriMesh ℝ}
    (h : WingSized (fun x y => ((-1 * x + 0 * y ≤ -(0.2 * (p.L / p.L_nom)) ∧ 1 * x + 0 * y ≤ 0.2 * (p.L / p.L_nom) + 0.1 * p.L) ∧
        0 * x + -1 * y ≤ -HTV.root p) ∧ 0 * x + 1 * y ≤ 0.4 * p.body_width + HTV.root p) a (fun _ _ => -1.1 * p.t_LE) (fun _ _ => 0.1 * p.t_LE)
        0.01 0.01 0.055 1e-12 n m)
    (eA0 : a.A0 = ⟨0.2 * (p.L / p.L_nom), HTV.root p, 0⟩) (eB0 : a.B0 = ⟨0.2 * (p.L / p.L_nom), 0.4 * p.body_width + HTV.root p, 0⟩)
    (eTT : a.TT = ⟨0.2 * (p.L / p.L_nom) + 0.1 * p.L, HTV.root p, 0⟩) (efl : a.flap_length = 0.2 * (p.L / p.L_nom))
    (efa : a.flap_angle = deg2rad p.flap_angle) : HTVFlap p m := by
  have hl := hp.length
  have hw := hp.width
  have e1 : HTV.root p = 0.005 * (p.body_width / p.body_width_nom) := by unfold HTV.root; ring
  have hfl : 0 < p.L / p.L_nom := div_pos hl hn
  have eθ : deg2rad p.flap_angle = p.flap_angle * Real.pi / 180 := by unfold deg2rad; ring
  rw [eθ] at efa
  rw [e1] at h eA0 eB0 eTT
  generalize hθ : p.flap_angle * Real.pi / 180 = θ at efa
  generalize hr : 0.005 * (p.body_width / p.body_width_nom) = r at h eA0 eB0 eTT
  generalize hl' : p.L / p.L_nom = l at h eA0 eB0 eTT efl hfl
  have tip : ∀ y : ℝ, (⟨0.2 * l - 0.2 * l * Real.cos θ, y, (-1.1 * p.t_LE + 0.1 * p.t_LE) / 2 + 0.2 * l * Real.sin θ⟩ : V) =
      ⟨0.2 * l * (1 - Real.cos θ), y, -0.5 * p.t_LE + 0.2 * l * Real.sin θ⟩ := by
    intro y; ext <;> simp only <;> ring
  have tA : flapEnd a (fun _ _ => -1.1 * p.t_LE) (fun _ _ => 0.1 * p.t_LE) a.A0 = ⟨0.2 * l * (1 - Real.cos θ), r, -0.5 * p.t_LE + 0.2 * l * Real.sin θ⟩ := by
    rw [← tip]; simp only [flapEnd, efl, efa, eA0]
  have tB : flapEnd a (fun _ _ => -1.1 * p.t_LE) (fun _ _ => 0.1 * p.t_LE) a.B0 =
      ⟨0.2 * l * (1 - Real.cos θ), 0.4 * p.body_width + r, -0.5 * p.t_LE + 0.2 * l * Real.sin θ⟩ := by
    rw [← tip]; simp only [flapEnd, efl, efa, eB0]
  constructor
  · intro v hv
    simp only [hθ, hr, hl']
    have c0 : 0.2 * l * (1 - |Real.cos θ|) ≤ 0.2 * l * (1 - Real.cos θ) :=
      mul_le_mul_of_nonneg_left (by linarith [le_abs_self (Real.cos θ)]) (by positivity)
    have c1 : 0 ≤ 0.2 * l * |Real.cos θ| := by positivity
    have hx := (h.within v hv) (-1) 0 0 (-(0.2 * l * (1 - |Real.cos θ|))) 1 zero_le_one (by norm_num) (by
      rintro q (⟨⟨⟨⟨k1, k2⟩, k3⟩, k4⟩, hz⟩ | rfl | rfl)
      · linarith
      · rw [tA]; simp only; linarith
      · rw [tB]; simp only; linarith)
    have hy0 := (h.within v hv) 0 (-1) 0 (-r) 1 zero_le_one (by norm_num) (by
      rintro q (⟨⟨⟨⟨k1, k2⟩, k3⟩, k4⟩, hz⟩ | rfl | rfl)
      · linarith
      · rw [tA]; simp only; linarith
      · rw [tB]; simp only; linarith)
    have hy1 := (h.within v hv) 0 1 0 (0.4 * p.body_width + r) 1 zero_le_one (by norm_num) (by
      rintro q (⟨⟨⟨⟨k1, k2⟩, k3⟩, k4⟩, hz⟩ | rfl | rfl)
      · linarith
      · rw [tA]; simp only; linarith
      · rw [tB]; simp only; linarith)
    rw [abs_zero] at hx hy0 hy1
    refine ⟨?_, ?_, ?_⟩ <;> linarith
  · intro y hy
    simp only [hθ, hr, hl'] at hy ⊢
    simp only [List.mem_cons, List.not_mem_nil, or_false] at hy
    rcases hy with rfl | rfl
    · rw [← tA]; exact h.flap _ (by simp)
    · rw [← tB]; exact h.flap _ (by simp)
  · have := h.front
    rw [eTT] at this
    simp only [hr, hl'] at this ⊢
    convert this using 2
    ring

/-- C146, the part that holds: for every sensible HTV at every mesh resolution, the body reaches from the rear to `L` and `body_width / 2` to either side, up to
the rounded edge of 0.01, and rises to `h` times its length and 0.05 above its planform; the flaps lie behind and beside the gap, 0.4 times as wide as the
body. -/
theorem C146_partial (ptan : ℝ → ℝ) (hT : FloatTan ptan) (h : Heap) (ids : ℕ → ℕ) (hi : Function.Injective ids) (kwargs : Dict String ℝ)
    (p : HTV.Params) (ha : HTVArgs kwargs p) (hp : HTVOk p) (hn : 0 < p.L_nom) (hn' : 0.0125 ≤ p.body_width_nom) :
    ∃ st, HTV.instanceOf bisect01 ptan h ids kwargs = .ok st ∧ st.veh.components = [ids 0, ids 1, ids 2] ∧
      ∀ st0 lib depth, Rescaled st st0 → ∃ st', generate lib depth st0 = (.ok (), st') ∧
        (∃ M c', (st'.heap (ids 0)).mesh = (.ok M, c') ∧ HTVBody p M.tris) ∧
        (∃ M c', (st'.heap (ids 1)).mesh = (.ok M, c') ∧ HTVFlap p M.tris) ∧
        (∃ M c' m, (st'.heap (ids 2)).mesh = (.ok M, c') ∧ HTVFlap p m ∧ M.tris = m ++ mapVerts (mirrorV 1) m) := by
  obtain ⟨a1, L1, ht1, e1, s1, u1, t1, c1, k1, k1', A0, A1, B0, TT, fl, hb, hb0, hbB⟩ := HTV.body_planform hp hT
  obtain ⟨a2, L2, wd2, e2, s2, u2, w20, w21, t2, c2, k2, k2', A0', B0', TT', fl', fa'⟩ := HTV.flap_planform hp hn' hT
  obtain ⟨w1, i1, m1⟩ := wing_break a1 t1 L1 s1.line k1 k1'
  obtain ⟨w2, i2, m2⟩ := wing_break a2 t2 L2 s2.line k2 k2'
  obtain ⟨st, x0, x1, x2, b1, b2, f0, f1, f2⟩ := htv_instance ptan h ids hi kwargs p ha a1 a2 w1 w2 e1 e2 i1 i2
  refine ⟨st, b1, by rw [b2]; rfl, fun st0 lib depth hr => ?_⟩
  obtain ⟨n0, q0, r0⟩ := hr.wing (by norm_num) f0
  obtain ⟨n1, q1, r1⟩ := hr.wing (by norm_num) f1
  obtain ⟨n2, q2, r2⟩ := hr.wing (by norm_num) f2
  have hv : st0.veh = htvVeh ids := hr.1.trans b2
  have hcs : st0.veh.components = [ids 0, ids 1, ids 2] := by rw [hv]; rfl
  obtain ⟨g0, d0, g01, g02, M0, c0', z0, g03, g04, g05⟩ := reflected_sized i1 s1 u1 m1 n0 q0 st0.heap (ids 0) _ r0
  obtain ⟨g1, d1, g11, g12, M1, c1', g13, g14⟩ := plain_sized i2 s2 u2 m2 n1 q1 st0.heap (ids 1) _ r1
  obtain ⟨g2, d2, g21, g22, M2, c2', z2, g23, g24, g25⟩ := reflected_sized i2 s2 u2 m2 n2 q2 st0.heap (ids 2) _ r2
  obtain ⟨st', h1, h2, h3⟩ := generate_each lib depth st0 (by rw [hv]; rfl) (by rw [hv]; rfl) (by rw [hv]; rfl)
    (by rw [hcs]; simp [hi.eq_iff])
    (by
      intro k hk
      rw [hcs] at hk
      simp only [List.mem_cons, List.not_mem_nil, or_false] at hk
      rcases hk with rfl | rfl | rfl
      · rw [r0]; rfl
      · rw [r1]; rfl
      · rw [r2]; rfl)
    (fun k c => (k = ids 0 → c = d0) ∧ (k = ids 1 → c = d1) ∧ (k = ids 2 → c = d2))
    (by
      intro k hk
      rw [hcs] at hk
      simp only [List.mem_cons, List.not_mem_nil, or_false] at hk
      rcases hk with rfl | rfl | rfl
      · exact ⟨g0, d0, g01, g02, by simp [hi.eq_iff]⟩
      · exact ⟨g1, d1, g11, g12, by simp [hi.eq_iff]⟩
      · exact ⟨g2, d2, g21, g22, by simp [hi.eq_iff]⟩)
  rw [hcs] at h3
  rw [w20, w21] at g14 g24
  refine ⟨st', h1, ?_, ?_, ?_⟩
  · rw [(h3 (ids 0) (by simp)).1 rfl]
    exact ⟨M0, c0', g03, by rw [g05]; exact htv_body_sized p hp g04 A0 B0 TT fl hb hb0 hbB⟩
  · rw [(h3 (ids 1) (by simp)).2.1 rfl]; exact ⟨M1, c1', g13, htv_flap_sized p hp hn g14 A0' B0' TT' fl' fa'⟩
  · rw [(h3 (ids 2) (by simp)).2.2 rfl]; exact ⟨M2, c2', z2, g23, htv_flap_sized p hp hn g24 A0' B0' TT' fl' fa', g25⟩

/-- C146 is violated: `h` is not the height of the body.  What is scaled by `h` is the distance to the nose, so that of two bodies with the same `h` and edge
the longer one is the higher; a body of length two with `h = 0.1` is more than 0.2 high. -/
theorem C146_violated (ptan : ℝ → ℝ) (hT : FloatTan ptan) (h : Heap) (ids : ℕ → ℕ) (hi : Function.Injective ids) (lib : Lib) (depth : ℕ) :
    ∃ p st st' M c', HTVArgs [("L", 2)] p ∧ HTVOk p ∧ p.h = 0.1 ∧ p.t_LE = 0.01 ∧ HTV.instanceOf bisect01 ptan h ids [("L", 2)] = .ok st ∧
      generate lib depth st = (.ok (), st') ∧ (st'.heap (ids 0)).mesh = (.ok M, c') ∧
      (∃ v w, IsVertex v M.tris ∧ IsVertex w M.tris ∧ w.z - v.z = 2.05 * p.h + 0.2 * p.t_LE) ∧
      ¬ ∀ v w, IsVertex v M.tris → IsVertex w M.tris → |v.z - w.z| ≤ p.h + p.t_LE := by
  have hp : HTVOk ⟨2, 0.5, 0.1, 0.01, 15, 1, 0.8⟩ := by constructor <;> norm_num
  have ha : HTVArgs [("L", 2)] ⟨2, 0.5, 0.1, 0.01, 15, 1, 0.8⟩ := by
    refine ⟨by simp [Dict.keys], .inl (by simp), ?_, ?_, ?_, ?_, ?_, ?_⟩ <;> exact .inr ⟨by simp, rfl⟩
  obtain ⟨st, e1, -, e2⟩ := C146_partial ptan hT h ids hi _ _ ha hp (by norm_num) (by norm_num)
  obtain ⟨st', e3, ⟨M, c', e4, e5⟩, -⟩ := e2 st lib depth ⟨rfl, fun k => .inl rfl⟩
  have v1 := e5.back (by norm_num)
  have v2 := e5.rear
  refine ⟨_, st, st', M, c', ha, hp, rfl, rfl, e1, e3, e4, ⟨_, _, v1, v2, by norm_num⟩, fun hall => ?_⟩
  have := hall _ _ v1 v2
  rw [abs_le] at this
  norm_num at this

/-- The default HTV. -/
example (h : Heap) (lib : Lib) (depth : ℕ) : ∃ st st' M c', HTV.instanceOf bisect01 ieeeTan h id [] = .ok st ∧ generate lib depth st = (.ok (), st') ∧
    (st'.heap 0).mesh = (.ok M, c') ∧ (∀ v, IsVertex v M.tris → v.x ≤ 1.01 ∧ |v.y| ≤ 0.26) ∧ IsVertex ⟨0, 0, -0.105⟩ M.tris := by
  obtain ⟨st, e1, -, e2⟩ := C146_partial ieeeTan ieeeTan_float h id Function.injective_id [] _ htvDefault_ok.1 htvDefault_ok.2
    (by norm_num [htvDefault]) (by norm_num [htvDefault])
  obtain ⟨st', e3, ⟨M, c', e4, e5⟩, -⟩ := e2 st lib depth ⟨rfl, fun k => .inl rfl⟩
  refine ⟨st, st', M, c', e1, e3, e4, fun v hv => ?_, ?_⟩
  · have := e5.within v hv
    norm_num [htvDefault] at this ⊢
    exact ⟨this.2.1, this.2.2.1⟩
  · have := e5.back (by norm_num [htvDefault])
    norm_num [htvDefault] at this
    norm_num
    exact this

end HV
