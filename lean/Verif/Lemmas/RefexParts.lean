import Verif.Model.Hangar6
import Verif.Props.Hifire4

/-!
# The parts of the ReFEX
-/

namespace HV
open Spec Veh

namespace Spec

/-- Dimensions for which the ReFEX is a vehicle: the nose is an ogive with a rounded tip, lengths and thicknesses are positive, the wings reach
outwards, and the canards are not shifted vertically. -/
structure ReFEXOk (p : ReFEX.Params) (shift : V) : Prop where
  tip : 0 < p.r_n
  blunt : p.r_n < p.h
  ogive : p.h < p.r_o
  fairing : 0 < p.L_o
  body : 0 < p.L_b
  fin : 0 < p.fin_thickness
  finThin : p.fin_thickness ≤ 60
  chord : 0 < p.wing_length
  span : 0 < p.wing_span + p.h
  tail : 0 < p.tail_height
  tailThick : 0 < p.tail_thickness
  tailThin : p.tail_thickness ≤ 200
  level : shift.z = 0

end Spec

namespace ReFEX
variable {p : Params} {shift : V}

theorem leWidth_eq (r : ℝ) : leWidth r = .ok (0.01 * (1 - r) ^ 2 + 2 * 0.05 * r * (1 - r) + 0.01 * r ^ 2) := by
  unfold leWidth bezierY
  rw [X43.bezier3, ok_bind]; rfl

theorem leWidth_ge {r : ℝ} (h : r ∈ Set.Icc (0 : ℝ) 1) : 0.01 ≤ 0.01 * (1 - r) ^ 2 + 2 * 0.05 * r * (1 - r) + 0.01 * r ^ 2 := by
  nlinarith [h.1, h.2, mul_nonneg h.1 (sub_nonneg.2 h.2)]

/-! ## The body -/

/-- The line of the body from the nose to the base. -/
noncomputable def bodyLines (p : Params) : List (V × V) :=
  [(⟨0, 0, 0⟩, ⟨0, p.h, 0⟩), (⟨0, p.h, 0⟩, ⟨-p.L_b, p.h, 0⟩), (⟨-p.L_b, p.h, 0⟩, ⟨-p.L_b, 0, 0⟩)]

theorem bodyLine_eq (p : Params) : bodyLine p = Polyline ((bodyLines p).map fun e => Line e.1 e.2) := by
  have e : bb0 p = ⟨-p.L_b, p.h, 0⟩ := by unfold bb0 f1; ext <;> simp
  have e' : (f1 p).y = p.h := by unfold f1; simp
  unfold bodyLine bodyLines
  rw [e, e']
  rfl

theorem body_line (hp : ReFEXOk p shift) : ∃ P, bodyLine p = .ok P ∧ (∀ t, P.call t = .ok (fnOf P t)) ∧
    fnOf P 0 = ⟨0, 0, 0⟩ ∧ fnOf P 1 = ⟨-p.L_b, 0, 0⟩ ∧ RunsBack P ∧ ∀ t, 0 < t → t < 1 → 0 < (fnOf P t).y := by
  have h1 := hp.body
  have h2 : 0 < p.h := by linarith [hp.tip, hp.blunt]
  have hd : ∀ e ∈ bodyLines p, e.1 ≠ e.2 := by
    intro e he
    simp only [bodyLines, List.mem_cons, List.not_mem_nil, or_false] at he
    rcases he with rfl | rfl | rfl <;> intro hc
    · have := congrArg Vec.y hc; simp only at this; linarith
    · have := congrArg Vec.x hc; simp only at this; linarith
    · have := congrArg Vec.y hc; simp only at this; linarith
  have hg : ∀ s ∈ (bodyLines p).map fun e => Line e.1 e.2, GoodSeg s := by
    intro s hs
    obtain ⟨e, he, rfl⟩ := List.mem_map.1 hs
    exact goodLine _ _ (hd e he)
  obtain ⟨P, k1, k2, k3, k4, -⟩ := lines_edge (bodyLines p) (by simp [bodyLines]) hd (by
    intro i hi
    simp only [bodyLines, List.length_cons, List.length_nil] at hi
    obtain rfl | rfl : i = 0 ∨ i = 1 := by omega
    · rfl
    · rfl)
  refine ⟨P, by rw [bodyLine_eq]; exact k1, k2, k3, k4, ?_, ?_⟩
  · refine polyline_runsBack _ (by simp [bodyLines]) hg ?_ ?_ P k1
    · intro s hs
      obtain ⟨e, he, rfl⟩ := List.mem_map.1 hs
      refine runsBack_line _ _ ?_
      simp only [bodyLines, List.mem_cons, List.not_mem_nil, or_false] at he
      rcases he with rfl | rfl | rfl <;> simp only <;> linarith
    · intro i hi
      simp only [bodyLines, List.map_cons, List.map_nil, List.length_cons, List.length_nil] at hi
      obtain rfl | rfl : i = 0 ∨ i = 1 := by omega
      · simp [bodyLines, fnOf_line, lineAt]
      · simp [bodyLines, fnOf_line, lineAt]
  · intro t ht0 ht1
    refine polyline_inside _ (by simp [bodyLines]) hg (fun v => 0 < v.y) ?_ P k1 t ht0 ht1
    intro i hi t h0 h1'
    simp only [bodyLines, List.map_cons, List.map_nil, List.length_cons, List.length_nil] at hi
    have ht : t ≤ 1 := by rcases h1' with h | h <;> linarith [h]
    obtain rfl | rfl | rfl : i = 0 ∨ i = 1 ∨ i = 2 := by omega
    · simp only [bodyLines, List.map_cons, List.map_nil, List.getElem_cons_zero, fnOf_line, lineAt, Vec.add_y, Vec.mul_y]
      nlinarith
    · simp only [bodyLines, List.map_cons, List.map_nil, List.getElem_cons_zero, List.getElem_cons_succ, fnOf_line, lineAt, Vec.add_y, Vec.mul_y]
      nlinarith
    · rcases h1' with h | h
      · simp only [bodyLines, List.map_cons, List.map_nil, List.getElem_cons_zero, List.getElem_cons_succ, fnOf_line, lineAt, Vec.add_y, Vec.mul_y]
        nlinarith
      · simp [bodyLines] at h

/-- A component added without options generates like the component on its own. -/
theorem plain_pipeline {H h' : Heap} {id : ℕ} (g1 : generatePatches H id = (.ok (), h')) (hc : id ∉ (H id).children)
    (h1 : (H id).modifier = none) (h2 : (H id).curvatures = none) (h3 : (H id).reflection_axis = none) (h4 : (H id).transformations = []) :
    pipeline 0 (h' id) = (.ok (), h' id) := by
  obtain ⟨P, R, S, hopt⟩ := generatePatches_opts H id hc
  rw [g1] at hopt
  simp only at hopt
  exact pipeline_plain _ (by rw [hopt]; exact h1) (by rw [hopt]; exact h2) (by rw [hopt]; exact h3) (by rw [hopt]; exact h4)

theorem body_mesh (hp : ReFEXOk p shift) : ∃ P, bodyLine p = .ok P ∧ ∀ (n : ℕ), 1 ≤ n → ∀ (name : Option String) (H : Heap) (id : ℕ),
    H id = RevolvedComponent P n name → ∃ g c, generatePatches H id = (.ok (), g) ∧ pipeline 0 (g id) = (.ok (), c) ∧
      ∃ M c', c.mesh = (.ok M, c') ∧ Closed M.tris ∧ (2 ≤ n → signedVolume M.tris < 0) := by
  obtain ⟨P, k1, k2, k3, k4, k5, k6⟩ := body_line hp
  refine ⟨P, k1, fun n hn name H id hid => ?_⟩
  obtain ⟨h', M, c', g1, g2, g3, g4⟩ := C97_volume P (fnOf P) (fun t _ _ => k2 t) (by rw [k3]; simp) (by rw [k4]; simp) n hn name H id hid
  refine ⟨h', h' id, g1, plain_pipeline g1 (by rw [hid]; simp [RevolvedComponent, Comp.children]) (by rw [hid]; rfl) (by rw [hid]; rfl)
    (by rw [hid]; rfl) (by rw [hid]; rfl), M, c', g2, g3, fun h2 => ?_⟩
  rw [g4]
  refine polygonalVolume_neg (fnOf P) k5 ?_ k6 n h2
  rw [k3, k4]
  show -p.L_b < 0
  linarith [hp.body]

/-! ## The nose -/

theorem nose_mesh (hp : ReFEXOk p shift) : ∃ P, Ogive.comp p.h p.r_n p.r_o p.L_o 50 = .ok (RevolvedComponent P 50) ∧
    ∀ (n : ℕ), 1 ≤ n → ∀ (name : Option String) (H : Heap) (id : ℕ),
    H id = RevolvedComponent P n name → ∃ g c, generatePatches H id = (.ok (), g) ∧ pipeline 0 (g id) = (.ok (), c) ∧
      ∃ M c', c.mesh = (.ok M, c') ∧ Closed M.tris := by
  obtain ⟨P, Γ, t1, t2, cn, co, hl, hc, -, -, -, -, e1, e2, -, e3, -, -, -, -, e4, -⟩ := C93_profile p.h p.r_n p.r_o p.L_o hp.tip hp.blunt hp.ogive hp.fairing
  refine ⟨P, by unfold Ogive.comp; rw [hl]; rfl, fun n hn name H id hid => ?_⟩
  obtain ⟨h', M, c', g1, g2, g3⟩ := C60_watertight P Γ (fun t _ _ => hc t) (by rw [e3]; simp [e1, e2]) (by rw [e4]; simp) n hn name H id hid
  exact ⟨h', h' id, g1, plain_pipeline g1 (by rw [hid]; simp [RevolvedComponent, Comp.children]) (by rw [hid]; rfl) (by rw [hid]; rfl)
    (by rw [hid]; rfl) (by rw [hid]; rfl), M, c', g2, g3⟩

/-! ## The transition -/

theorem box_total (h x : ℝ) : ∀ e ∈ box h x, ∀ t : ℝ, 0 ≤ t → t ≤ 1 → ∃ q, e.call t = .ok q := by
  intro e he t _ _
  simp only [box, List.mem_cons, List.not_mem_nil, or_false] at he
  rcases he with rfl | rfl | rfl | rfl <;> exact ⟨_, rfl⟩

/-- An arc of the round section. -/
theorem arc_ends {h x : ℝ} (hh : 0 < h) (y1 z1 y2 z2 : ℝ) (r1 : y1 ^ 2 + z1 ^ 2 = h ^ 2) (r2 : y2 ^ 2 + z2 ^ 2 = h ^ 2) (hx : y1 * z2 - z1 * y2 ≠ 0) :
    (∀ t, ∃ q, (Arc ⟨x, y1, z1⟩ ⟨x, y2, z2⟩ ⟨x, 0, 0⟩).call t = .ok q) ∧ (Arc ⟨x, y1, z1⟩ ⟨x, y2, z2⟩ ⟨x, 0, 0⟩).call 0 = .ok ⟨x, y1, z1⟩ ∧
      (Arc ⟨x, y1, z1⟩ ⟨x, y2, z2⟩ ⟨x, 0, 0⟩).call 1 = .ok ⟨x, y2, z2⟩ := by
  have d : ∀ y z : ℝ, y ^ 2 + z ^ 2 = h ^ 2 → vdist (⟨x, y, z⟩ : V) ⟨x, 0, 0⟩ = h := by
    intro y z hr
    rw [← Vec.abs_sub_eq_vdist]
    unfold Vec.abs
    simp
    have := Real.sqrt_sq hh.le
    rw [← hr] at this
    convert this using 2
  have hcol : ¬ Collinear ℝ ({toE (⟨x, 0, 0⟩ : V), toE ⟨x, y1, z1⟩, toE ⟨x, y2, z2⟩} : Set E3) := by
    rw [← Arc.cross_eq_zero_iff_collinear, Vec.abs_eq_zero_iff]
    intro hc
    have := congrArg Vec.x hc
    simp at this
    exact hx (by linarith)
  obtain ⟨a1, ⟨q, a2, a3⟩, a4⟩ := C13_arc_partial (⟨x, y1, z1⟩ : V) ⟨x, y2, z2⟩ ⟨x, 0, 0⟩ (by rw [d _ _ r1, d _ _ r2]; simp) hcol (by simp)
  refine ⟨fun t => ?_, ?_, a4⟩
  · obtain ⟨q, h1, -⟩ := a1 t
    exact ⟨q, h1⟩
  · rw [d _ _ r1, d _ _ r2, sub_self, abs_zero] at a3
    rw [a2, Vec.toE_injective (dist_eq_zero.1 a3)]

theorem deg60 : Real.cos (deg2rad 60) = 1 / 2 ∧ Real.sin (deg2rad 60) = √3 / 2 := by
  have e : deg2rad 60 = Real.pi / 3 := by unfold deg2rad; ring
  rw [e]
  exact ⟨Real.cos_pi_div_three, Real.sin_pi_div_three⟩

theorem round_closed {h x : ℝ} (hh : 0 < h) : (∀ e ∈ round h x, ∀ t : ℝ, 0 ≤ t → t ≤ 1 → ∃ q, e.call t = .ok q) ∧
    ∀ i e e', (round h x)[i]? = some e → (round h x)[(i + 1) % (round h x).length]? = some e' → e.call 1 = e'.call 0 := by
  obtain ⟨hc, hs⟩ := deg60
  have h3 : √3 ^ 2 = (3 : ℝ) := Real.sq_sqrt (by norm_num)
  have s3 : 0 < √(3 : ℝ) := Real.sqrt_pos.2 (by norm_num)
  obtain ⟨a1, a2, a3⟩ := arc_ends (h := h) (x := x) hh h 0 (h * Real.cos (deg2rad 60)) (h * Real.sin (deg2rad 60)) (by ring)
    (by rw [hc, hs]; nlinarith) (by rw [hs]; have : 0 < h * (h * (√3 / 2)) := by positivity
                                    intro h0; linarith)
  obtain ⟨b1, b2, b3⟩ := arc_ends (h := h) (x := x) hh (-h * Real.cos (deg2rad 60)) (h * Real.sin (deg2rad 60)) (h * Real.cos (deg2rad 60))
    (h * Real.sin (deg2rad 60)) (by rw [hc, hs]; nlinarith) (by rw [hc, hs]; nlinarith) (by
      rw [hc, hs]
      have : 0 < h * (h * (√3 / 2)) := by positivity
      intro h0; linarith)
  obtain ⟨c1, c2, c3⟩ := arc_ends (h := h) (x := x) hh (-h) 0 (-h * Real.cos (deg2rad 60)) (h * Real.sin (deg2rad 60)) (by ring)
    (by rw [hc, hs]; nlinarith) (by rw [hs]; have : 0 < h * (h * (√3 / 2)) := by positivity
                                    intro h0; linarith)
  have rev : ∀ (P : PathObj) (t : ℝ), (ReversedPath P).call t = P.call (1 - t) := by
    intro P t
    unfold ReversedPath SubRangedPath
    simp only
    congr 1
    ring
  constructor
  · intro e he t _ _
    simp only [round, List.mem_cons, List.not_mem_nil, or_false] at he
    rcases he with rfl | rfl | rfl | rfl
    · exact a1 t
    · rw [rev]; exact b1 _
    · rw [rev]; exact c1 _
    · exact ⟨_, rfl⟩
  · intro i e e' he he'
    have hi : i < 4 := by
      by_contra hi
      rw [List.getElem?_eq_none (by simp only [round, List.length_cons, List.length_nil]; omega)] at he
      cases he
    have l0 : (Line (⟨x, -h, 0⟩ : V) ⟨x, h, 0⟩).call 0 = .ok ⟨x, -h, 0⟩ := congrArg Except.ok (lineAt_zero _ _)
    have l1 : (Line (⟨x, -h, 0⟩ : V) ⟨x, h, 0⟩).call 1 = .ok ⟨x, h, 0⟩ := congrArg Except.ok (lineAt_one _ _)
    interval_cases i <;> simp [round, -neg_mul] at he he' <;> subst he <;> subst he'
    · rw [rev, a3, sub_zero, b3]
    · rw [rev, rev, sub_self, sub_zero, b2, c3]
    · rw [rev, sub_self, c2, l0]
    · rw [l1, a2]

theorem box_closed (h x : ℝ) : ∀ i e e', (box h x)[i]? = some e → (box h x)[(i + 1) % (box h x).length]? = some e' → e.call 1 = e'.call 0 := by
  have rev : ∀ (P : PathObj) (t : ℝ), (ReversedPath P).call t = P.call (1 - t) := by
    intro P t
    unfold ReversedPath SubRangedPath
    simp only
    congr 1
    ring
  have l0 : ∀ u v : V, (Line u v).call 0 = .ok u := fun u v => congrArg Except.ok (lineAt_zero _ _)
  have l1 : ∀ u v : V, (Line u v).call 1 = .ok v := fun u v => congrArg Except.ok (lineAt_one _ _)
  intro i e e' he he'
  have hi : i < 4 := by
    by_contra hi
    rw [List.getElem?_eq_none (by simp only [box, List.length_cons, List.length_nil]; omega)] at he
    cases he
  interval_cases i <;> simp [box] at he he' <;> subst he <;> subst he'
  · rw [rev, l1, sub_zero, l1]
  · rw [rev, rev, sub_self, sub_zero, l0, l1]
  · rw [rev, sub_self, l0, l0]
  · rw [l1, l0]

theorem transition_mesh (hp : ReFEXOk p shift) (x : ℝ) :
    ∀ (n : ℕ), 1 ≤ n → ∀ (name : Option String), Swept.init (sections p x) true (.int n) name = .ok (Swept.comp (sections p x) 4 true (.int n) name) ∧
    ∀ (H : Heap) (id : ℕ),
    H id = Swept.comp (sections p x) 4 true (.int n) name → ∃ g c, generatePatches H id = (.ok (), g) ∧ pipeline 0 (g id) = (.ok (), c) ∧
      ∃ M c', c.mesh = (.ok M, c') ∧ Closed M.tris := by
  intro n hn name
  have hh : 0 < p.h := by linarith [hp.tip, hp.blunt]
  obtain ⟨c, h1, h2⟩ := C59_watertight (sections p x) (by simp [sections])
    (by
      intro cs hcs
      simp only [sections, List.mem_cons, List.not_mem_nil, or_false] at hcs
      rcases hcs with rfl | rfl | rfl <;> rfl)
    (by
      intro cs hcs
      simp only [sections, List.mem_cons, List.not_mem_nil, or_false] at hcs
      rcases hcs with rfl | rfl | rfl
      · exact box_total _ _
      · exact box_total _ _
      · exact (round_closed hh).1)
    (by
      intro cs hcs
      simp only [sections, List.mem_cons, List.not_mem_nil, or_false] at hcs
      rcases hcs with rfl | rfl | rfl
      · exact box_closed _ _
      · exact box_closed _ _
      · exact (round_closed hh).2)
    (.int n) n (.inl ⟨rfl, rfl⟩) hn name
  have hc : c = Swept.comp (sections p x) 4 true (.int n) name := by
    unfold Swept.init at h1
    have : ∃ f, SweptPatch.getIdx (sections p x) 0 = .ok f ∧ f.length = 4 := ⟨_, rfl, rfl⟩
    obtain ⟨f, hf, hl⟩ := this
    rw [hf, ok_bind, bind_ok] at h1
    obtain ⟨u, -, hu⟩ := h1
    cases hu
    rw [hl]
  subst hc
  refine ⟨h1, fun H id hid => ?_⟩
  obtain ⟨h', M, c', g1, g2, g3⟩ := h2 H id hid
  exact ⟨h', h' id, g1, plain_pipeline g1 (by rw [hid]; simp [Swept.comp, Comp.children]) (by rw [hid]; rfl) (by rw [hid]; rfl)
    (by rw [hid]; rfl) (by rw [hid]; rfl), M, c', g2, g3⟩

/-! ## The fins -/

/-- The mesh of a fin of uniform thickness with the leading edge of the ReFEX. -/
theorem anyFin_mesh {ptan : ℝ → ℝ} (hT : FloatTan ptan) (a : Fin.Args) (h0 : 0 < a.fin_thickness) (h1 : a.fin_thickness ≤ 200)
    (ht : a.top_tf = uniformThickness a.fin_thickness "top") (hb : a.bot_tf = uniformThickness a.fin_thickness "bot") (hw : a.LE_wf = leWidth)
    (hz : a.p1.z = 0) (ho : OffsetBy a ⟨0, 0, 0⟩) (hx : BreakFound a) (n : ℕ) (hn : 1 ≤ n) (name : Option String) (H : Heap) (id : ℕ)
    (hid : H id = Fin.comp (rounded bisect01) ptan a n name) :
    ∃ g c, generatePatches H id = (.ok (), g) ∧ pipeline 0 (g id) = (.ok (), c) ∧
      ∃ M c', c.mesh = (.ok M, c') ∧ ClosedUpTo (6e-7 * brokenLength a.p1 a.p2 a.p3 + 1e-12) M.tris := by
  have hu : UniformFin ptan a 0.01 ⟨0, 0, 0⟩ := by
    refine ⟨hT.like, h0, ht, hb, ?_, ?_, by norm_num, ?_, ?_, fun _ => hz, ho⟩
    · intro hc; unfold BreakFound at hx; rw [hc, sub_self, zero_mul] at hx; exact lt_irrefl _ hx
    · intro hc; unfold BreakFound at hx; rw [← hc, sub_self, mul_zero] at hx; exact lt_irrefl _ hx
    · exact hT.fits _ _ (by rw [abs_of_pos (by linarith)]; linarith) (by norm_num)
    · intro t ht; rw [hw]; exact ⟨_, leWidth_ge ht, leWidth_eq t⟩
  obtain ⟨h', M, c', g1, g2, g3⟩ := C105_fin_partial (rounded bisect01) ptan _ 0.01 6e-7 _ roundedBisect_finds hu hx n hn name H id hid
  refine ⟨h', h' id, g1, plain_pipeline g1 (by rw [hid]; simp [Fin.comp, Comp.children]) (by rw [hid]; rfl) (by rw [hid]; rfl)
    (by rw [hid]; rfl) (by rw [hid]; rfl), M, c', g2, closedUpTo_mono ?_ g3⟩
  have := hT.gap (a.fin_thickness / 2) 0.01 (by linarith) (by linarith) (by norm_num)
  unfold finGap
  linarith

/-- The length of the leading edge of a canard. -/
noncomputable def canardEdge (p : Params) (shift : V) : ℝ := brokenLength (p1 p shift) (p2 p shift) (p3 p shift)

/-- The length of the leading edge of the tail. -/
noncomputable def tailEdge (p : Params) : ℝ := brokenLength (t1 p) (t2 p) (t3 p)

theorem canard_mesh (hp : ReFEXOk p shift) {ptan : ℝ → ℝ} (hT : FloatTan ptan) (i n : ℕ) (hn : 1 ≤ n) (name : Option String) (H : Heap) (id : ℕ)
    (hid : H id = Fin.comp (rounded bisect01) ptan (canardArgs p shift i) n name) :
    ∃ g c, generatePatches H id = (.ok (), g) ∧ pipeline 0 (g id) = (.ok (), c) ∧
      ∃ M c', c.mesh = (.ok M, c') ∧ ClosedUpTo (6e-7 * canardEdge p shift + 1e-12) M.tris := by
  have hh : 0 < p.h := by linarith [hp.tip, hp.blunt]
  refine anyFin_mesh hT (canardArgs p shift i) hp.fin ((hp.finThin).trans (by norm_num)) rfl rfl rfl ?_ ?_ ?_ n hn name H id hid
  · simp [canardArgs, p1, p0, f1, shift_in, hp.level]
  · simp only [OffsetBy, canardArgs]
  · simp only [BreakFound, canardArgs, p1, p2, p3, p0, f1, shift_in, fin_length, fin_height, Vec.add_x, Vec.sub_x]
    nlinarith [mul_pos hh hh]

theorem tail_mesh (hp : ReFEXOk p shift) {ptan : ℝ → ℝ} (hT : FloatTan ptan) (n : ℕ) (hn : 1 ≤ n) (name : Option String) (H : Heap) (id : ℕ)
    (hid : H id = Fin.comp (rounded bisect01) ptan (tailArgs p) n name) :
    ∃ g c, generatePatches H id = (.ok (), g) ∧ pipeline 0 (g id) = (.ok (), c) ∧
      ∃ M c', c.mesh = (.ok M, c') ∧ ClosedUpTo (6e-7 * tailEdge p + 1e-12) M.tris := by
  have hh := hp.tail
  refine anyFin_mesh hT (tailArgs p) hp.tailThick hp.tailThin rfl rfl rfl ?_ ?_ ?_ n hn name H id hid
  · simp [tailArgs, t1, t0, bb0, f1, shift_in]
  · simp only [OffsetBy, tailArgs]
  · simp only [BreakFound, tailArgs, t1, t2, t3, t0, bb0, f1, shift_in, tail_length, Vec.add_x, Vec.sub_x]
    nlinarith [mul_pos hh hh]

/-! ## The wing -/

theorem wing_smooth (hp : ReFEXOk p shift) {ptan : ℝ → ℝ} (hT : FloatTan ptan) : ∃ a L wd, wingArgs p = .ok a ∧
    SmoothWing ptan (fun _ _ => True) a L (fun _ _ => p.h - wing_thickness p) (fun _ _ => p.h) wd 1e-12 ∧
    a.t_B1 = none ∧ a.close_wing = false ∧ a.A0.y = 0 ∧ a.A1.y = 0 ∧ a.TT.y = 0 ∧ (L 0).x ≤ a.A1.x ∧ a.A1.x ≤ (L 1).x := by
  have hL := hp.chord
  have hs := hp.span
  have hf := hp.fin
  have hf2 := hp.finThin
  obtain ⟨P, h1, h2, h3, h4, -⟩ := lines_edge [(B0 p, B1 p), (B1 p, TT p)] (by simp)
    (by
      intro e he
      simp only [List.mem_cons, List.not_mem_nil, or_false] at he
      rcases he with rfl | rfl <;> intro hc
      · have := congrArg Vec.x hc; simp only [B1, flap_length, Vec.add_x] at this; linarith
      · have := congrArg Vec.y hc; simp [B1, B0, TT, A0] at this; linarith)
    (by
      intro i hi
      simp only [List.length_cons, List.length_nil] at hi
      obtain rfl : i = 0 := by omega
      rfl)
  simp only [List.map_cons, List.map_nil] at h1
  simp only [List.head_cons, List.getLast_cons, List.getLast_singleton, ne_eq, not_false_eq_true, List.cons_ne_nil] at h3 h4
  have w1 : 0 < wing_thickness p ∧ wing_thickness p ≤ 180 := by unfold wing_thickness; constructor <;> linarith
  refine ⟨{ A0 := A0 p, A1 := A1 p, TT := TT p, B0 := B0 p, line := P, top_tf := fun _ _ _ => .ok ⟨0, 0, p.h - wing_thickness p⟩,
            bot_tf := fun _ _ _ => .ok ⟨0, 0, p.h⟩, LE_wf := some leWidth, flap_length := flap_length p },
    fnOf P, fun r => 0.01 * (1 - r) ^ 2 + 2 * 0.05 * r * (1 - r) + 0.01 * r ^ 2,
    by unfold wingArgs; rw [h1, ok_bind]; rfl,
    ⟨hT.like, lower_bezier, X43.up_custom, rfl, .inl rfl, h2, h3, h4,
     fun x y z _ => rfl, fun x y z _ => rfl, liesOver_univ _ _ _, .inl rfl,
     fun t _ => leWidth_eq t, ?_, ?_, ?_, ?_⟩, rfl, rfl, rfl, rfl, by simp [TT, A0], ?_, ?_⟩
  · intro t ht; linarith [w1.1]
  · intro t ht; linarith [leWidth_ge ht]
  · intro t ht
    refine hT.fits _ _ ?_ (by linarith [leWidth_ge ht])
    rw [abs_le]; constructor <;> linarith [w1.1, w1.2]
  · intro t ht
    exact hT.gap _ _ (by linarith [w1.1]) (by linarith [w1.2]) (by linarith [leWidth_ge ht])
  · rw [h3]; simp [A1, B0, TT]; linarith
  · rw [h4]; simp [A1, TT]; linarith

end ReFEX
end HV
