import Verif.Props.FinClosed
import Verif.Lemmas.Bisect

/-!
# C105: the root finder of the fins, and rectangular fins
-/

namespace HV
open Spec

/-- What the code calls, `round(bisect(f, 0.0, 1.0), 6)`, finds the break up to the rounding. -/
theorem roundedBisect_finds : FindsRoot 6e-7 roundedBisect := by
  intro f g hf hc hs
  obtain ⟨t, ht, h1, r, hr, hg, hd⟩ := scipyBisect_root f g hf hc hs
  refine ⟨round6 t, round6_mem ht, by unfold roundedBisect; rw [h1, ok_bind]; rfl, r, hr, hg, ?_⟩
  have h := round6_near t
  have : round6 t - r = (round6 t - t) + (t - r) := by ring
  rw [this]
  refine (abs_add_le _ _).trans ?_
  have : (5e-7 : ℝ) + 3e-12 ≤ 6e-7 := by norm_num
  linarith

theorem closedUpTo_mono {ε δ : ℝ} (h : ε ≤ δ) {m : TriMesh ℝ} (hm : ClosedUpTo ε m) : ClosedUpTo δ m := by
  obtain ⟨m', h1, h2⟩ := hm
  exact ⟨m', h1.imp fun t t' ⟨a, b, c⟩ => ⟨a.trans h, b.trans h, c.trans h⟩, h2⟩

theorem defaultWidth_mem (t : ℝ) (ht : t ∈ Set.Icc (0 : ℝ) 1) : ∃ w, (1 / 100 : ℝ) ≤ w ∧ leadingEdgeWidth t = .ok w := by
  refine ⟨_, ?_, leadingEdgeWidth_eq t⟩
  have := mul_nonneg ht.1 (sub_nonneg.2 ht.2)
  norm_num
  nlinarith

theorem ieee_poleGap (b : ℝ) (hb : 0 ≤ b) (hb1 : b ≤ 1) : poleGap ieeeTan b (1 / 100) ≤ 1e-12 := by
  have e : ieeeTan (Real.pi / 2) = 10 ^ 16 := by norm_num [ieeeTan]
  unfold poleGap
  rw [e]
  have h3 : b ^ 3 ≤ 1 := pow_le_one₀ hb hb1
  have : b / 10 ^ 16 ≤ 1 / 10 ^ 16 := by gcongr
  have : b ^ 3 / (1 / 100 * 10 ^ 16) ^ 2 ≤ 1 / (1 / 100 * 10 ^ 16) ^ 2 := by gcongr
  have : (1 : ℝ) / 10 ^ 16 + 1 / (1 / 100 * 10 ^ 16) ^ 2 ≤ 1e-12 := by norm_num
  linarith

theorem example_uniform (rudder : String) : UniformFin ieeeTan (exampleFin rudder) (1 / 100) ⟨0, 1, 0⟩ where
  like := ieeeTan_like
  thick := by norm_num [exampleFin]
  top := rfl
  bot := rfl
  n12 := by simp [exampleFin]
  n23 := by simp [exampleFin]
  wpos := by norm_num
  fits := ieeeTan_fits _ _ (by simp only [exampleFin]; rw [abs_of_pos] <;> norm_num) (by norm_num)
  width := defaultWidth_mem
  sharp := fun _ => rfl
  offset := fun _ _ _ => rfl

/-- A swept fin with the default edge width and either kind of rudder, generated with the rounded bisection of the code, is closed
up to two micrometres at every resolution (its coordinates being metres). -/
example (rudder : String) (n : ℕ) (hn : 1 ≤ n) : ∃ h' M c',
    generatePatches (fun _ => Fin.comp roundedBisect ieeeTan (exampleFin rudder) n none) 0 = (.ok (), h') ∧
      (h' 0).mesh = (.ok M, c') ∧ ClosedUpTo 2e-6 M.tris := by
  obtain ⟨h', M, c', h1, h2, h3⟩ := C105_fin_partial roundedBisect ieeeTan (exampleFin rudder) (1 / 100) 6e-7 ⟨0, 1, 0⟩ roundedBisect_finds
    (example_uniform rudder) (by norm_num [BreakFound, exampleFin]) n hn none
    (fun _ => Fin.comp roundedBisect ieeeTan (exampleFin rudder) n none) 0 rfl
  refine ⟨h', M, c', h1, h2, closedUpTo_mono ?_ h3⟩
  unfold finGap
  have hg := ieee_poleGap ((exampleFin rudder).fin_thickness / 2) (by norm_num [exampleFin]) (by norm_num [exampleFin])
  have hL : brokenLength (exampleFin rudder).p1 (exampleFin rudder).p2 (exampleFin rudder).p3 ≤ 2.5 := by
    have h1 : vdist (exampleFin rudder).p1 (exampleFin rudder).p2 ≤ 1 := by
      apply (abs_le_of_sq_le_sq' _ zero_le_one).2
      rw [vdist_sq]; norm_num [exampleFin]
    have h2 : vdist (exampleFin rudder).p2 (exampleFin rudder).p3 ≤ 1.5 := by
      apply (abs_le_of_sq_le_sq' _ (by norm_num)).2
      rw [vdist_sq]; norm_num [exampleFin]
    unfold brokenLength
    linarith
  have : (2.5 : ℝ) * 6e-7 + 1e-12 ≤ 2e-6 := by norm_num
  nlinarith

/-! ## Rectangular fins -/

/-- A unit square fin of thickness 0.1: like the trailing wings of the D-21 (`hangar/d21.py:179-219`), `p2` lies above `p3`. -/
noncomputable def boxFin : Fin.Args where
  p0 := ⟨0, 0, 0⟩
  p1 := ⟨0, 1, 0⟩
  p2 := ⟨1, 1, 0⟩
  p3 := ⟨1, 0, 0⟩
  fin_thickness := 0.1
  fin_angle := 0
  top_tf := uniformThickness 0.1 "top"
  bot_tf := uniformThickness 0.1 "bot"

theorem box_uniform : UniformFin ieeeTan boxFin (1 / 100) ⟨0, 0, 0⟩ where
  like := ieeeTan_like
  thick := by norm_num [boxFin]
  top := rfl
  bot := rfl
  n12 := by simp [boxFin]
  n23 := by simp [boxFin]
  wpos := by norm_num
  fits := ieeeTan_fits _ _ (by simp only [boxFin]; rw [abs_of_pos] <;> norm_num) (by norm_num)
  width := defaultWidth_mem
  sharp := fun h => by simp [boxFin] at h
  offset := rfl

theorem box_move (v : V) : finMove boxFin ⟨0, 0, 0⟩ v = v := by
  unfold finMove
  ext <;> simp [boxFin, rotAbout]

/-- The corner of the upper skin at `p2`. -/
noncomputable def boxCorner : V := ⟨1, 1, -0.05⟩

theorem away_of_sum {v : V} (h : v.x + v.y ≤ 3 / 2) : 2 * (1 / 50) < vdist v boxCorner := by
  apply lt_of_pow_lt_pow_left₀ 2 (vdist_nonneg _ _)
  rw [vdist_sq]
  simp only [boxCorner]
  nlinarith [sq_nonneg (v.x - v.y), sq_nonneg (v.z - -0.05), sq_nonneg (v.x + v.y - 2)]

theorem away_of_z {v : V} (h : 0 ≤ v.z) : 2 * (1 / 50) < vdist v boxCorner := by
  apply lt_of_pow_lt_pow_left₀ 2 (vdist_nonneg _ _)
  rw [vdist_sq]
  simp only [boxCorner]
  nlinarith [sq_nonneg (v.x - 1), sq_nonneg (v.y - 1)]

/-- The start of every edge of a one-cell grid satisfies what its corners satisfy, if the mean does. -/
theorem one_cell {C : V → Prop} (hC : ∀ p q r s : V, C p → C q → C r → C s → C (cellCentre MeshArith.real p q r s)) (P : ℕ → ℕ → V)
    (h : ∀ i ≤ 1, ∀ j ≤ 1, C (P i j)) : ∀ e ∈ edges (gridMesh MeshArith.real false 1 1 P), C e.1 := by
  intro e he
  simp only [edges, List.mem_flatMap] at he
  obtain ⟨t, ht, he⟩ := he
  obtain ⟨i, hi, j, hj, ht⟩ := mem_cell_of_gridMesh ht
  obtain rfl : i = 0 := by omega
  obtain rfl : j = 0 := by omega
  have a := h 0 (by omega) 0 (by omega)
  have b := h 1 le_rfl 0 (by omega)
  have c := h 0 (by omega) 1 le_rfl
  have d := h 1 le_rfl 1 le_rfl
  have m := hC _ _ _ _ a b c d
  simp only [cellTris, meshVertex_real, List.mem_cons, List.not_mem_nil, or_false, zero_add] at ht
  rcases ht with rfl | rfl | rfl | rfl <;> simp only [triEdges, List.mem_cons, List.not_mem_nil, or_false] at he <;>
    rcases he with rfl | rfl | rfl <;> assumption

theorem cell_sum (p q r s : V) (hp : p.x + p.y ≤ 3 / 2) (hq : q.x + q.y ≤ 3 / 2) (hr : r.x + r.y ≤ 3 / 2) (hs : s.x + s.y ≤ 3 / 2) :
    (cellCentre MeshArith.real p q r s).x + (cellCentre MeshArith.real p q r s).y ≤ 3 / 2 := by
  simp only [cellCentre, MeshArith.real]
  linarith

theorem cell_z (p q r s : V) (hp : 0 ≤ p.z) (hq : 0 ≤ q.z) (hr : 0 ≤ r.z) (hs : 0 ≤ s.z) :
    0 ≤ (cellCentre MeshArith.real p q r s).z := by
  simp only [cellCentre, MeshArith.real]
  linarith

theorem sum_of_near {u v : V} (h : vdist u v ≤ 1 / 10) (hv : v.x + v.y ≤ 5 / 4) : u.x + u.y ≤ 3 / 2 := by
  have h2 := vdist_sq u v
  have h3 : vdist u v ^ 2 ≤ (1 / 10) ^ 2 := pow_le_pow_left₀ (vdist_nonneg _ _) h 2
  by_contra hc
  have : 1 / 4 < (u.x - v.x) + (u.y - v.y) := by linarith
  nlinarith [sq_nonneg (u.x - v.x - (u.y - v.y)), sq_nonneg (u.z - v.z)]

/-- C105: a fin whose corner `p2` lies above `p3` is far from closed: bisection returns the end of the leading edge instead of the
corner, so that no edge of the mesh lies along the upper skin between `p1` and `p2`.  Concretely a unit square fin of thickness 0.1
leaves a gap of more than 0.02. -/
theorem C105_rectangular_violated : ∃ h' M c',
    generatePatches (fun _ => Fin.comp roundedBisect ieeeTan boxFin 1 none) 0 = (.ok (), h') ∧ (h' 0).mesh = (.ok M, c') ∧
      ¬ ClosedUpTo (1 / 50) M.tris := by
  have h := box_uniform
  have z0 : (0 : ℝ) ∈ Set.Icc (0 : ℝ) 1 := ⟨le_rfl, zero_le_one⟩
  have z1 : (1 : ℝ) ∈ Set.Icc (0 : ℝ) 1 := ⟨zero_le_one, le_rfl⟩
  obtain ⟨line, PL, hl, hcall, hb⟩ := polyline_broken boxFin.p1 boxFin.p2 boxFin.p3 h.n12 h.n23
  have hfind : roundedBisect (fun t => do let p ← line.call t; return p.x - boxFin.p2.x) = .ok 1 := by
    unfold roundedBisect
    rw [scipyBisect_right _ (-1) (by simp only [hcall, ok_bind, hb.at_zero]; norm_num [boxFin, pure_eq])
      (by norm_num) (by simp only [hcall, ok_bind, hb.at_one]; norm_num [boxFin, pure_eq]), ok_bind]
    have : round6 1 = 1 := by
      unfold round6
      rw [one_mul, show ((10 : ℝ) ^ 6) = ((10 ^ 6 : ℤ) : ℝ) by norm_num, round_intCast]
      norm_num
    rw [this]; rfl
  obtain ⟨le, hle, fle⟩ := leading_patches roundedBisect h 1 le_rfl line PL hcall 1 z1 hfind
  obtain ⟨sk, hsk, fsk⟩ := fin_skins h 1
  obtain ⟨bo, Pb, hbo, fbo, gbo⟩ := fin_bottom h 1 le_rfl PL hb.at_one
  obtain ⟨te, Pt, hte, fte, gte⟩ := fin_flat h 1 le_rfl PL hb.at_zero
  obtain ⟨h', M, c', g1, g2, g3⟩ := fin_assembled roundedBisect h 1 le_rfl none
    (fun _ => Fin.comp roundedBisect ieeeTan boxFin 1 none) 0 rfl line hl sk le bo te _ _ _ _ hsk hle hbo
    (by unfold Fin.trailingEdge; rw [if_neg (by simp [boxFin])]; exact hte) fsk fle fbo fte
  refine ⟨h', M, c', g1, g2, ?_⟩
  have hgap : poleGap ieeeTan (boxFin.fin_thickness / 2) (1 / 100) ≤ 1 / 10 :=
    (ieee_poleGap _ (by norm_num [boxFin]) (by norm_num [boxFin])).trans (by norm_num)
  have hr := h.rim
  have hw0 : widthAt boxFin.LE_wf 0 = 0.01 := by
    have e : boxFin.LE_wf 0 = .ok 0.01 := by show leadingEdgeWidth 0 = _; rw [leadingEdgeWidth_eq]; norm_num
    unfold widthAt; rw [e]
  have hw1 : widthAt boxFin.LE_wf 1 = 0.01 := by
    have e : boxFin.LE_wf 1 = .ok 0.01 := by show leadingEdgeWidth 1 = _; rw [leadingEdgeWidth_eq]; norm_num
    unfold widthAt; rw [e]
  have a0 : angAt PL 0 = Real.pi / 2 := by simp [angAt]
  have a1 : angAt PL 1 = 0 := by simp [angAt]
  have hP0 : PL 0 = ⟨0, 1, 0⟩ := hb.at_zero
  have hP1 : PL 1 = ⟨1, 0, 0⟩ := hb.at_one
  -- the corners of the leading edge patches are near `p1` or `p3`
  have rim : ∀ (top : Bool) (t r : ℝ), t = 0 ∨ t = 1 → r = 0 ∨ r = 1 →
      (rimAt ieeeTan (boxFin.fin_thickness / 2) boxFin.LE_wf PL top t r).x
        + (rimAt ieeeTan (boxFin.fin_thickness / 2) boxFin.LE_wf PL top t r).y ≤ 5 / 4 := by
    intro top t r ht hrr
    have htm : t ∈ Set.Icc (0 : ℝ) 1 := by rcases ht with rfl | rfl <;> assumption
    have hw : widthAt boxFin.LE_wf t = 0.01 := by rcases ht with rfl | rfl <;> assumption
    have key : (swing (angAt PL t) (ellArc ieeeTan (boxFin.fin_thickness / 2) (widthAt boxFin.LE_wf t) top r)).x
        + (swing (angAt PL t) (ellArc ieeeTan (boxFin.fin_thickness / 2) (widthAt boxFin.LE_wf t) top r)).y ≤ 1 / 4 := by
      have near : ∀ (u : V) (s : ℝ), vdist u (upBy s) ≤ 1 / 10 → u.x + u.y ≤ 1 / 4 := by
        intro u s hu
        have h2 := vdist_sq u (upBy s)
        have h3 : vdist u (upBy s) ^ 2 ≤ (1 / 10) ^ 2 := pow_le_pow_left₀ (vdist_nonneg _ _) hu 2
        simp only [upBy, sub_zero] at h2 h3
        by_contra hc
        nlinarith [sq_nonneg (u.x - u.y), sq_nonneg (u.z - s)]
      have nose : ∀ w : ℝ, w = 0.01 → (swing (angAt PL t) ⟨0, w, 0⟩).x + (swing (angAt PL t) ⟨0, w, 0⟩).y ≤ 1 / 4 := by
        rintro w rfl
        rcases ht with rfl | rfl
        · rw [a0]; simp [swing]; norm_num
        · rw [a1]; simp [swing]; norm_num
      cases top <;> rcases hrr with rfl | rfl
      · have := hr.nose false htm
        simp only [Bool.false_eq_true, if_false] at this
        rw [this]; exact nose _ hw
      · exact near _ _ ((hr.pole (angAt PL t) htm).1.trans hgap)
      · exact near _ _ ((hr.pole (angAt PL t) htm).2.trans hgap)
      · have := hr.nose true htm
        simp only [if_true] at this
        rw [this]; exact nose _ hw
    have hsum : (PL t).x + (PL t).y = 1 := by
      rcases ht with rfl | rfl
      · rw [hP0]; norm_num
      · rw [hP1]; norm_num
    simp only [rimAt, Vec.add_x, Vec.add_y]
    linarith
  have bits : ∀ i : ℕ, i ≤ 1 → i = 0 ∨ i = 1 := by omega
  have sums : ∀ p : Panel, (∀ i ≤ 1, ∀ j ≤ 1, (p.P i j).x + (p.P i j).y ≤ 3 / 2) →
      ∀ e ∈ edges (gridMesh MeshArith.real false 1 1 p.P), 2 * (1 / 50) < vdist e.1 boxCorner := fun p hp e he =>
    away_of_sum (one_cell (C := fun v => v.x + v.y ≤ 3 / 2) cell_sum p.P hp e he)
  have quads : ∀ a b c d : V, a.x + a.y ≤ 3 / 2 → b.x + b.y ≤ 3 / 2 → c.x + c.y ≤ 3 / 2 → d.x + d.y ≤ 3 / 2 →
      ∀ i ≤ 1, ∀ j ≤ 1, ((quad 1 a b c d).P i j).x + ((quad 1 a b c d).P i j).y ≤ 3 / 2 := by
    intro a b c d ha hb hc hd i hi j hj
    rcases bits i hi with rfl | rfl <;> rcases bits j hj with rfl | rfl <;> simp [quad, bil, lineAt_zero, lineAt_one] <;> assumption
  have panels : ∀ p : Panel, p.Good 1 (poleGap ieeeTan (boxFin.fin_thickness / 2) (1 / 100)) →
      (∀ j ≤ 1, (p.W j).x + (p.W j).y ≤ 5 / 4) → (∀ j ≤ 1, (p.E j).x + (p.E j).y ≤ 5 / 4) →
      ∀ i ≤ 1, ∀ j ≤ 1, (p.P i j).x + (p.P i j).y ≤ 3 / 2 := by
    intro p hp hW hE i hi j hj
    rcases bits i hi with rfl | rfl
    · exact sum_of_near ((hp.west j hj).trans hgap) (hW j hj)
    · exact sum_of_near ((hp.east j hj).trans hgap) (hE j hj)
  simp only [box_move] at g3
  have hmem : ∀ e ∈ edges M.tris, e ∈ edges (gridMesh MeshArith.real false 1 1 (quad 1 (boxFin.p0 - Fin.half boxFin)
      (boxFin.p1 - Fin.half boxFin) (boxFin.p2 - Fin.half boxFin) (boxFin.p3 - Fin.half boxFin)).P) ∨ 2 * (1 / 50) < vdist e.1 boxCorner := by
    intro e he
    rw [g3] at he
    simp only [edges, List.mem_flatMap, List.mem_flatten, List.mem_map] at he
    obtain ⟨t, ⟨_, ⟨p, hp, rfl⟩, ht⟩, het⟩ := he
    have hep : e ∈ edges (gridMesh MeshArith.real false 1 1 p.P) := List.mem_flatMap.2 ⟨t, ht, het⟩
    simp only [List.cons_append, List.nil_append, List.mem_cons, List.not_mem_nil, or_false] at hp
    have s1 : ∀ (top : Bool) (i j : ℕ), i ≤ 1 → j ≤ 1 → (rimAt ieeeTan (boxFin.fin_thickness / 2) boxFin.LE_wf PL top (1 - (i : ℝ) / (1 : ℕ) * (1 - 0)) ((j : ℝ) / (1 : ℕ))).x
        + (rimAt ieeeTan (boxFin.fin_thickness / 2) boxFin.LE_wf PL top (1 - (i : ℝ) / (1 : ℕ) * (1 - 0)) ((j : ℝ) / (1 : ℕ))).y ≤ 3 / 2 := by
      intro top i j hi hj
      refine (rim top _ _ ?_ ?_).trans (by norm_num)
      · rcases bits i hi with rfl | rfl <;> norm_num
      · rcases bits j hj with rfl | rfl <;> norm_num
    have s2 : ∀ (top : Bool) (i j : ℕ), i ≤ 1 → j ≤ 1 → (rimAt ieeeTan (boxFin.fin_thickness / 2) boxFin.LE_wf PL top (1 - (i : ℝ) / (1 : ℕ) * (1 - 1)) ((j : ℝ) / (1 : ℕ))).x
        + (rimAt ieeeTan (boxFin.fin_thickness / 2) boxFin.LE_wf PL top (1 - (i : ℝ) / (1 : ℕ) * (1 - 1)) ((j : ℝ) / (1 : ℕ))).y ≤ 3 / 2 := by
      intro top i j hi hj
      refine (rim top _ _ ?_ ?_).trans (by norm_num)
      · rcases bits i hi with rfl | rfl <;> norm_num
      · rcases bits j hj with rfl | rfl <;> norm_num
    rcases hp with rfl | rfl | rfl | rfl | rfl | rfl | rfl | rfl | rfl | rfl | rfl | rfl
    · exact .inl hep
    · right
      refine away_of_z (one_cell (C := fun v => 0 ≤ v.z) cell_z _ ?_ e hep)
      intro i hi j hj
      rcases bits i hi with rfl | rfl <;> rcases bits j hj with rfl | rfl <;>
        simp [quad, bil, lineAt_zero, lineAt_one, boxFin, Fin.half] <;> norm_num
    · exact .inr (sums _ (fun i hi j hj => s1 true i j hi hj) e hep)
    · exact .inr (sums _ (fun i hi j hj => s2 true i j hi hj) e hep)
    · exact .inr (sums _ (fun i hi j hj => s1 false i j hi hj) e hep)
    · exact .inr (sums _ (fun i hi j hj => s2 false i j hi hj) e hep)
    · refine .inr (sums _ (panels _ gbo ?_ ?_) e hep)
      · intro j hj
        rcases bits j hj with rfl | rfl <;> simp [seg, lineAt_zero, lineAt_one, boxFin, Fin.half] <;> norm_num
      · intro j hj
        rcases bits j hj with rfl | rfl
        · simp only [rimBot, zero_ne_one, if_false]
          exact rim _ _ _ (.inr rfl) (by norm_num)
        · simp [rimBot, upBy, boxFin]; norm_num
    · refine .inr (sums _ (quads _ _ _ _ ?_ ?_ ?_ ?_) e hep) <;> norm_num [boxFin, Fin.half]
    · refine .inr (sums _ (quads _ _ _ _ ?_ ?_ ?_ ?_) e hep) <;> norm_num [boxFin, Fin.half]
    · refine .inr (sums _ (panels _ gte ?_ ?_) e hep)
      · intro j hj
        rcases bits j hj with rfl | rfl <;> simp [seg, lineAt_zero, lineAt_one, boxFin, Fin.half] <;> norm_num
      · intro j hj
        rcases bits j hj with rfl | rfl
        · simp only [rimTop, Nat.sub_zero, one_ne_zero, if_false]
          exact rim _ _ _ (.inl rfl) (by norm_num)
        · simp [rimTop, upBy, boxFin]; norm_num
    · refine .inr (sums _ (quads _ _ _ _ ?_ ?_ ?_ ?_) e hep) <;> norm_num [boxFin, Fin.half]
    · refine .inr (sums _ (quads _ _ _ _ ?_ ?_ ?_ ?_) e hep) <;> norm_num [boxFin, Fin.half]
  have q00 : (quad 1 (boxFin.p0 - Fin.half boxFin) (boxFin.p1 - Fin.half boxFin) (boxFin.p2 - Fin.half boxFin)
      (boxFin.p3 - Fin.half boxFin)).P 0 0 = ⟨0, 0, -0.05⟩ := by
    ext <;> simp [quad, bil, lineAt_zero, boxFin, Fin.half] <;> norm_num
  have q10 : (quad 1 (boxFin.p0 - Fin.half boxFin) (boxFin.p1 - Fin.half boxFin) (boxFin.p2 - Fin.half boxFin)
      (boxFin.p3 - Fin.half boxFin)).P 1 0 = ⟨0, 1, -0.05⟩ := by
    ext <;> simp [quad, bil, lineAt_zero, lineAt_one, boxFin, Fin.half] <;> norm_num
  have q01 : (quad 1 (boxFin.p0 - Fin.half boxFin) (boxFin.p1 - Fin.half boxFin) (boxFin.p2 - Fin.half boxFin)
      (boxFin.p3 - Fin.half boxFin)).P 0 1 = ⟨1, 0, -0.05⟩ := by
    ext <;> simp [quad, bil, lineAt_zero, lineAt_one, boxFin, Fin.half] <;> norm_num
  have q11 : (quad 1 (boxFin.p0 - Fin.half boxFin) (boxFin.p1 - Fin.half boxFin) (boxFin.p2 - Fin.half boxFin)
      (boxFin.p3 - Fin.half boxFin)).P 1 1 = boxCorner := by
    ext <;> simp [quad, bil, lineAt_one, boxFin, Fin.half, boxCorner] <;> norm_num
  have hgrid : gridMesh MeshArith.real false 1 1 (quad 1 (boxFin.p0 - Fin.half boxFin) (boxFin.p1 - Fin.half boxFin)
      (boxFin.p2 - Fin.half boxFin) (boxFin.p3 - Fin.half boxFin)).P =
      cellTris MeshArith.real false ⟨0, 0, -0.05⟩ ⟨0, 1, -0.05⟩ ⟨1, 0, -0.05⟩ boxCorner := by
    simp only [gridMesh, List.range_one, List.map_cons, List.map_nil, List.flatten_cons, List.flatten_nil, List.append_nil, zero_add,
      q00, q10, q01, q11]
  rw [hgrid] at hmem
  have hcen : cellCentre MeshArith.real ⟨0, 0, -0.05⟩ ⟨0, 1, -0.05⟩ ⟨1, 0, -0.05⟩ boxCorner = ⟨0.5, 0.5, -0.05⟩ := by
    simp only [cellCentre, MeshArith.real, boxCorner]
    ext <;> norm_num
  refine not_closedUpTo ⟨0, 1, -0.05⟩ boxCorner ?_ ?_
  · rw [g3]
    simp only [List.cons_append, List.nil_append, List.map_cons, List.flatten_cons, hgrid]
    simp [edges, cellTris, meshVertex_real, triEdges]
  · intro e he
    rcases hmem e he with h1 | h1
    · simp only [edges, cellTris, meshVertex_real, hcen, List.flatMap_cons, List.flatMap_nil, triEdges, List.cons_append, List.nil_append,
        List.mem_cons, List.not_mem_nil, or_false] at h1
      have far : ∀ u : V, 1 / 4 ≤ (u.x - 0) ^ 2 + (u.y - 1) ^ 2 → 2 * (1 / 50) < vdist u ⟨0, 1, -0.05⟩ := by
        intro u hu
        apply lt_of_pow_lt_pow_left₀ 2 (vdist_nonneg _ _)
        rw [vdist_sq]
        simp only
        nlinarith [sq_nonneg (u.z - -0.05)]
      rcases h1 with rfl | rfl | rfl | rfl | rfl | rfl | rfl | rfl | rfl | rfl | rfl | rfl <;>
        first
          | (left; apply away_of_sum; norm_num; done)
          | (right; apply far; norm_num [boxCorner]; done)
    · exact .inl h1

end HV
