import Verif.Props.SimilarWaverider

/-!
# C142: the wings of a waverider have the length and the width given
-/

namespace HV
open Spec Veh

namespace Spec

/-- Both curvature multipliers have the value that leaves the vehicle flat. -/
structure Uncurved (p : Waverider.Params) : Prop where
  along : p.x_curve_mult = p.curve_zero
  across : p.y_curve_mult = p.curve_zero

/-- How far a point of a vehicle at an angle of attack of `α` degrees in a flow along the `x` axis is ahead of the origin, measured along the vehicle. -/
noncomputable def ahead (α : ℝ) (v : V) : ℝ := -(Real.cos (α * Real.pi / 180) * v.x - Real.sin (α * Real.pi / 180) * v.y)

/-- The mesh of the wings of a waverider: it is `width` wide and the width of the leading edge wider on both sides, reaches as far ahead as the length and
the width of the leading edge, and begins at the origin, before which it does not reach by more than that width. -/
structure Waverider.WingsSized (p : Waverider.Params) (m : TriMesh ℝ) : Prop where
  span : Spans (fun v => v.z) (-(p.width / 2 + p.le_width)) (p.width / 2 + p.le_width) m
  within : ∀ v, IsVertex v m → -p.le_width ≤ ahead p.aoa v ∧ ahead p.aoa v ≤ p.length + p.le_width
  nose : ∃ v, IsVertex v m ∧ v.z = 0 ∧ ahead p.aoa v = p.length + p.le_width
  tail : ∃ v, IsVertex v m ∧ v.z = 0 ∧ ahead p.aoa v = 0

end Spec

/-- The mesh of a wing mirrored in the plane of symmetry, when the curvatures it is added with bend nothing. -/
theorem flat_wing_sized {find : (ℝ → Res ℝ) → Res ℝ} {ptan : ℝ → ℝ} {D : ℝ → ℝ → Prop} {a : Wing.Args} {w : Wing.State} {L : ℝ → V}
    {ht hb : ℝ → ℝ → ℝ} {wd : ℝ → ℝ} {ε W X Y Z : ℝ} {l : List Curvature} (hw : Wing.init find a = .ok w) (hs : SmoothWing ptan D a L ht hb wd ε)
    (hf : FlatPlanform a L wd W) (h1 : w.t_B1 ∈ Set.Icc (0 : ℝ) 1) (hc : a.close_wing = false) (r0 : a.A0.y = 0) (r1 : a.A1.y = 0) (rT : a.TT.y = 0)
    (hX : WingBox a L ht hb wd w.t_B1 X Y Z)
    (hl : ∀ k ∈ l, (k.direction = "x" ∨ k.direction = "y") ∧ ∀ x y, ∃ f m, k.fn x y = .ok f ∧ k.fn_dash x y = .ok m)
    (hflat : ∀ u, curveAll l u = u)
    (n : ℕ) (hn : 1 ≤ n) (name : Option String) (H : Heap) (id : ℕ) (hid : H id = bentWing ptan w n name (some "y") true l) :
    ∃ g c, generatePatches H id = (.ok (), g) ∧ pipeline 0 (g id) = (.ok (), c) ∧ ∃ M c' m, c.mesh = (.ok M, c') ∧
      M.tris = m ++ mapVerts (mirrorV 1) m ∧ WingSized D a ht hb (wd 0) (wd 1) W ε n m := by
  obtain ⟨ha, t2, hok⟩ := smoothWing_ok hw hs h1
  subst ha
  obtain ⟨ls, Gs, hst, hG, -⟩ := wing_glued_open hok n hn (wingBox_in hok hX) hc r0 r1 rT
  obtain ⟨g, g1, -, g2⟩ := bent_wing hn hst hG hl H id hid
  obtain ⟨c, M, c'', k1, k2, k3⟩ := g2 rfl
  obtain ⟨i1, i2, i3, i4, i5⟩ := wing_items hst
  obtain ⟨h', M', c', f1, -, f2, f3⟩ := generated_mesh (fun _ => Wing.comp ptan w n none) 0 _ rfl n hn rfl rfl rfl rfl rfl i1 (by rw [i2]; exact i3) (by rw [i2]; exact i4)
    Gs (by rw [i2]; exact hG)
  obtain ⟨h'', M'', c''', e1, e2, e3⟩ := C140_wing find ptan D _ w L ht hb wd W ε hw hs hf h1 n hn none (fun _ => Wing.comp ptan w n none) 0 rfl
  rw [f1] at e1
  obtain rfl := (Prod.mk.inj e1).2
  rw [f2] at e2
  obtain rfl := Except.ok.inj (Prod.mk.inj e2).1
  have hid' : (Gs.map fun (G : ℕ → ℕ → V) i j => curveAll l (G i j)) = Gs := by simp only [hflat]; exact List.map_id' _
  rw [if_pos rfl, hid', ← f3] at k3
  exact ⟨g, c, g1, k1, M, c'', _, k2, k3, e3⟩

namespace Waverider
variable {p : Params}

theorem flat_id (hq : Uncurved p) (u : V) : curveAll (curvatures p) u = u := by
  rw [bent_eq, hq.along, hq.across]
  simp [rolledX, rolledY]

section
variable {y2 y3 : ℝ} (hp : WaveriderOk p) (h3 : p.width / 20 ≤ y3) (h32 : y3 ≤ y2) (h2 : y2 ≤ p.width / 2)
include hp h3 h32 h2

theorem wings_sized (hq : Uncurved p) {ptan : ℝ → ℝ} (hT : FloatTan ptan) : ∃ w, Wing.init (rounded bisect01) (wingArgs bisect01 (lead p y2 y3) p) = .ok w ∧
    ∀ (n : ℕ) (_ : 1 ≤ n) (name : Option String) (H : Heap) (id : ℕ) (_ : H id = bentWing ptan w n name (some "y") true (curvatures p)),
      ∃ g c, generatePatches H id = (.ok (), g) ∧ pipeline 0 (g id) = (.ok (), c) ∧ ∃ M c' m, c.mesh = (.ok M, c') ∧
        M.tris = m ++ mapVerts (mirrorV 1) m ∧
        WingSized (fun x y => (0 ≤ x ∧ x ≤ p.length ∧ 0 ≤ y) ∧ y ≤ p.width / 2) (wingArgs bisect01 (lead p y2 y3) p) (topH (lead p y2 y3) p) (botH p)
          p.le_width p.le_width p.le_width 1e-12 n m := by
  have hs0 := wing_smooth hp h3 h32 h2 hT
  have hL := hp.length
  have hs : SmoothWing ptan (fun x y => (0 ≤ x ∧ x ≤ p.length ∧ 0 ≤ y) ∧ y ≤ p.width / 2) (wingArgs bisect01 (lead p y2 y3) p) (leadPt p y2 y3)
      (topH (lead p y2 y3) p) (botH p) (fun _ => p.le_width) 1e-12 := by
    have ho := hs0.over.and (liesOver_low (A0 := (wingArgs bisect01 (lead p y2 y3) p).A0) (A1 := (wingArgs bisect01 (lead p y2 y3) p).A1)
      (lead_mono hp h3 h32 h2) rfl rfl (by simp only [leadPt, leadY, Cubic.bez_one]; exact le_rfl) (p.width / 2)
      (by simp only [leadPt, leadY, Cubic.bez_zero]; exact le_rfl))
    exact { hs0 with top := fun x y z h => hs0.top x y z h.1, bot := fun x y z h => hs0.bot x y z h.1, over := ho }
  have hf : FlatPlanform (wingArgs bisect01 (lead p y2 y3) p) (leadPt p y2 y3) (fun _ => p.le_width) p.le_width :=
    ⟨rfl, rfl, fun _ _ => rfl, fun _ _ => le_rfl⟩
  obtain ⟨w, i1, m1, r, hr, hrx, hd⟩ := wing_break_near (wingArgs bisect01 (lead p y2 y3) p) rfl (leadPt p y2 y3) hs.line
    (by simp only [leadPt, leadX]; exact Cubic.bez_continuous _ _ _ _)
    (by simp only [leadPt, leadX, Cubic.bez_zero, wingArgs, A1]; positivity)
    (by simp only [leadPt, leadX, Cubic.bez_one, wingArgs, A1]; linarith)
  refine ⟨w, i1, fun n hn name H id hid => ?_⟩
  have hx : leadX p r = p.length / 2 := by
    have : leadX p r = 0.5 * p.length := hrx
    rw [this]; ring
  exact flat_wing_sized i1 hs hf m1 rfl rfl rfl rfl (wing_box hp h3 h32 h2 m1 hr hx hd) (bends_total (curvatures_bend hp)) (flat_id hq) n hn name H id hid

omit hp h3 h32 h2 in
theorem ahead_moved (α : ℝ) (v : V) : ahead α (turnZ (-α * Real.pi / 180) (cart3d v)) = v.x := by
  have e : -α * Real.pi / 180 = -(α * Real.pi / 180) := by ring
  have := Real.sin_sq_add_cos_sq (α * Real.pi / 180)
  simp only [ahead, turnZ, cart3d, e, Real.cos_neg, Real.sin_neg]
  linear_combination v.x * this

omit h3 h32 h2 in
/-- What the dimensions of one half say about the turned wings. -/
theorem sized_moved {n : ℕ} {m : TriMesh ℝ} (h : WingSized (fun x y => (0 ≤ x ∧ x ≤ p.length ∧ 0 ≤ y) ∧ y ≤ p.width / 2)
    (wingArgs bisect01 (lead p y2 y3) p) (topH (lead p y2 y3) p) (botH p) p.le_width p.le_width p.le_width 1e-12 n m) :
    Waverider.WingsSized p (mapVerts (fun v => turnZ (-p.aoa * Real.pi / 180) (cart3d v)) (m ++ mapVerts (mirrorV 1) m)) := by
  have hL := hp.length
  have hw := hp.width
  have he := hp.edge
  have on : ∀ q, OnWing (fun x y => (0 ≤ x ∧ x ≤ p.length ∧ 0 ≤ y) ∧ y ≤ p.width / 2) (wingArgs bisect01 (lead p y2 y3) p) (topH (lead p y2 y3) p) (botH p) q →
      0 ≤ q.x ∧ q.x ≤ p.length ∧ 0 ≤ q.y ∧ q.y ≤ p.width / 2 := by
    rintro q (⟨⟨⟨a, b, c⟩, d⟩, -⟩ | rfl | rfl)
    · exact ⟨a, b, c, d⟩
    · simp [flapEnd, wingArgs]
      constructor <;> linarith
    · simp [flapEnd, wingArgs, B0]
      constructor <;> linarith
  have hv : ∀ u, IsVertex u m → (-p.le_width ≤ u.x ∧ u.x ≤ p.length + p.le_width) ∧ -p.le_width ≤ u.y ∧ u.y ≤ p.width / 2 + p.le_width := by
    intro u hu
    have key := h.within u hu
    have k1 := key (-1) 0 0 0 1 (by norm_num) (by norm_num) (fun q hq => by have := (on q hq).1; linarith)
    have k2 := key 1 0 0 p.length 1 (by norm_num) (by norm_num) (fun q hq => by have := (on q hq).2.1; linarith)
    have k3 := key 0 (-1) 0 0 1 (by norm_num) (by norm_num) (fun q hq => by have := (on q hq).2.2.1; linarith)
    have k4 := key 0 1 0 (p.width / 2) 1 (by norm_num) (by norm_num) (fun q hq => by have := (on q hq).2.2.2; linarith)
    simp only [abs_zero] at k1 k2 k3 k4
    refine ⟨⟨?_, ?_⟩, ?_, ?_⟩ <;> linarith
  have hV : ∀ v, IsVertex v (mapVerts (fun v => turnZ (-p.aoa * Real.pi / 180) (cart3d v)) (m ++ mapVerts (mirrorV 1) m)) ↔
      ∃ u, IsVertex u m ∧ (v = turnZ (-p.aoa * Real.pi / 180) (cart3d u) ∨ v = turnZ (-p.aoa * Real.pi / 180) (cart3d ⟨u.x, -u.y, u.z⟩)) := by
    intro v
    rw [isVertex_mapVerts]
    constructor
    · rintro ⟨u, hu, rfl⟩
      rcases isVertex_two.1 hu with hu | hu
      · exact ⟨u, hu, .inl rfl⟩
      · obtain ⟨u', hu', rfl⟩ := isVertex_mapVerts.1 hu
        exact ⟨u', hu', .inr rfl⟩
    · rintro ⟨u, hu, rfl | rfl⟩
      · exact ⟨u, isVertex_two.2 (.inl hu), rfl⟩
      · exact ⟨_, isVertex_two.2 (.inr (isVertex_mapVerts.2 ⟨u, hu, rfl⟩)), rfl⟩
  refine ⟨⟨fun v h0 => ?_, ?_, ?_⟩, fun v h0 => ?_, ?_, ?_⟩
  · obtain ⟨u, hu, rfl | rfl⟩ := (hV v).1 h0
    · obtain ⟨-, a, b⟩ := hv u hu
      simp only [turnZ, cart3d]
      constructor <;> linarith
    · obtain ⟨-, a, b⟩ := hv u hu
      simp only [turnZ, cart3d]
      constructor <;> linarith
  · exact ⟨_, (hV _).2 ⟨_, h.side, .inl rfl⟩, by simp [turnZ, cart3d, wingArgs, B0]⟩
  · exact ⟨_, (hV _).2 ⟨_, h.side, .inr rfl⟩, by simp [turnZ, cart3d, wingArgs, B0]⟩
  · obtain ⟨u, hu, rfl | rfl⟩ := (hV v).1 h0 <;> rw [ahead_moved] <;> exact (hv u hu).1
  · refine ⟨_, (hV _).2 ⟨_, h.front, .inl rfl⟩, by simp [turnZ, cart3d, wingArgs, TT], ?_⟩
    rw [ahead_moved]
    simp [wingArgs, TT]
  · refine ⟨_, (hV _).2 ⟨_, (h.skins (wingArgs bisect01 (lead p y2 y3) p).A0 (by simp)).1, .inl rfl⟩, by simp [turnZ, cart3d, wingArgs], ?_⟩
    rw [ahead_moved]
    rfl

end

end Waverider

open Waverider in
/-- C142 for the waverider: the wings of a generated waverider without curvature have, whatever the other arguments and at every mesh resolution, the
length and the width passed, measured along the vehicle at its angle of attack. -/
theorem C142_waverider (ptan : ℝ → ℝ) (hT : FloatTan ptan) (h : Heap) (ids : ℕ → ℕ) (hi : Function.Injective ids) (nf nw nt : ℕ)
    (hf : 1 ≤ nf) (hw : 1 ≤ nw) (ht : 1 ≤ nt) (kwargs : Dict String ℝ) (p : Waverider.Params) (ha : WaveriderArgs kwargs p) (hp : WaveriderOk p)
    (hq : Uncurved p) :
    ∃ st, Waverider.instanceOf bisect01 ptan h ids nf nw nt kwargs = .ok st ∧ ("wings", ids 1) ∈ st.veh.named ∧
      ∀ st0 lib depth, Rescaled st st0 → ∃ st' M c', generate lib depth st0 = (.ok (), st') ∧ (st'.heap (ids 1)).mesh = (.ok M, c') ∧
        Waverider.WingsSized p M.tris := by
  obtain ⟨y2, y3, el, l3, l32, l2⟩ := edge_ok hp
  obtain ⟨w, ew, mw⟩ := wings_sized hp l3 l32 l2 hq hT
  obtain ⟨a, f, ea, ef, mf⟩ := flaps_mesh hp l3 l32 l2 hT
  obtain ⟨st, b1, b2, b3, v1, v2, v3, f0, f1, f2, f3, f4⟩ := waverider_instance ptan h ids hi nf nw nt kwargs p ha _ w a f el ew ea ef
  refine ⟨st, b1, by rw [b3]; simp [List.range_succ], fun st0 lib depth hr => ?_⟩
  have hv : st0.veh = st.veh := hr.1
  have hcs : st0.veh.components = [ids 0, ids 1, ids 2, ids 3, ids 4] := by rw [hv, b2]; rfl
  obtain ⟨n0, o0, r0⟩ : ∃ n : ℕ, 1 ≤ n ∧ st0.heap (ids 0) = { (RevolvedComponent (fuseLine p) n (some "fuselage")).addClusteringOptions (some cf) none with
        modifier := some underside, curvatures := some (curvatures p) } := by
    rcases hr.2 (ids 0) with h | ⟨m, hm, h⟩
    · exact ⟨nf, hf, by rw [h, f0]⟩
    · exact ⟨m, hm, by rw [h, f0]; rfl⟩
  have hwing : ∀ k s nm rf ap, st.heap k = bentWing ptan s nw nm rf ap (curvatures p) → ∃ n : ℕ, 1 ≤ n ∧
      st0.heap k = bentWing ptan s n nm rf ap (curvatures p) := by
    intro k s nm rf ap hk
    rcases hr.2 k with h | ⟨m, hm, h⟩
    · exact ⟨nw, hw, h.trans hk⟩
    · exact ⟨m, hm, by rw [h, hk]; rfl⟩
  obtain ⟨n1, o1, r1⟩ := hwing _ _ _ _ _ f1
  obtain ⟨n2, o2, r2⟩ := hwing _ _ _ _ _ f2
  obtain ⟨n3, o3, r3⟩ := hwing _ _ _ _ _ f3
  obtain ⟨n4, o4, r4⟩ : ∃ n : ℕ, 1 ≤ n ∧ st0.heap (ids 4) = bentFin (rounded bisect01) ptan finArgs n (some "fin") (curvatures p) := by
    rcases hr.2 (ids 4) with h | ⟨m, hm, h⟩
    · exact ⟨nt, ht, by rw [h, f4]⟩
    · exact ⟨m, hm, by rw [h, f4]; rfl⟩
  have ch : ∀ k ∈ st0.veh.components, (st0.heap k).children = [] := by
    intro k hk
    rw [hcs] at hk
    simp only [List.mem_cons, List.not_mem_nil, or_false] at hk
    rcases hk with rfl | rfl | rfl | rfl | rfl
    · rw [r0]; rfl
    · rw [r1]; rfl
    · rw [r2]; rfl
    · rw [r3]; rfl
    · rw [r4]; rfl
  have tr : RigidList st0.veh.transformations := by
    rw [hv, v2]
    intro t ht
    simp only [List.mem_append, List.mem_singleton] at ht
    rcases ht with ht | rfl
    · refine ⟨cart3d_plain t ht, ?_⟩
      simp only [CART3D, List.mem_cons, List.not_mem_nil, or_false] at ht
      rcases ht with rfl | rfl
      · exact trivial
      · exact trivial
    · exact ⟨.rotate _ (i := 2) (.inl rfl), trivial⟩
  have hnf : NearlyFlat p := ⟨by rw [hq.along]; norm_num, by rw [hq.across]; norm_num⟩
  obtain ⟨A, hI, hA, st', s1, -, s2⟩ := generate_moved lib depth st0 (by rw [hv, v1]) tr (by rw [hv, v3])
    (by
      refine ⟨by rw [hcs]; simp [hi.eq_iff], ?_, ?_⟩
      · intro k _ k' hk'
        rw [ch k' hk']; simp
      · intro k hk k' _ _
        rw [ch k hk]; simp)
    (fun k => if k = ids 0 then n0 else if k = ids 1 then n1 else if k = ids 2 then n2 else if k = ids 3 then n3 else n4)
    (fun k m => k = ids 1 → Waverider.WingsSized p (mapVerts (fun v => turnZ (-p.aoa * Real.pi / 180) (cart3d v)) m))
    (by
      intro k hk
      rw [hcs] at hk
      simp only [List.mem_cons, List.not_mem_nil, or_false] at hk
      rcases hk with rfl | rfl | rfl | rfl | rfl
      · obtain ⟨g, c, g1, g2, M, c', g3, g4⟩ := fuse_mesh hp n0 o0 _ st0.heap (ids 0) r0
        refine ⟨by simpa using o0, ?_, g, c, g1, g2, M, c', g3, by simp [hi.eq_iff]⟩
        rw [r0]
        refine ⟨by simp; rfl, rfl, rfl, by simp [RevolvedComponent, Comp.addClusteringOptions], rfl⟩
      · obtain ⟨g, c, g1, g2, M, c', m, g3, g4, g5⟩ := mw n1 o1 _ st0.heap (ids 1) r1
        refine ⟨by simpa [hi.eq_iff] using o1, ?_, g, c, g1, g2, M, c', g3, fun _ => by rw [g4]; exact sized_moved hp g5⟩
        rw [r1]
        refine ⟨by simp [hi.eq_iff]; rfl, rfl, rfl, by simp [bentWing, Wing.comp], rfl⟩
      · obtain ⟨m, -, hm⟩ := mf n2 o2
        obtain ⟨g, c, g1, g2, M, c', g3, g4⟩ := (hm _ st0.heap (ids 2)).1 r2
        refine ⟨by simpa [hi.eq_iff] using o2, ?_, g, c, g1, g2, M, c', g3, by simp [hi.eq_iff]⟩
        rw [r2]
        refine ⟨by simp [hi.eq_iff]; rfl, rfl, rfl, by simp [bentWing, Wing.comp], rfl⟩
      · obtain ⟨m, -, hm⟩ := mf n3 o3
        obtain ⟨g, c, g1, g2, M, c', g3, g4⟩ := (hm _ st0.heap (ids 3)).2 r3
        refine ⟨by simpa [hi.eq_iff] using o3, ?_, g, c, g1, g2, M, c', g3, by simp [hi.eq_iff]⟩
        rw [r3]
        refine ⟨by simp [hi.eq_iff]; rfl, rfl, rfl, by simp [bentWing, Wing.comp], rfl⟩
      · obtain ⟨g, c, g1, g2, M, c', g3, g4⟩ := Waverider.fin_reach hnf hT n4 o4 _ st0.heap (ids 4) r4
        refine ⟨by simpa [hi.eq_iff] using o4, ?_, g, c, g1, g2, M, c', g3, by simp [hi.eq_iff]⟩
        rw [r4]
        refine ⟨by simp [hi.eq_iff]; rfl, rfl, rfl, by simp [bentFin, Fin.comp], rfl⟩)
  rw [hcs] at s2
  rw [hv, v2] at hI
  have hadj : adjustAoa p p.aoa = p.aoa := by
    simp [adjustAoa, curvXd, hq.along, rad2deg]
  have hA' : A = fun v => turnZ (-p.aoa * Real.pi / 180) (cart3d v) := by
    funext v
    rw [moved_all (inTurn_moved hI _), hadj]
  obtain ⟨m, q, M, d, e1, e2⟩ := s2 (ids 1) (by simp)
  refine ⟨st', M, d, s1, e1, ?_⟩
  rw [e2, hA']
  exact q rfl

/-- A waverider without curvature and with an angle of attack of 5 degrees. -/
noncomputable def waveriderFlat : Dict String ℝ := [("x_curve_mult", 5), ("y_curve_mult", 5), ("aoa", 5), ("width", 0.4)]

theorem waveriderFlat_ok : ∃ p, WaveriderArgs waveriderFlat p ∧ WaveriderOk p ∧ Uncurved p ∧ p.width = 0.4 ∧ p.aoa = 5 := by
  refine ⟨{ waveriderDefault with x_curve_mult := 5, y_curve_mult := 5, aoa := 5, width := 0.4 }, ?_, ?_, ?_, rfl, rfl⟩
  · constructor <;> first | decide | (refine .inr ⟨?_, rfl⟩; simp [waveriderFlat]; done) | (refine .inl ?_; simp [waveriderFlat]; done)
  · constructor <;> simp only [waveriderDefault] <;>
      first | (unfold waveriderFactor parabolaFactor bendX bendY waveriderX waveriderY waveriderZ; norm_num [abs_of_pos, max_def]; done) | norm_num
  · constructor <;> rfl

example (h : Heap) : ∃ st, Waverider.instanceOf bisect01 ieeeTan h id 30 30 4 waveriderFlat = .ok st ∧
    ∃ p : Waverider.Params, p.width = 0.4 ∧ ∀ lib depth, ∃ st' M c', generate lib depth st = (.ok (), st') ∧ (st'.heap 1).mesh = (.ok M, c') ∧
      Waverider.WingsSized p M.tris := by
  obtain ⟨p, a, b, c, d, -⟩ := waveriderFlat_ok
  obtain ⟨st, h1, -, h2⟩ := C142_waverider ieeeTan ieeeTan_float h id Function.injective_id 30 30 4 (by norm_num) (by norm_num) (by norm_num) waveriderFlat p a b c
  exact ⟨st, h1, p, d, fun lib depth => h2 st lib depth ⟨rfl, fun k => .inl rfl⟩⟩

end HV
