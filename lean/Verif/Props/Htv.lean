import Verif.Props.Flaps

/-!
# Properties C107, C108, C109 for the hypersonic technology vehicle
-/

namespace HV
open Spec Veh

namespace Spec

/-- Sensible dimensions. -/
structure HTVOk (p : HTV.Params) : Prop where
  length : 0 < p.L
  short : p.L ≤ 100
  width : 0 < p.body_width
  height : 0 < p.h
  low : p.h ≤ 1
  edge : 0 < p.t_LE
  thin : p.t_LE ≤ 1
  nominalL : p.L_nom ≠ 0
  nominalW : p.body_width_nom ≠ 0

/-- The keyword arguments of the generator mean these dimensions. -/
structure HTVArgs (kwargs : Dict String ℝ) (p : HTV.Params) : Prop where
  keys : kwargs.keys.Nodup
  L : given kwargs "L" 1 p.L
  body_width : given kwargs "body_width" 0.5 p.body_width
  h : given kwargs "h" 0.1 p.h
  t_LE : given kwargs "t_LE" 0.01 p.t_LE
  flap_angle : given kwargs "flap_angle" 15 p.flap_angle
  L_nom : given kwargs "L_nom" 1 p.L_nom
  body_width_nom : given kwargs "body_width_nom" 0.8 p.body_width_nom

end Spec

namespace HTV
variable {p : Params}

/-- Half the local width the bisection finds. -/
noncomputable def lw (P : PathObj) (x : ℝ) : ℝ := ((localWidth bisect01 P x).toOption).getD 0

theorem lw_eq (P : PathObj) (hP : ∀ t, P.call t = .ok (fnOf P t)) (x : ℝ) (h0 : (fnOf P 0).x ≤ x) (h1 : x ≤ (fnOf P 1).x) :
    localWidth bisect01 P x = .ok (lw P x) := by
  obtain ⟨t, -, he⟩ := scipyBisect_total (fun t => do let p ← P.call t; return p.x - x) (fun t => (fnOf P t).x - x)
    (fun t _ => by simp only [hP, ok_bind]; rfl)
    (mul_nonpos_of_nonpos_of_nonneg (by linarith) (by linarith))
  have : localWidth bisect01 P x = .ok (2 * (fnOf P t).y) := by
    unfold localWidth bisect01
    rw [he, ok_bind, hP, ok_bind]
    rfl
  rw [lw, this]
  rfl

/-- The height of the top as a fraction. -/
noncomputable def topFrac (P : PathObj) (p : Params) (x y : ℝ) : ℝ :=
  if y < 0.5 * (lw P x - 2 * p.t_LE) then
    0.5 * (p.h - p.t_LE) * Real.cos (2 * Real.pi * y / (lw P x - 2 * p.t_LE)) + 0.5 * (p.h + p.t_LE)
  else p.t_LE

theorem topFrac_pos (hp : HTVOk p) (P : PathObj) (x y : ℝ) : 0 < topFrac P p x y ∧ topFrac P p x y ≤ 1 := by
  have h1 := hp.height
  have h2 := hp.low
  have h3 := hp.edge
  have h4 := hp.thin
  unfold topFrac
  split_ifs
  · have c1 := Real.cos_le_one (2 * Real.pi * y / (lw P x - 2 * p.t_LE))
    have c2 := Real.neg_one_le_cos (2 * Real.pi * y / (lw P x - 2 * p.t_LE))
    set c := Real.cos (2 * Real.pi * y / (lw P x - 2 * p.t_LE))
    rcases le_total p.t_LE p.h with h | h
    · constructor <;> nlinarith
    · constructor <;> nlinarith
  · exact ⟨h3, h4⟩

/-- Height of the top. -/
noncomputable def topH (P : PathObj) (p : Params) (x y : ℝ) : ℝ := -(topFrac P p x y * ((p.L - x) + 0.05))

theorem bodyTop_eq (P : PathObj) (hP : ∀ t, P.call t = .ok (fnOf P t)) (x y z : ℝ) (h0 : (fnOf P 0).x ≤ x) (h1 : x ≤ (fnOf P 1).x)
    (hy : 0 ≤ y) : bodyTop bisect01 P p x y z = .ok ⟨0, 0, topH P p x y⟩ := by
  unfold bodyTop topH topFrac
  rw [lw_eq P hP x h0 h1, ok_bind]
  split_ifs with h
  · rw [pdiv_ok _ _ (by linarith), ok_bind]
    rfl
  · rfl

theorem body_smooth (hp : HTVOk p) {ptan : ℝ → ℝ} (hT : FloatTan ptan) : ∃ a L ht, bodyArgs bisect01 p = .ok a ∧
    SmoothWing ptan (fun x y => 0 ≤ x ∧ x ≤ p.L ∧ 0 ≤ y) a L ht (fun _ _ => 0.2 * p.t_LE) (fun _ => 0.01) 1e-12 ∧
    a.t_B1 = none ∧ a.close_wing = false ∧ a.A0.y = 0 ∧ a.A1.y = 0 ∧ a.TT.y = 0 ∧ (L 0).x ≤ a.A1.x ∧ a.A1.x ≤ (L 1).x := by
  have hl := hp.length
  have hw := hp.width
  set B0 : V := ⟨0, p.body_width / 2, 0⟩ with hB0
  set B1 : V := ⟨0.15 * p.L, p.body_width / 2, 0⟩ with hB1
  set TT : V := ⟨p.L, 0, 0⟩ with hTT
  obtain ⟨P, h1, h2, h3, h4, h5, h6, h7⟩ := lines_edge [(B0, B1), (B1, TT)] (by simp)
    (by
      intro e he
      simp only [List.mem_cons, List.not_mem_nil, or_false] at he
      rcases he with rfl | rfl <;> intro hc
      · have := congrArg Vec.x hc; simp only [hB0, hB1] at this; linarith
      · have := congrArg Vec.x hc; simp only [hB1, hTT] at this; linarith)
    (by
      intro i hi
      simp only [List.length_cons, List.length_nil] at hi
      obtain rfl : i = 0 := by omega
      rfl)
  have hm : MonoEdge (fnOf P) := by
    refine ⟨h6 ?_, h7 ?_⟩ <;>
    · intro e he
      simp only [List.mem_cons, List.not_mem_nil, or_false] at he
      rcases he with rfl | rfl <;> simp only [hB0, hB1, hTT] <;> linarith
  simp only [List.head_cons, List.getLast_cons, List.getLast_singleton, ne_eq, reduceCtorEq, not_false_eq_true, List.cons_ne_nil] at h3 h4
  have hin : ∀ t ∈ Set.Icc (0 : ℝ) 1, 0 ≤ (fnOf P t).x ∧ (fnOf P t).x ≤ p.L := by
    intro t ht
    have k0 := hm.fwd 0 ⟨le_rfl, zero_le_one⟩ t ht ht.1
    have k1 := hm.fwd t ht 1 ⟨zero_le_one, le_rfl⟩ ht.2
    rw [h3] at k0
    rw [h4] at k1
    exact ⟨k0, k1⟩
  have hth : ∀ t ∈ Set.Icc (0 : ℝ) 1, 0 < 0.2 * p.t_LE - topH P p (fnOf P t).x (fnOf P t).y ∧
      0.2 * p.t_LE - topH P p (fnOf P t).x (fnOf P t).y ≤ 200 := by
    intro t ht
    obtain ⟨a1, a2⟩ := hin t ht
    obtain ⟨f1, f2⟩ := topFrac_pos hp P (fnOf P t).x (fnOf P t).y
    have e1 := hp.edge
    have e2 := hp.thin
    have e3 := hp.short
    unfold topH
    constructor
    · have : 0 < topFrac P p (fnOf P t).x (fnOf P t).y * ((p.L - (fnOf P t).x) + 0.05) := mul_pos f1 (by linarith)
      linarith
    · have : topFrac P p (fnOf P t).x (fnOf P t).y * ((p.L - (fnOf P t).x) + 0.05) ≤ 1 * ((p.L - (fnOf P t).x) + 0.05) :=
        mul_le_mul_of_nonneg_right f2 (by linarith)
      linarith
  refine ⟨{ A1 := ⟨0.15 * p.L, 0, 0⟩, TT := TT, B0 := B0, line := P, top_tf := bodyTop bisect01 P p, bot_tf := bodyBot p,
            LE_wf := some fun _ => .ok 0.01 }, fnOf P, topH P p,
    by unfold bodyArgs; simp only [List.map_cons, List.map_nil] at h1; simp only; rw [h1, ok_bind]; rfl,
    ⟨hT.like, lower_bezier, X43.up_custom, rfl, .inl rfl, h2, h3, h4,
     fun x y z hD => bodyTop_eq P h2 x y z (by rw [h3]; exact hD.1) (by rw [h4]; exact hD.2.1) hD.2.2, fun x y z _ => rfl,
     ?_, .inl rfl, fun t _ => rfl, ?_, ?_, ?_, ?_⟩, rfl, rfl, rfl, rfl, rfl, ?_, ?_⟩
  · exact liesOver_box hm 0 p.L (by rw [h3]) (by rw [h4]) ⟨le_rfl, hl.le⟩ ⟨by simp only; linarith, by simp only; linarith⟩ le_rfl le_rfl
      (by rw [h4])
  · intro t ht; linarith [(hth t ht).1]
  · intro t ht; norm_num
  · intro t ht
    have := hth t ht
    exact hT.fits _ _ (by rw [abs_of_pos] <;> linarith) (by norm_num)
  · intro t ht
    have := hth t ht
    exact hT.gap _ _ (by linarith) (by linarith) (by norm_num)
  · rw [h3]; simp only [hB0]; linarith
  · rw [h4]; simp only [hTT]; linarith

/-- Where the inner end of the flaps is. -/
noncomputable def root (p : Params) : ℝ := 0.5 * (0.01 * (p.body_width / p.body_width_nom))

theorem flap_smooth (hp : HTVOk p) {ptan : ℝ → ℝ} (hT : FloatTan ptan) : ∃ a L wd, flapArgs p = .ok a ∧
    SmoothWing ptan (fun _ _ => True) a L (fun _ _ => -1.1 * p.t_LE) (fun _ _ => 0.1 * p.t_LE) wd 1e-12 ∧
    a.t_B1 = none ∧ a.close_wing = false ∧ a.A0 = ⟨0.2 * (p.L / p.L_nom), root p, 0⟩ ∧ a.A1.y = root p ∧ a.TT.y = root p ∧
    a.B0 = ⟨0.2 * (p.L / p.L_nom), 0.4 * p.body_width + root p, 0⟩ ∧ (L 0).x ≤ a.A1.x ∧ a.A1.x ≤ (L 1).x ∧
    a.flap_length = 0.2 * (p.L / p.L_nom) ∧ a.flap_angle = deg2rad p.flap_angle := by
  have hl := hp.length
  set fl := 0.2 * (p.L / p.L_nom) with hfl
  set fg := 0.01 * (p.body_width / p.body_width_nom) with hfg
  set B0 : V := ⟨fl, 0.8 * p.body_width / 2 + 0.5 * fg, 0⟩ with hB0
  set B1 : V := ⟨fl + 0.05 * p.L, 0.5 * (0.8 * p.body_width / 2 + 0.5 * fg), 0⟩ with hB1
  set TT : V := ⟨fl + 0.1 * p.L, 0 + 0.5 * fg, 0⟩ with hTT
  obtain ⟨P, h1, h2, h3, h4, h5, h6, h7⟩ := lines_edge [(B0, B1), (B1, TT)] (by simp)
    (by
      intro e he
      simp only [List.mem_cons, List.not_mem_nil, or_false] at he
      rcases he with rfl | rfl <;> intro hc
      · have := congrArg Vec.x hc; simp only [hB0, hB1] at this; linarith
      · have := congrArg Vec.x hc; simp only [hB1, hTT] at this; linarith)
    (by
      intro i hi
      simp only [List.length_cons, List.length_nil] at hi
      obtain rfl : i = 0 := by omega
      rfl)
  simp only [List.head_cons, List.getLast_cons, List.getLast_singleton, ne_eq, reduceCtorEq, not_false_eq_true, List.cons_ne_nil] at h3 h4
  have e1 := hp.edge
  have e2 := hp.thin
  have hw : ∀ t ∈ Set.Icc (0 : ℝ) 1, ∃ w, (1 / 100 : ℝ) ≤ w ∧ leadingEdgeWidth t = .ok w := defaultWidth_mem
  have hwd : ∀ t, leadingEdgeWidth t = .ok (((leadingEdgeWidth t).toOption).getD 0) := by
    intro t; rw [leadingEdgeWidth_eq]; rfl
  have hwd' : ∀ t ∈ Set.Icc (0 : ℝ) 1, 1 / 100 ≤ ((leadingEdgeWidth t).toOption).getD 0 := by
    intro t ht
    obtain ⟨w, h, e⟩ := hw t ht
    rw [e]; exact h
  refine ⟨{ A0 := ⟨fl, 0 + 0.5 * fg, 0⟩, A1 := ⟨fl + 0.05 * p.L, 0 + 0.5 * fg, 0⟩, TT := TT, B0 := B0, line := P,
            top_tf := fun _ _ _ => .ok ⟨0, 0, -p.t_LE - 0.1 * p.t_LE⟩, bot_tf := fun _ _ _ => .ok ⟨0, 0, 0.2 * p.t_LE - 0.1 * p.t_LE⟩,
            flap_length := fl, flap_angle := deg2rad p.flap_angle }, fnOf P, fun t => ((leadingEdgeWidth t).toOption).getD 0,
    by
      unfold flapArgs
      rw [pdiv_ok _ _ hp.nominalL, ok_bind, pdiv_ok _ _ hp.nominalW, ok_bind]
      simp only [List.map_cons, List.map_nil] at h1
      simp only
      rw [h1, ok_bind]; rfl,
    ⟨hT.like, lower_bezier, X43.up_custom, rfl, .inl rfl, h2, h3, h4,
     fun x y z hD => ?_, fun x y z _ => ?_, liesOver_univ _ _ _, .inr rfl, fun t _ => hwd t, ?_, ?_, ?_, ?_⟩, rfl, rfl, ?_, ?_, ?_, ?_, ?_, ?_, rfl,
      rfl⟩
  · simp only [Except.ok.injEq]; ext <;> simp; ring
  · simp only [Except.ok.injEq]; ext <;> simp; ring
  · intro t ht; linarith
  · intro t ht; linarith [hwd' t ht]
  · intro t ht
    exact hT.fits _ _ (by rw [abs_of_pos] <;> linarith) (by linarith [hwd' t ht])
  · intro t ht
    exact hT.gap _ _ (by linarith) (by linarith) (by linarith [hwd' t ht])
  · ext <;> simp only [root, hfg, zero_add]
  · simp only [root, hfg, zero_add]
  · simp only [root, hTT, hfg, zero_add]
  · simp only [hB0, root, hfg]; ext <;> simp only; ring
  · rw [h3]; simp only [hB0]; linarith
  · rw [h4]; simp only [hTT]; linarith

end HTV

namespace Spec

/-- A surface open at most where it meets the plane `y = y0`: after moving vertices by at most `ε`, every edge outside that plane has as many
partners in one direction as in the other. -/
def OpenOnlyAt (y0 ε : ℝ) (m : TriMesh ℝ) : Prop :=
  ∃ m', VertsWithin ε m m' ∧ ∀ u v, edgeCount (edges m') u v ≠ edgeCount (edges m') v u → u.y = y0 ∧ v.y = y0

end Spec

theorem htv_params (kwargs : Dict String ℝ) (p : HTV.Params) (ha : HTVArgs kwargs p) :
    HTV.Params.of (Generator.init HTV.defaults kwargs) = .ok p := by
  unfold HTV.Params.of
  have k := fun (s : String) (d v : ℝ) (h : given kwargs s d v) (e : HTV.defaults.get? s = some d) =>
    given_get' (dflts := HTV.defaults) ha.keys h e
  rw [k _ _ _ ha.L rfl, ok_bind, k _ _ _ ha.body_width rfl, ok_bind, k _ _ _ ha.L_nom rfl, ok_bind, k _ _ _ ha.body_width_nom rfl, ok_bind,
    k _ _ _ ha.t_LE rfl, ok_bind, k _ _ _ ha.flap_angle rfl, ok_bind, k _ _ _ ha.h rfl, ok_bind]
  rfl

/-- The records of the vehicle. -/
def htvVeh (ids : ℕ → ℕ) : Veh :=
  { name := "Hypersonic Technology Vehicle", verbosity := 1, components := [ids 0, ids 1, ids 2], counts := [("wing", 3)],
    enumerated := [("wing_1", ids 0), ("wing_2", ids 1), ("wing_3", ids 2)],
    named := [("wing_1", ids 0), ("wing_2", ids 1), ("wing_3", ids 2)] }

theorem htv_instance (ptan : ℝ → ℝ) (h : Heap) (ids : ℕ → ℕ) (hi : Function.Injective ids) (kwargs : Dict String ℝ) (p : HTV.Params)
    (ha : HTVArgs kwargs p) (a1 a2 : Wing.Args) (w1 w2 : Wing.State) (e1 : HTV.bodyArgs bisect01 p = .ok a1) (e2 : HTV.flapArgs p = .ok a2)
    (i1 : Wing.init (rounded bisect01) a1 = .ok w1) (i2 : Wing.init (rounded bisect01) a2 = .ok w2) :
    ∃ st n0 n1 n2, HTV.instanceOf bisect01 ptan h ids kwargs = .ok st ∧ st.veh = htvVeh ids ∧
      st.heap (ids 0) = wingOf ptan w1 5 n0 (some "y") ∧ st.heap (ids 1) = wingOf ptan w2 5 n1 none ∧
      st.heap (ids 2) = wingOf ptan w2 5 n2 (some "y") := by
  unfold HTV.instanceOf HTV.createInstance
  rw [htv_params kwargs p ha, ok_bind, e1, ok_bind, i1, ok_bind, e2, ok_bind, i2, ok_bind]
  simp only
  set H : Heap := ((h.upd (ids 0) (Wing.comp ptan w1 5)).upd (ids 1) (Wing.comp ptan w2 5)).upd (ids 2) (Wing.comp ptan w2 5) with hH
  have n : ∀ i j : ℕ, i ≠ j → ids i ≠ ids j := fun i j h => hi.ne h
  have f2 : H (ids 2) = Wing.comp ptan w2 5 := by rw [hH, upd_self]
  have f1 : H (ids 1) = Wing.comp ptan w2 5 := by rw [hH, upd_ne _ _ _ _ (n 1 2 (by decide)), upd_self]
  have f0 : H (ids 0) = Wing.comp ptan w1 5 := by
    rw [hH, upd_ne _ _ _ _ (n 0 2 (by decide)), upd_ne _ _ _ _ (n 0 1 (by decide)), upd_self]
  obtain ⟨st, b1, b2, b3, -⟩ := addAll_spec ⟨H, ({} : Veh).configure (some "Hypersonic Technology Vehicle") 1⟩ (HTV.parts ids)
    (by simp [HTV.parts, hi.eq_iff])
    (by
      intro e he
      simp only [HTV.parts, List.mem_cons, List.not_mem_nil, or_false] at he
      rcases he with rfl | rfl | rfl
      · simp only [f0, Wing.comp, Veh.allowable]; decide
      · simp only [f1, Wing.comp, Veh.allowable]; decide
      · simp only [f2, Wing.comp, Veh.allowable]; decide)
  refine ⟨st, (st.heap (ids 0)).name, (st.heap (ids 1)).name, (st.heap (ids 2)).name, b1, ?_, ?_, ?_, ?_⟩
  rotate_left
  · rw [b3 (ids 0, { reflection_axis := some "y" }) (by simp [HTV.parts])]
    simp only [f0]; rfl
  · rw [b3 (ids 1, {}) (by simp [HTV.parts])]
    simp only [f1]; rfl
  · rw [b3 (ids 2, { reflection_axis := some "y" }) (by simp [HTV.parts])]
    simp only [f2]; rfl
  · rw [b2]
    simp only [HTV.parts, List.foldl_cons, List.foldl_nil, f0, f1, f2]
    simp only [Veh.record, Veh.nextCount, Veh.nameFor, Wing.comp, Veh.configure, Veh.truthy]
    have r1 : Nat.repr 1 = "1" := by decide
    have r2 : Nat.repr 2 = "2" := by decide
    have r3 : Nat.repr 3 = "3" := by decide
    have s1 : "wing_" ++ "1" = "wing_1" := by decide
    have s2 : "wing_" ++ "2" = "wing_2" := by decide
    have s3 : "wing_" ++ "3" = "wing_3" := by decide
    simp [Dict.get?, Dict.set, htvVeh, r1, r2, r3, s1, s2, s3]

/-- What is known of the components of a generated HTV; `Mw n` is the mesh of one flap at resolution `n`. -/
structure HTV.Meshes (Mw : ℕ → TriMesh ℝ) (ids : ℕ → ℕ) (st0 st' : VState) : Prop where
  body : ∃ M c', (st'.heap (ids 0)).mesh = (.ok M, c') ∧ GapFree 1e-12 M.tris
  flap1 : ∃ n M c', 1 ≤ n ∧ (st0.heap (ids 1)).stl_resolution = .int n ∧ (st'.heap (ids 1)).mesh = (.ok M, c') ∧ M.tris = Mw n
  flap2 : ∃ n M c', 1 ≤ n ∧ (st0.heap (ids 2)).stl_resolution = .int n ∧ (st'.heap (ids 2)).mesh = (.ok M, c') ∧
    M.tris = Mw n ++ mapVerts (mirrorV 1) (Mw n)

theorem htv_meshes (ptan : ℝ → ℝ) (hT : FloatTan ptan) (h : Heap) (ids : ℕ → ℕ) (hi : Function.Injective ids) (kwargs : Dict String ℝ)
    (p : HTV.Params) (ha : HTVArgs kwargs p) (hp : HTVOk p) :
    ∃ st Mw, HTV.instanceOf bisect01 ptan h ids kwargs = .ok st ∧ st.veh = htvVeh ids ∧
      (st.heap (ids 1)).stl_resolution = .int 5 ∧ (st.heap (ids 2)).stl_resolution = .int 5 ∧
      (∀ n, 1 ≤ n → OpenOnlyAt (HTV.root p) 1e-12 (Mw n) ∧ (Mw n).length = 13 * (4 * n ^ 2)) ∧
      ∀ st0 lib depth, Rescaled st st0 → ∃ st', generate lib depth st0 = (.ok (), st') ∧ st'.veh = { htvVeh ids with generated := true } ∧
        HTV.Meshes Mw ids st0 st' := by
  obtain ⟨a1, L1, ht1, e1, s1, t1, c1, y10, y11, y1T, k1, k1'⟩ := HTV.body_smooth hp hT
  obtain ⟨a2, L2, wd2, e2, s2, t2, c2, y20, y21, y2T, -, k2, k2', -, -⟩ := HTV.flap_smooth hp hT
  obtain ⟨w1, i1, m1⟩ := wing_break a1 t1 L1 s1.line k1 k1'
  obtain ⟨w2, i2, m2⟩ := wing_break a2 t2 L2 s2.line k2 k2'
  obtain ⟨st, x0, x1, x2, b1, b2, f0, f1, f2⟩ := htv_instance ptan h ids hi kwargs p ha a1 a2 w1 w2 e1 e2 i1 i2
  have base : ∀ n : ℕ, ∃ h' M c', 1 ≤ n → generatePatches (fun _ => Wing.comp ptan w2 n none) 0 = (.ok (), h') ∧ (h' 0).mesh = (.ok M, c') ∧
      OpenOnlyAt (HTV.root p) 1e-12 M.tris := by
    intro n
    by_cases hn : 1 ≤ n
    · obtain ⟨h', M, c', m', g1, g2, g3, g4⟩ := C106_root_partial (rounded bisect01) ptan _ a2 w2 L2 _ _ _ _ (HTV.root p) i2 s2 m2 c2
        (by rw [y20]) y21 y2T n hn none (fun _ => Wing.comp ptan w2 n none) 0 rfl
      exact ⟨h', M, c', fun _ => ⟨g1, g2, m', g3, g4⟩⟩
    · exact ⟨h, ⟨[], []⟩, Wing.comp ptan w2, fun h => absurd h hn⟩
  choose hw Mw cw hbase using base
  refine ⟨st, fun n => (Mw n).tris, b1, b2, by rw [f1]; rfl, by rw [f2]; rfl, fun n hn => ⟨(hbase n hn).2.2, ?_⟩, ?_⟩
  · obtain ⟨z1, z2, -⟩ := hbase n hn
    have hnm := Wing.names (h := fun _ => Wing.comp ptan w2 n none) (id := 0) rfl z1
    obtain ⟨hw2, hLE, -⟩ := Wing.init_ok i2
    have hlen : ((hw n) 0).patches.length = 13 := by
      rw [← List.length_map (f := Prod.fst), hnm]
      unfold Wing.stageNames
      rw [hw2, c2, hLE, if_neg s2.le]
      rfl
    obtain ⟨P, R, S, hopt⟩ := generatePatches_opts (fun _ => Wing.comp ptan w2 n none) 0 (by simp [Comp.children, Wing.comp])
    rw [z1] at hopt
    simp only at hopt
    have hC := C52_mesh ((hw n) 0) n hn (by rw [hopt]; rfl) (by rw [hopt]; rfl) (by rw [hopt]; rfl) (by rw [hnm]; exact Wing.stageNames_nodup w2)
      (by intro h0; rw [h0] at hlen; simp at hlen)
    obtain ⟨M', c', k1, k2, k3⟩ := hC.1 _ (hC.2 _ _ z2)
    rw [z2] at k1
    rw [← hlen, ← k3, k2]
  intro st0 lib depth hr
  obtain ⟨n0, q0, r0⟩ := hr.wing (by norm_num) f0
  obtain ⟨n1, q1, r1⟩ := hr.wing (by norm_num) f1
  obtain ⟨n2, q2, r2⟩ := hr.wing (by norm_num) f2
  have hv : st0.veh = htvVeh ids := hr.1.trans b2
  have hcs : st0.veh.components = [ids 0, ids 1, ids 2] := by rw [hv]; rfl
  obtain ⟨g0, d0, g01, g02, M0, c0', g03, g04⟩ := half_body i1 s1 m1 c1 y10 y11 y1T n0 q0 st0.heap (ids 0) _ r0
  obtain ⟨g1, d1, M1, c1', g11, g12, g13, g14⟩ := plain_wing ptan w2 n1 q1 _ _ _ (hbase n1 q1).1 (hbase n1 q1).2.1 st0.heap (ids 1) _ r1
  obtain ⟨g2, d2, M2, c2', g21, g22, g23, g24⟩ := reflected_wing ptan w2 n2 q2 _ _ _ (hbase n2 q2).1 (hbase n2 q2).2.1 st0.heap (ids 2) _ r2
  obtain ⟨st', h1, h2, h3⟩ := generate_each lib depth st0 (by rw [hv]; rfl) (by rw [hv]; rfl) (by rw [hv]; rfl)
    (by rw [hcs]; simp [hi.eq_iff])
    (by
      intro k hk
      rw [hcs] at hk
      simp only [List.mem_cons, List.not_mem_nil, or_false] at hk
      rcases hk with rfl | rfl | rfl
      · rw [r0]; rfl
      · rw [r1]; rfl
      · rw [r2]; rfl)
    (fun k c => (k = ids 0 → c = d0) ∧ (k = ids 1 → c = d1) ∧ (k = ids 2 → c = d2))
    (by
      intro k hk
      rw [hcs] at hk
      simp only [List.mem_cons, List.not_mem_nil, or_false] at hk
      rcases hk with rfl | rfl | rfl
      · exact ⟨g0, d0, g01, g02, by simp [hi.eq_iff]⟩
      · exact ⟨g1, d1, g11, g12, by simp [hi.eq_iff]⟩
      · exact ⟨g2, d2, g21, g22, by simp [hi.eq_iff]⟩)
  rw [hcs] at h3
  refine ⟨st', h1, by rw [h2, hv], ?_⟩
  constructor
  · rw [(h3 (ids 0) (by simp)).1 rfl]; exact ⟨M0, c0', g03, g04⟩
  · rw [(h3 (ids 1) (by simp)).2.1 rfl]; exact ⟨n1, M1, c1', q1, by rw [r1]; rfl, g13, g14⟩
  · rw [(h3 (ids 2) (by simp)).2.2 rfl]; exact ⟨n2, M2, c2', q2, by rw [r2]; rfl, g23, g24⟩

/-- C109 for the HTV: for every body of positive length (up to a hundred metres), width, height and edge thickness (up to one) the generator
returns a vehicle of three parts; at every mesh resolution it generates, the body has a mesh without gaps, and each flap is open only
at its inner end, in the plane half a flap gap from the plane of symmetry. -/
theorem C109_htv (ptan : ℝ → ℝ) (hT : FloatTan ptan) (h : Heap) (ids : ℕ → ℕ) (hi : Function.Injective ids) (kwargs : Dict String ℝ)
    (p : HTV.Params) (ha : HTVArgs kwargs p) (hp : HTVOk p) :
    ∃ st, HTV.instanceOf bisect01 ptan h ids kwargs = .ok st ∧ st.veh.components = [ids 0, ids 1, ids 2] ∧
      st.veh.named = [("wing_1", ids 0), ("wing_2", ids 1), ("wing_3", ids 2)] ∧
      ∀ st0 lib depth, Rescaled st st0 → ∃ st', generate lib depth st0 = (.ok (), st') ∧
        (∃ M c', (st'.heap (ids 0)).mesh = (.ok M, c') ∧ GapFree 1e-12 M.tris) ∧
        (∃ M c', (st'.heap (ids 1)).mesh = (.ok M, c') ∧ OpenOnlyAt (0.005 * (p.body_width / p.body_width_nom)) 1e-12 M.tris) ∧
        (∃ M c' F, (st'.heap (ids 2)).mesh = (.ok M, c') ∧ OpenOnlyAt (0.005 * (p.body_width / p.body_width_nom)) 1e-12 F ∧
          M.tris = F ++ mapVerts (mirrorV 1) F) := by
  obtain ⟨st, Mw, b1, b2, -, -, b3, b4⟩ := htv_meshes ptan hT h ids hi kwargs p ha hp
  refine ⟨st, b1, by rw [b2]; rfl, by rw [b2]; rfl, fun st0 lib depth hr => ?_⟩
  have e : 0.005 * (p.body_width / p.body_width_nom) = HTV.root p := by unfold HTV.root; ring
  obtain ⟨st', g1, -, g2⟩ := b4 st0 lib depth hr
  refine ⟨st', g1, g2.body, ?_, ?_⟩
  · obtain ⟨n, M, c', m0, -, m2, m3⟩ := g2.flap1
    exact ⟨M, c', m2, by rw [m3, e]; exact (b3 n m0).1⟩
  · obtain ⟨n, M, c', m0, -, m2, m3⟩ := g2.flap2
    exact ⟨M, c', Mw n, m2, by rw [e]; exact (b3 n m0).1, m3⟩

/-- The HTV without arguments. -/
noncomputable def htvDefault : HTV.Params := ⟨1, 0.5, 0.1, 0.01, 15, 1, 0.8⟩

theorem htvDefault_ok : HTVArgs [] htvDefault ∧ HTVOk htvDefault := by
  constructor
  · constructor <;> first | exact List.nodup_nil | exact .inr ⟨by simp, rfl⟩
  · constructor <;> simp only [htvDefault] <;> norm_num

example (h : Heap) (lib : Lib) (depth : ℕ) : ∃ st st', HTV.instanceOf bisect01 ieeeTan h id [] = .ok st ∧
    generate lib depth st = (.ok (), st') ∧ ∃ M c', (st'.heap 0).mesh = (.ok M, c') ∧ GapFree 1e-12 M.tris := by
  obtain ⟨st, h1, -, -, h2⟩ := C109_htv ieeeTan ieeeTan_float h id Function.injective_id [] _ htvDefault_ok.1 htvDefault_ok.2
  obtain ⟨st', g1, g2, -⟩ := h2 st lib depth ⟨rfl, fun k => .inl rfl⟩
  exact ⟨st, st', h1, g1, g2⟩

/-- C108 is violated by the HTV as well: the third component, meant to be the flap on the other side, contains the second one. -/
theorem C108_htv_violated (ptan : ℝ → ℝ) (hT : FloatTan ptan) (h : Heap) (ids : ℕ → ℕ) (hi : Function.Injective ids) (kwargs : Dict String ℝ)
    (p : HTV.Params) (ha : HTVArgs kwargs p) (hp : HTVOk p) (lib : Lib) (depth : ℕ) :
    ∃ st st' M₁ M₂ c₁ c₂, HTV.instanceOf bisect01 ptan h ids kwargs = .ok st ∧ generate lib depth st = (.ok (), st') ∧
      Dict.get st.veh.named "wing_2" = .ok (ids 1) ∧ Dict.get st.veh.named "wing_3" = .ok (ids 2) ∧
      (st'.heap (ids 1)).mesh = (.ok M₁, c₁) ∧ (st'.heap (ids 2)).mesh = (.ok M₂, c₂) ∧
      M₁.tris.length = 1300 ∧ M₂.tris = M₁.tris ++ mapVerts (mirrorV 1) M₁.tris ∧ ¬ MirroredPair M₁.tris M₂.tris := by
  obtain ⟨st, Mw, b1, b2, r1, r2, b3, b4⟩ := htv_meshes ptan hT h ids hi kwargs p ha hp
  obtain ⟨st', g1, -, g2⟩ := b4 st lib depth ⟨rfl, fun k => .inl rfl⟩
  obtain ⟨n, M₁, c₁, -, e1, m1, t1⟩ := g2.flap1
  obtain ⟨n', M₂, c₂, -, e2, m2, t2⟩ := g2.flap2
  rw [r1] at e1
  rw [r2] at e2
  cases e1
  cases e2
  have hlen : M₁.tris.length = 1300 := by rw [t1, (b3 5 (by norm_num)).2]; norm_num
  refine ⟨st, st', M₁, M₂, c₁, c₂, b1, g1, by rw [b2]; rfl, by rw [b2]; rfl, m1, m2, hlen, by rw [t1, t2], ?_⟩
  intro hP
  have := hP.length_eq
  rw [t2, ← t1] at this
  simp only [List.length_append, mapVerts, List.length_map, hlen] at this
  omega

example : ∃ kwargs p, HTVArgs kwargs p ∧ HTVOk p := ⟨_, _, htvDefault_ok⟩

/-- The flaps of the HTV meet the hypotheses of `C106_root_partial`. -/
example (ptan : ℝ → ℝ) (hT : FloatTan ptan) : ∃ a w L wd, Wing.init (rounded bisect01) a = .ok w ∧
    SmoothWing ptan (fun _ _ => True) a L (fun _ _ => -1.1 * htvDefault.t_LE) (fun _ _ => 0.1 * htvDefault.t_LE) wd 1e-12 ∧
    w.t_B1 ∈ Set.Icc (0 : ℝ) 1 ∧ a.close_wing = false ∧ a.A0.y = HTV.root htvDefault ∧ a.A1.y = HTV.root htvDefault ∧
    a.TT.y = HTV.root htvDefault ∧ HTV.root htvDefault ≠ 0 := by
  obtain ⟨a2, L2, wd2, e2, s2, t2, c2, y20, y21, y2T, -, k2, k2', -, -⟩ := HTV.flap_smooth htvDefault_ok.2 hT
  obtain ⟨w2, i2, m2⟩ := wing_break a2 t2 L2 s2.line k2 k2'
  exact ⟨a2, w2, L2, wd2, i2, s2, m2, c2, by rw [y20], y21, y2T, by simp only [HTV.root, htvDefault]; norm_num⟩

/-- The hinge line of the flaps of the HTV: the middle of the back of the flap body. -/
noncomputable def HTV.hinge (p : HTV.Params) (r : ℝ) : V :=
  lineAt ⟨0.2 * (p.L / p.L_nom), HTV.root p, -0.5 * p.t_LE⟩ ⟨0.2 * (p.L / p.L_nom), 0.4 * p.body_width + HTV.root p, -0.5 * p.t_LE⟩ r

/-- C107 for the flaps of the HTV: the trailing edge is the hinge line turned about the hinge by `flap_angle` degrees, downwards. -/
theorem C107_htv (ptan : ℝ → ℝ) (hT : FloatTan ptan) (h : Heap) (ids : ℕ → ℕ) (hi : Function.Injective ids)
    (kwargs : Dict String ℝ) (p : HTV.Params) (ha : HTVArgs kwargs p) (hp : HTVOk p) :
    ∃ st h' S, HTV.instanceOf bisect01 ptan h ids kwargs = .ok st ∧ generatePatches st.heap (ids 1) = (.ok (), h') ∧
      ("TE_top_patch", S) ∈ (h' (ids 1)).patches ∧
      ∀ r, S r 0 = .ok (deflected (HTV.hinge p r) (0.2 * (p.L / p.L_nom)) p.flap_angle ⟨0, 0, 1⟩) := by
  obtain ⟨a1, L1, ht1, e1, s1, t1, c1, y10, y11, y1T, k1, k1'⟩ := HTV.body_smooth hp hT
  obtain ⟨a2, L2, wd2, e2, s2, t2, c2, y20, y21, y2T, hB0, k2, k2', fl, fa⟩ := HTV.flap_smooth hp hT
  obtain ⟨w1, i1, m1⟩ := wing_break a1 t1 L1 s1.line k1 k1'
  obtain ⟨w2, i2, m2⟩ := wing_break a2 t2 L2 s2.line k2 k2'
  obtain ⟨st, x0, x1, x2, b1, b2, f0, f1, f2⟩ := htv_instance ptan h ids hi kwargs p ha a1 a2 w1 w2 e1 e2 i1 i2
  obtain ⟨h', M, c', m', g1, -⟩ := C106_root_partial (rounded bisect01) ptan _ a2 w2 L2 _ _ _ _ (HTV.root p) i2 s2 m2 c2
        (by rw [y20]) y21 y2T 5 (by norm_num) x1 st.heap (ids 1) f1
  obtain ⟨hw, -⟩ := Wing.init_ok i2
  have ht : ∀ r, (Wing.teTop w2).call r = .ok (liftBy (fun _ _ => -1.1 * p.t_LE) (lineAt a2.A0 a2.B0 r)) := by
    intro r
    unfold Wing.teTop
    rw [hw]
    simp only [TrailingEdgePath, offsetPathAt, Line, bind, Except.bind, s2.top _ _ _ trivial, pure, Except.pure, liftBy]
    congr 1
    ext <;> simp
  have hb : ∀ r, (Wing.teBot w2).call r = .ok (liftBy (fun _ _ => 0.1 * p.t_LE) (lineAt a2.A0 a2.B0 r)) := by
    intro r
    unfold Wing.teBot
    rw [hw]
    simp only [TrailingEdgePath, offsetPathAt, Line, bind, Except.bind, s2.bot _ _ _ trivial, pure, Except.pure, liftBy]
    congr 1
    ext <;> simp
  obtain ⟨S, j1, j2⟩ := wing_flap_edge f1 g1 _ _ (fun r => show (Wing.teMean w2).call r = .ok (HTV.hinge p r) by
    unfold Wing.teMean
    simp only [GeometricMeanPathFunction, meanPathAt, ht, hb, bind, Except.bind, pure, Except.pure, HTV.hinge, y20, hB0]
    congr 1
    ext <;> simp [liftBy, lineAt] <;> ring) (fun r => ⟨_, ht r⟩)
  refine ⟨st, h', S, b1, g1, j1, fun r => ?_⟩
  rw [j2, hw, fl, fa]
  congr 1
  rw [deflected, show p.flap_angle * Real.pi / 180 = deg2rad p.flap_angle by unfold deg2rad; ring]
  ext <;> simp [HTV.hinge, lineAt]

end HV
