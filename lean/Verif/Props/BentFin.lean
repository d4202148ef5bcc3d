import Verif.Lemmas.GluedFin
import Verif.Props.FinRect

/-!
# C114: bending a fin
-/

namespace HV
open Spec Veh

/-- Bending a component that has just generated its patches. -/
theorem curved_done (o : Comp) (n : ℕ) (hn : 1 ≤ n) (hres : o.stl_resolution = .int n) (hm : o.mesh_ = none) (hs : o.surfaces = none)
    (hcl : o.clustering = {}) (hk : (o.patches.map Prod.fst).Nodup) (hne : o.patches ≠ []) (Gs : List (ℕ → ℕ → V)) (hG : GridsOf n o.patches Gs)
    (hmo : o.modifier = none) (l : List Curvature) (hcu : o.curvatures = some l)
    (hl : ∀ k ∈ l, (k.direction = "x" ∨ k.direction = "y") ∧ ∀ x y, ∃ f m, k.fn x y = .ok f ∧ k.fn_dash x y = .ok m)
    (htr : o.transformations = []) :
    (o.reflection_axis = none → ∃ c M c'', pipeline 0 o = (.ok (), c) ∧ c.mesh = (.ok M, c'') ∧
        M.tris = ((Gs.map fun G i j => curveAll l (G i j)).map (gridMesh MeshArith.real false n n)).flatten) ∧
      (∀ (a : String) (i : Fin 3), NamesAxis a i → AxisUsed o.reflection_axis none a →
        (∀ k ∈ o.patches.map Prod.fst, k ++ "_mirrored" ∉ o.patches.map Prod.fst) →
        ∃ c M c'', pipeline 0 o = (.ok (), c) ∧ c.mesh = (.ok M, c'') ∧
          M.tris = (if o.append_reflection then ((Gs.map fun G i j => curveAll l (G i j)).map (gridMesh MeshArith.real false n n)).flatten
            else []) ++ mapVerts (mirrorV i) ((Gs.map fun G i j => curveAll l (G i j)).map (gridMesh MeshArith.real false n n)).flatten) := by
  have e1 : o.applyModifier = o := by
    unfold Comp.applyModifier
    rw [hmo]
  have ha := curve_maps o l hcu hl
  have hS : GridsOf n o.curve.patches (Gs.map fun G i j => curveAll l (G i j)) := samples_acts ha hG
  have hnm : o.curve.patches.map Prod.fst = o.patches.map Prod.fst := acts_names ha
  have q1 : o.curve.stl_resolution = .int n := (congrArg Comp.stl_resolution ha.1 :).trans hres
  have q2 : o.curve.mesh_ = none := (congrArg Comp.mesh_ ha.1 :).trans hm
  have q3 : o.curve.surfaces = none := (congrArg Comp.surfaces ha.1 :).trans hs
  have q4 : o.curve.clustering = {} := (congrArg Comp.clustering ha.1 :).trans hcl
  have q5 : o.curve.transformations = [] := (congrArg Comp.transformations ha.1 :).trans htr
  have q6 : o.curve.reflection_axis = o.reflection_axis := (congrArg Comp.reflection_axis ha.1 :)
  have q7 : o.curve.append_reflection = o.append_reflection := (congrArg Comp.append_reflection ha.1 :)
  have hne' : o.curve.patches ≠ [] := by
    intro h0
    rw [h0] at hnm
    exact hne (List.map_eq_nil_iff.1 hnm.symm)
  obtain ⟨M, c', m1, m2⟩ := samples_mesh o.curve n hn q1 q2 q3 q4 (by rw [hnm]; exact hk) hne' _ hS
  have hpipe : ∀ c : Comp, o.curve.reflect none = c → c.transformations = [] → pipeline 0 o = (.ok (), c) := by
    intro c hc ht
    unfold pipeline
    rw [e1, rotate_zero, hc]
    unfold Comp.transform
    rw [ht]; rfl
  constructor
  · intro hax
    have hr : o.curve.reflect none = o.curve := by
      unfold Comp.reflect
      rw [q6, hax]
      rfl
    exact ⟨_, M, c', hpipe _ hr q5, m1, m2⟩
  · intro a i hna hax hmir
    have hax' : AxisUsed o.curve.reflection_axis none a := by rw [q6]; exact hax
    have hnd : (o.curve.patches.map Prod.fst).Nodup := by rw [hnm]; exact hk
    by_cases happ : o.append_reflection = true
    · have happ' : o.curve.append_reflection = true := by rw [q7]; exact happ
      obtain ⟨M2, c2, k1, k2, -⟩ := C51_violated o.curve a i hna n hn q1 q2 q3 hnd (by rw [hnm]; exact hmir) hax' happ' M c' m1
      refine ⟨_, M2, c2, hpipe _ rfl ?_, k1, ?_⟩
      · rw [C50_append_partial o.curve none a hax' hnd happ' (by rw [hnm]; exact hmir)]; exact q5
      · rw [k2, m2, happ]; rfl
    · rw [Bool.not_eq_true] at happ
      have happ' : o.curve.append_reflection = false := by rw [q7]; exact happ
      obtain ⟨M2, c2, k1, k2, -⟩ := C51_replace_partial o.curve a i hna n hn q1 q2 q3 hnd hax' happ' M c' m1
      refine ⟨_, M2, c2, hpipe _ rfl ?_, k1, ?_⟩
      · rw [C50_replace o.curve none a hax' hnd happ']; exact q5
      · rw [k2, m2, happ]; rfl

/-- A fin added with curvatures. -/
noncomputable def bentFin (find : (ℝ → Res ℝ) → Res ℝ) (ptan : ℝ → ℝ) (a : Fin.Args) (n : ℕ) (name : Option String) (l : List Curvature) : Comp :=
  { Fin.comp find ptan a n name with curvatures := some l }

/-- C114, fins: a fin of uniform thickness that lies in a ball, added with curvatures, is closed up to the gaps it had without them times the
factor of the curvatures over a box around the placed ball. -/
theorem C114_fin (find : (ℝ → Res ℝ) → Res ℝ) (ptan : ℝ → ℝ) (a : Fin.Args) (wmin η : ℝ) (o : V) (hη : FindsRoot η find)
    (h : UniformFin ptan a wmin o) (hx : BreakFound a) (c : V) (ρ wmax X Y Z κ : ℝ) (hB : FinBall a c ρ wmax)
    (hX : |(finMove a o c).x| + ρ ≤ X) (hY : |(finMove a o c).y| + ρ ≤ Y) (hZ : |(finMove a o c).z| + ρ ≤ Z) (l : List Curvature)
    (hl : Bends l X Y Z κ) (hε : κ * finGap ptan a wmin η ≤ 1) (n : ℕ) (hn : 1 ≤ n) (name : Option String) (H : Heap) (id : ℕ)
    (hid : H id = bentFin find ptan a n name l) :
    ∃ g c, generatePatches H id = (.ok (), g) ∧ pipeline 0 (g id) = (.ok (), c) ∧ ∃ M c', c.mesh = (.ok M, c') ∧
      ClosedUpTo (κ * finGap ptan a wmin η) M.tris := by
  obtain ⟨L, Gs, hun, hnames, hG, glue⟩ := fin_glued find η hη h hx c ρ wmax hB n hn
  have hout : Fin.out find ptan a = ⟨L.map fun e => (e.1, Fin.place a e.2), [], [], none⟩ := by unfold Fin.out; rw [hun]
  have hkeys : ((L.map fun e => (e.1, Fin.place a e.2)).map Prod.fst) = finNames a.rudder_type := by
    rw [← hnames, List.map_map]; rfl
  have hkn : ((L.map fun e => (e.1, Fin.place a e.2)).map Prod.fst).Nodup := by rw [hkeys]; exact Fin.finNames_nodup _
  set oc : Comp := { bentFin find ptan a n name l with patches := L.map fun e => (e.1, Fin.place a e.2) } with hoc
  have hg : generatePatches H id = (.ok (), H.upd id oc) := by
    have e : (H id).gen = .replace fun _ => Fin.out find ptan a := by rw [hid]; rfl
    unfold generatePatches Composite.genLeaf
    rw [e]
    simp only [Comp.genReplace, hout]
    rw [Dict.setAll_nil_nodup _ hkn, hid]
  have hG' : GridsOf n oc.patches (Gs.map fun G i j => finMove a o (G i j)) := by
    show GridsOf n (L.map fun e => (e.1, Fin.place a e.2)) _
    unfold GridsOf at hG ⊢
    rw [List.forall₂_map_left_iff, List.forall₂_map_right_iff]
    exact hG.imp fun e G hm i hi j hj => place_move a o h.offset _ _ _ _ (hm i hi j hj)
  have hne : oc.patches ≠ [] := by
    intro h0
    have : (L.map fun e => (e.1, Fin.place a e.2)).map Prod.fst = [] := by
      rw [show (L.map fun e => (e.1, Fin.place a e.2)) = [] from h0]; rfl
    rw [hkeys] at this
    unfold finNames at this
    split_ifs at this <;> simp at this
  obtain ⟨d1, -⟩ := curved_done oc n hn rfl rfl rfl rfl hkn hne _ hG' rfl l rfl (bends_total hl) rfl
  obtain ⟨c1, M, c2, k1, k2, k3⟩ := d1 rfl
  refine ⟨_, c1, hg, by rw [upd_self]; exact k1, M, c2, k2, ?_⟩
  have hgap := h.rim.gap_nonneg
  obtain ⟨-, -, tB, -, -, -, hd, -⟩ := fin_leading find η hη h hx n hn
  have hη0 : 0 ≤ η := (abs_nonneg _).trans hd
  have hL : 0 ≤ brokenLength a.p1 a.p2 a.p3 := by
    unfold brokenLength; linarith [vdist_pos h.n12, vdist_pos h.n23]
  have hε0 : 0 ≤ finGap ptan a wmin η := by unfold finGap; positivity
  have hρ : 0 ≤ ρ := by
    have h1 := hB.corners a.p0 (.inl rfl)
    unfold Ball at h1
    have z0 : (0 : ℝ) ∈ Set.Icc (0 : ℝ) 1 := ⟨le_rfl, zero_le_one⟩
    have h2 := hB.width 0 z0 _ (h.rim.width_ok z0)
    have h3 := h.rim.width_pos z0
    have h4 := h.rim.bpos
    have := vdist_nonneg a.p0 c
    linarith
  have hge := bends_ge hl (by linarith [abs_nonneg (finMove a o c).z] : (0 : ℝ) ≤ Z)
  have glue1 := glue.map (δ := finGap ptan a wmin η) (B' := Ball (finMove a o c) ρ) (K' := fun _ => False) (finMove a o)
    (fun u v _ hd => by rw [finMove_isometry]; exact hd) (fun v hv => by unfold Ball; rw [finMove_isometry]; exact hv) (fun v hv => hv)
  have glue2 := glue1.map (δ := κ * finGap ptan a wmin η) (B' := fun _ => True) (K' := fun _ => False) (curveAll l)
    (fun u v hv hd => bends_near hl u v _ (ball_box hX hY hZ hv) hd hε) (fun _ _ => trivial) (fun v hv => hv)
  rw [k3]
  exact glue2.closed (by positivity)

/-- Where a fin is placed. -/
theorem finMove_coords (a : Fin.Args) (o c : V) {r : ℝ} (hr : vdist c a.pivot_point + vdist a.pivot_point ⟨0, 0, 0⟩ ≤ r) :
    |(finMove a o c).x| ≤ |o.x| + r ∧ |(finMove a o c).y| ≤ |o.y| + r ∧ |(finMove a o c).z| ≤ |o.z| + r := by
  have h1 : ∀ ax θ, rotAbout ax θ ⟨0, 0, 0⟩ = ⟨0, 0, 0⟩ := by intro ax θ; cases ax <;> simp [rotAbout]
  have e : finMove a o a.pivot_point = rotAbout .x a.fin_angle a.pivot_point + o := by
    unfold finMove
    have h0 : a.pivot_point - a.pivot_point = ⟨0, 0, 0⟩ := by ext <;> simp
    rw [h0, h1]
    have h2 : (⟨0, 0, 0⟩ + a.pivot_point - ⟨0, 0, 0⟩ : V) = a.pivot_point := by ext <;> simp
    rw [h2]
    ext <;> simp
  have h := finMove_isometry a o c a.pivot_point
  have h3 : vdist (finMove a o a.pivot_point) o = vdist a.pivot_point ⟨0, 0, 0⟩ := by
    rw [e]
    have : vdist (rotAbout .x a.fin_angle a.pivot_point + o) (rotAbout .x a.fin_angle ⟨0, 0, 0⟩ + o) = vdist a.pivot_point ⟨0, 0, 0⟩ := by
      rw [vdist_add_right, rot_isometry]
    rw [h1] at this
    rw [← this]
    congr 1
    ext <;> simp
  have h4 := vdist_triangle (finMove a o c) (finMove a o a.pivot_point) o
  obtain ⟨c1, c2, c3⟩ := vdist_coords (finMove a o c) o
  have key : ∀ s t : ℝ, |s - t| ≤ vdist (finMove a o c) o → |s| ≤ |t| + r := by
    intro s t hst
    have := abs_sub_abs_le_abs_sub s t
    linarith
  exact ⟨key _ _ c1, key _ _ c2, key _ _ c3⟩

theorem vdist_le_sq {u v : V} {r : ℝ} (hr : 0 ≤ r) (h : (u.x - v.x) ^ 2 + (u.y - v.y) ^ 2 + (u.z - v.z) ^ 2 ≤ r ^ 2) : vdist u v ≤ r := by
  apply (abs_le_of_sq_le_sq' _ hr).2
  rw [vdist_sq]; exact h

/-- The example fin bent along and across: closed up to a third of a millimetre. -/
example (rudder : String) (n : ℕ) (hn : 1 ≤ n) : ∃ ε g c, ε ≤ 3e-4 ∧
    generatePatches (fun _ => bentFin roundedBisect ieeeTan (exampleFin rudder) n none (parabolas 0.01 0.05)) 0 = (.ok (), g) ∧
      pipeline 0 (g 0) = (.ok (), c) ∧ ∃ M c', c.mesh = (.ok M, c') ∧ ClosedUpTo ε M.tris := by
  have hl : Bends (parabolas 0.01 0.05) 5 5 4 _ := .cons _ _ _ _ _ _ _ _ _
    (gentle_parabola "x" (.inl rfl) _ _ 0.01 (5 + 1) (5 + 1) (by norm_num) (by norm_num) (by intro x y; simp) (by intro x y; simp))
    (.cons _ _ _ _ _ _ _ _ _
      (gentle_parabola "y" (.inr rfl) _ _ 0.05 (5 + 4 + 1) (5 + 4 + 1) (by norm_num) (by norm_num) (by intro x y; simp) (by intro x y; simp))
      (.nil _ _ _))
  have hgap : finGap ieeeTan (exampleFin rudder) (1 / 100) 6e-7 ≤ 2e-6 := by
    unfold finGap
    have hg := ieee_poleGap ((exampleFin rudder).fin_thickness / 2) (by norm_num [exampleFin]) (by norm_num [exampleFin])
    have h1 : vdist (exampleFin rudder).p1 (exampleFin rudder).p2 ≤ 1 := vdist_le_sq (by norm_num) (by norm_num [exampleFin])
    have h2 : vdist (exampleFin rudder).p2 (exampleFin rudder).p3 ≤ 1.5 := vdist_le_sq (by norm_num) (by norm_num [exampleFin])
    unfold brokenLength
    linarith
  have hB : FinBall (exampleFin rudder) ⟨1, 0.5, 0⟩ 1.7 0.06 := by
    refine ⟨fun t ht w hw => ?_, ?_, ?_⟩
    · simp only [exampleFin] at hw
      rw [leadingEdgeWidth_eq] at hw
      cases hw
      nlinarith [sq_nonneg (t - 1 / 2)]
    · rintro p (rfl | rfl | rfl | rfl) <;> exact vdist_le_sq (by norm_num [exampleFin]) (by norm_num [exampleFin])
    · intro _ p hp
      have hs := Real.sin_le_one 0.1
      have hs' := Real.neg_one_le_sin 0.1
      rcases hp with rfl | rfl <;> refine vdist_le_sq (by norm_num) ?_ <;> simp only [exampleFin] <;> nlinarith
  have hr : vdist ⟨1, 0.5, 0⟩ (exampleFin rudder).pivot_point + vdist (exampleFin rudder).pivot_point ⟨0, 0, 0⟩ ≤ 2 := by
    have h1 : vdist ⟨1, 0.5, 0⟩ (exampleFin rudder).pivot_point ≤ 1 := vdist_le_sq (by norm_num) (by norm_num [exampleFin])
    have h2 : vdist (exampleFin rudder).pivot_point ⟨0, 0, 0⟩ ≤ 1 := vdist_le_sq (by norm_num) (by norm_num [exampleFin])
    linarith
  obtain ⟨x1, x2, x3⟩ := finMove_coords (exampleFin rudder) ⟨0, 1, 0⟩ _ hr
  norm_num at x1 x2 x3
  obtain ⟨g, c, g1, g2, M, c', g3, g4⟩ := C114_fin roundedBisect ieeeTan (exampleFin rudder) (1 / 100) 6e-7 ⟨0, 1, 0⟩ roundedBisect_finds
    (example_uniform rudder) (by norm_num [BreakFound, exampleFin]) ⟨1, 0.5, 0⟩ 1.7 0.06 5 5 4 _ hB (by norm_num; linarith) (by norm_num; linarith)
    (by norm_num; linarith) (parabolas 0.01 0.05) hl (by norm_num [abs_of_pos]; linarith) n hn none
    (fun _ => bentFin roundedBisect ieeeTan (exampleFin rudder) n none (parabolas 0.01 0.05)) 0 rfl
  exact ⟨_, g, c, by norm_num [abs_of_pos]; linarith, g1, g2, M, c', g3, g4⟩

end HV
