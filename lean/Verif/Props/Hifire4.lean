import Verif.Model.Hangar4
import Verif.Props.Hifire8
import Verif.Props.RevolvedEnds

/-!
# C109: the HIFiRE 4
-/

namespace HV
open Spec Veh

namespace Spec

/-- The factor by which two parabolic curvatures of coefficients `a` (along the body) and `b` (across) enlarge small distances within a
box of half lengths `X`, `Y`, `Z`. -/
noncomputable def parabolaFactor (a b X Y Z : ℝ) : ℝ :=
  let F := |a| * (max (X + 1) (Y + 1)) ^ 2
  (5 + 2 * Z * (2 * |a|) + 2 * |a| * max (X + 1) (Y + 1)) *
    ((5 + 2 * (Z + F) * (2 * |b|) + 2 * |b| * max (X + Z + 1) (Y + Z + 1)) * 1)

/-- The factor for the wing of the HIFiRE 4. -/
noncomputable def hifire4Factor (p : HIFiRE4.Params) : ℝ :=
  parabolaFactor (p.x_curve_mult * 0.05) (p.y_curve_mult * 0.1) (p.L_n + p.L_b + 1) (4 * p.R + 1) (p.L_n + p.L_b + p.R)

/-- What is lost by rounding the radius to six decimal places. -/
noncomputable def HIFiRE4.lost (p : HIFiRE4.Params) : ℝ := |round6 p.R - p.R|

/-- Sensible dimensions of the HIFiRE 4: positive, the wing longer than its setback. -/
structure HIFiRE4Ok (p : HIFiRE4.Params) : Prop where
  radius : 0 < p.R
  large : p.R ≤ 800
  nose : 0 < p.L_n
  body : 0 < p.L_b
  length : 0.75 < p.L_n + p.L_b
  bend : hifire4Factor p ≤ 1e12
  places : hifire4Factor p * HIFiRE4.lost p ≤ 1

/-- The keyword arguments of the generator mean these dimensions. -/
structure HIFiRE4Args (kwargs : Dict String ℝ) (p : HIFiRE4.Params) : Prop where
  keys : kwargs.keys.Nodup
  x_curve_mult : given kwargs "x_curve_mult" 0.3 p.x_curve_mult
  y_curve_mult : given kwargs "y_curve_mult" 0.5 p.y_curve_mult
  R : given kwargs "R" 0.2 p.R
  L_n : given kwargs "L_n" 2 p.L_n
  L_b : given kwargs "L_b" 4 p.L_b

end Spec

/-- A body of revolution with its ends on the axis stays closed when it is bent. -/
theorem bent_revolved (line : PathObj) (f : ℝ → V) (hl : ∀ t, 0 ≤ t → t ≤ 1 → line.call t = .ok (f t))
    (h0 : (f 0).y = 0 ∧ (f 0).z = 0) (h1 : (f 1).y = 0 ∧ (f 1).z = 0) (l : List Curvature)
    (hk : ∀ k ∈ l, (k.direction = "x" ∨ k.direction = "y") ∧ ∀ x y, ∃ f m, k.fn x y = .ok f ∧ k.fn_dash x y = .ok m)
    (n : ℕ) (hn : 1 ≤ n) (name : Option String) (H : Heap) (id : ℕ) (hid : H id = { RevolvedComponent line n name with curvatures := some l }) :
    ∃ g c, generatePatches H id = (.ok (), g) ∧ pipeline 0 (g id) = (.ok (), c) ∧ ∃ M c', c.mesh = (.ok M, c') ∧ Closed M.tris := by
  obtain ⟨h', M, c', g1, g2, g3⟩ := C60_watertight line f hl h0 h1 n hn name (fun _ => RevolvedComponent line n name) 0 rfl
  have hsteps : (runSteps ((List.range 4).map fun (i : ℕ) => GenStep.patch ("revolved_fuse_" ++ toString i)
      (.ok (RevolvedPatch line (i * Real.pi / 2) (((i : ℝ) + 1) * Real.pi / 2))))).err = none := rfl
  set out := runSteps ((List.range 4).map fun (i : ℕ) => GenStep.patch ("revolved_fuse_" ++ toString i)
      (.ok (RevolvedPatch line (i * Real.pi / 2) (((i : ℝ) + 1) * Real.pi / 2)))) with hout
  have e0 : generatePatches (fun _ => RevolvedComponent line n name) 0 =
      (.ok (), Heap.upd (fun _ => RevolvedComponent line n name) 0 ((RevolvedComponent line n name).genInto out).2) := rfl
  have e1 : generatePatches H id = (.ok (), H.upd id ((H id).genInto out).2) := by
    have hg : (H id).gen = .into fun _ => out := by rw [hid]; rfl
    simp only [generatePatches, Composite.genLeaf, hg, Comp.genInto, hsteps]
  rw [e0] at g1
  obtain rfl := (Prod.mk.inj g1).2
  rw [upd_self] at g2
  set b := ((H id).genInto out).2 with hb
  have hw : WatertightAt n ((RevolvedComponent line n name).genInto out).2 :=
    ⟨rfl, rfl, rfl, by
      show ((Dict.setAll [] out.items).map Prod.fst).Nodup
      rw [Dict.setAll_nil_nodup _ (by rw [hout, runSteps_patches, List.map_map]; exact prefix_ix_nodup _ 4), hout, runSteps_patches, List.map_map]
      exact prefix_ix_nodup _ 4, M, c', g2, g3⟩
  have hwb : WatertightAt n b := watertight_congr hn hw (by rw [hb, hid]; rfl) (by rw [hb, hid]; rfl) (by rw [hb, hid]; rfl) (by rw [hb, hid]; rfl)
    (by rw [hb, hid]; rfl)
  have hcu : b.curvatures = some l := by rw [hb, hid]; rfl
  obtain ⟨φ, ha⟩ := curveFn_acts b (by rw [hcu]; rintro _ ⟨⟩; exact hk)
  obtain ⟨-, -, -, -, M', c'', m1, m2⟩ := watertight_acts hn ha hwb
  refine ⟨_, b.curve, e1, ?_, M', c'', m1, m2⟩
  rw [upd_self]
  have e1 : b.applyModifier = b := by unfold Comp.applyModifier; rw [show b.modifier = none by rw [hb, hid]; rfl]
  have e3 : b.curve.reflect none = b.curve := by
    unfold Comp.reflect
    rw [show b.curve.reflection_axis = none from (congrArg Comp.reflection_axis ha.1 :).trans (by rw [hb, hid]; rfl)]; rfl
  unfold pipeline
  rw [e1, rotate_zero, e3]
  unfold Comp.transform
  rw [show b.curve.transformations = [] from (congrArg Comp.transformations ha.1 :).trans (by rw [hb, hid]; rfl)]
  rfl

namespace HIFiRE4
variable {p : Params}

/-- The radius of the ogive. -/
noncomputable def ro (p : Params) : ℝ := (p.R ^ 2 + p.L_n ^ 2) / (2 * p.R)

theorem rho_eq (hp : HIFiRE4Ok p) : rho p = .ok (ro p) := pdiv_ok _ _ (by linarith [hp.radius])

theorem ro_rel (hp : HIFiRE4Ok p) : 2 * p.R * ro p = p.R ^ 2 + p.L_n ^ 2 := mul_div_cancel₀ _ (by linarith [hp.radius])

theorem ro_pos (hp : HIFiRE4Ok p) : 0 < ro p := by
  have := hp.radius
  unfold ro; positivity

theorem yOgive_end (hp : HIFiRE4Ok p) : yOgive p (ro p) p.L_n = round6 p.R := by
  unfold yOgive
  rw [sub_self, zero_pow two_ne_zero, sub_zero, Real.sqrt_sq (ro_pos hp).le, add_sub_cancel_left]

/-- The arc of the nose: it ends where the cylinder starts, and starts off the tip by what the rounding loses. -/
theorem nose_arc (hp : HIFiRE4Ok p) :
    GoodSeg (Arc ⟨0, 0, 0⟩ ⟨-p.L_n, round6 p.R, 0⟩ ⟨-p.L_n, round6 p.R - ro p, 0⟩) ∧
    vdist (fnOf (Arc ⟨0, 0, 0⟩ ⟨-p.L_n, round6 p.R, 0⟩ ⟨-p.L_n, round6 p.R - ro p, 0⟩) 0) ⟨0, 0, 0⟩ ≤ HIFiRE4.lost p := by
  have hn := hp.nose
  have hr := ro_pos hp
  have hrel := ro_rel hp
  have ha : vdist (⟨0, 0, 0⟩ : V) ⟨-p.L_n, p.R - ro p, 0⟩ = ro p := by
    rw [← Vec.abs_sub_eq_vdist]
    unfold Vec.abs
    rw [Real.sqrt_eq_iff_mul_self_eq_of_pos hr]
    simp
    linarith
  have hb : vdist (⟨-p.L_n, round6 p.R, 0⟩ : V) ⟨-p.L_n, round6 p.R - ro p, 0⟩ = ro p := by
    rw [← Vec.abs_sub_eq_vdist]
    unfold Vec.abs
    rw [Real.sqrt_eq_iff_mul_self_eq_of_pos hr]
    simp
    ring
  have hd : vdist (⟨-p.L_n, p.R - ro p, 0⟩ : V) ⟨-p.L_n, round6 p.R - ro p, 0⟩ = HIFiRE4.lost p := by
    rw [← Vec.abs_sub_eq_vdist]
    unfold Vec.abs HIFiRE4.lost
    rw [← Real.sqrt_sq_eq_abs]
    congr 1
    simp
    ring
  have hdiff : |vdist (⟨0, 0, 0⟩ : V) ⟨-p.L_n, round6 p.R - ro p, 0⟩ - vdist (⟨-p.L_n, round6 p.R, 0⟩ : V) ⟨-p.L_n, round6 p.R - ro p, 0⟩| ≤ HIFiRE4.lost p := by
    rw [hb]
    have t1 := vdist_triangle (⟨0, 0, 0⟩ : V) ⟨-p.L_n, p.R - ro p, 0⟩ ⟨-p.L_n, round6 p.R - ro p, 0⟩
    have t2 := vdist_triangle (⟨0, 0, 0⟩ : V) ⟨-p.L_n, round6 p.R - ro p, 0⟩ ⟨-p.L_n, p.R - ro p, 0⟩
    rw [vdist_comm ⟨-p.L_n, round6 p.R - ro p, 0⟩] at t2
    rw [abs_le]
    constructor <;> linarith
  have hlost : HIFiRE4.lost p ≤ 5e-7 := round6_near _
  have hc : ¬ Collinear ℝ ({toE (⟨-p.L_n, round6 p.R - ro p, 0⟩ : V), toE ⟨0, 0, 0⟩, toE ⟨-p.L_n, round6 p.R, 0⟩} : Set E3) := by
    rw [← Arc.cross_eq_zero_iff_collinear, Vec.abs_eq_zero_iff]
    intro h
    have := congrArg Vec.z h
    simp at this
    rcases this with h | h <;> linarith
  obtain ⟨k1, ⟨q, k2, k3⟩, -⟩ := C13_arc_partial _ _ _ (hdiff.trans (hlost.trans (by norm_num))) hc (by simp)
  obtain ⟨t1, t2, n, -, -, -, -, h0, -, hB, he⟩ := Arc.eval_ok _ _ _ 1 (hdiff.trans (hlost.trans (by norm_num))) hc
  refine ⟨⟨⟨_, by simp only [Arc, he, bind, Except.bind, pure, Except.pure], mul_pos h0 hB⟩, fun t => ?_⟩, ?_⟩
  · obtain ⟨q, h, -⟩ := k1 t
    exact ⟨q, h⟩
  · unfold fnOf
    rw [k2]
    exact k3.le.trans hdiff

theorem fuse_line (hp : HIFiRE4Ok p) : ∃ P, fuseLine p = .ok P ∧ (∀ t, P.call t = .ok (fnOf P t)) ∧
    vdist (fnOf P 0) ⟨0, 0, 0⟩ ≤ HIFiRE4.lost p ∧ fnOf P 1 = ⟨-p.L_n - p.L_b, round6 p.R - p.R, 0⟩ := by
  have hR := hp.radius
  have hb := hp.body
  obtain ⟨h3, h3'⟩ := nose_arc hp
  have h4 : GoodSeg (Line (⟨-p.L_n, round6 p.R, 0⟩ : V) ⟨-p.L_n - p.L_b, round6 p.R, 0⟩) := goodLine _ _ fun h => by
    have := congrArg Vec.x h; simp only at this; linarith
  have h5 : GoodSeg (Line (⟨-p.L_n - p.L_b, round6 p.R, 0⟩ : V) ⟨-p.L_n - p.L_b, round6 p.R - p.R, 0⟩) := goodLine _ _ fun h => by
    have := congrArg Vec.y h; simp only at this; linarith
  obtain ⟨P, k1, k2, k3, k4, -⟩ := goodPolyline [Arc ⟨0, 0, 0⟩ ⟨-p.L_n, round6 p.R, 0⟩ ⟨-p.L_n, round6 p.R - ro p, 0⟩,
    Line ⟨-p.L_n, round6 p.R, 0⟩ ⟨-p.L_n - p.L_b, round6 p.R, 0⟩,
    Line ⟨-p.L_n - p.L_b, round6 p.R, 0⟩ ⟨-p.L_n - p.L_b, round6 p.R - p.R, 0⟩] (by simp) (by simp [h3, h4, h5])
  refine ⟨P, ?_, k2.call, ?_, ?_⟩
  · unfold fuseLine
    rw [rho_eq hp, ok_bind]
    simp only [yOgive_end hp]
    rw [← k1]
    have d1 : (⟨-p.L_n, round6 p.R, 0⟩ : V) - ⟨p.L_b, 0, 0⟩ = ⟨-p.L_n - p.L_b, round6 p.R, 0⟩ := by ext <;> simp
    have d2 : (⟨-p.L_n - p.L_b, round6 p.R, 0⟩ : V) - ⟨0, p.R, 0⟩ = ⟨-p.L_n - p.L_b, round6 p.R - p.R, 0⟩ := by ext <;> simp
    rw [d1, d2]
  · rw [k3]
    exact h3'
  · rw [k4]
    simp [fnOf_line]

/-- The ends of the line are off the axis by no more than what the rounding loses. -/
theorem fuse_ends {P : PathObj} (h0 : vdist (fnOf P 0) ⟨0, 0, 0⟩ ≤ HIFiRE4.lost p)
    (h1 : fnOf P 1 = ⟨-p.L_n - p.L_b, round6 p.R - p.R, 0⟩) :
    axisDist (fnOf P 0) ≤ HIFiRE4.lost p ∧ axisDist (fnOf P 1) ≤ HIFiRE4.lost p ∧
    |(fnOf P 0).x| ≤ 5e-7 ∧ (fnOf P 1).x = -p.L_n - p.L_b := by
  have hlost : HIFiRE4.lost p ≤ 5e-7 := round6_near _
  refine ⟨?_, ?_, ?_, by rw [h1]⟩
  · refine le_trans ?_ h0
    rw [← Vec.abs_sub_eq_vdist]
    unfold axisDist Vec.abs
    apply Real.sqrt_le_sqrt
    simp
    nlinarith [sq_nonneg (fnOf P 0).x]
  · rw [h1]
    unfold axisDist HIFiRE4.lost
    rw [← Real.sqrt_sq_eq_abs]
    simp
  · have := (vdist_coords (fnOf P 0) ⟨0, 0, 0⟩).1
    simp only [sub_zero] at this
    linarith

/-! ## The wing -/

/-- The width of the leading edge. -/
noncomputable def lw (t : ℝ) : ℝ := 0.01 + 0.18 * t * (1 - t)

theorem lw_mem {t : ℝ} (ht : t ∈ Set.Icc (0 : ℝ) 1) : 0.01 ≤ lw t ∧ lw t ≤ 0.055 := by
  unfold lw
  constructor <;> nlinarith [ht.1, ht.2, mul_nonneg ht.1 (sub_nonneg.2 ht.2), sq_nonneg (t - 1 / 2)]

theorem wing_smooth (hp : HIFiRE4Ok p) {ptan : ℝ → ℝ} (hT : FloatTan ptan) : ∃ a L, wingArgs p = .ok a ∧
    SmoothWing ptan (fun _ _ => True) a L (fun _ _ => -(0.125 * p.R)) (fun _ _ => 0.125 * p.R) lw 1e-12 ∧
    a.t_B1 = none ∧ a.close_wing = false ∧ a.A0.y = 0 ∧ a.A1.y = 0 ∧ a.TT.y = 0 ∧ (L 0).x ≤ a.A1.x ∧ a.A1.x ≤ (L 1).x ∧
    ∀ t1 ∈ Set.Icc (0 : ℝ) 1, WingBox a L (fun _ _ => -(0.125 * p.R)) (fun _ _ => 0.125 * p.R) lw t1 (p.L_n + p.L_b + 1) (4 * p.R + 1) (p.L_n + p.L_b + p.R) := by
  have hR := hp.radius
  have hl := hp.length
  have hlt : L_t p = p.L_n + p.L_b := rfl
  obtain ⟨P, h1, h2, h3, h4, h5, h6, h7⟩ := lines_edge [(B0 p, B1 p), (B1 p, B2 p), (B2 p, TT p)] (by simp)
    (by
      intro e he
      simp only [List.mem_cons, List.not_mem_nil, or_false] at he
      rcases he with rfl | rfl | rfl <;> intro hc
      · have := congrArg Vec.x hc; simp only [B0, B1, A1, wing_L] at this; linarith
      · have := congrArg Vec.x hc; simp only [B1, B2, A1, A0, TT, wing_L] at this; linarith
      · have := congrArg Vec.y hc; simp only [B2, TT, wing_span] at this; linarith)
    (by
      intro i hi
      simp only [List.length_cons, List.length_nil] at hi
      obtain rfl | rfl : i = 0 ∨ i = 1 := by omega
      all_goals rfl)
  simp only [List.map_cons, List.map_nil] at h1
  simp only [List.head_cons, List.getLast_cons, List.getLast_singleton, ne_eq, reduceCtorEq, not_false_eq_true, List.cons_ne_nil] at h3 h4
  have z0 : (0 : ℝ) ∈ Set.Icc (0 : ℝ) 1 := by simp
  have z1 : (1 : ℝ) ∈ Set.Icc (0 : ℝ) 1 := by simp
  have fx := h6 (by
    intro e he
    simp only [List.mem_cons, List.not_mem_nil, or_false] at he
    rcases he with rfl | rfl | rfl <;> simp only [B0, B1, B2, A1, A0, TT, wing_L] <;> linarith)
  have fy := h7 (by
    intro e he
    simp only [List.mem_cons, List.not_mem_nil, or_false] at he
    rcases he with rfl | rfl | rfl <;> simp only [B0, B1, B2, TT, wing_span] <;> linarith)
  have fz : ∀ t ∈ Set.Icc (0 : ℝ) 1, (fnOf P t).z = 0 := by
    intro t ht
    obtain ⟨e, he, u, hu, he2⟩ := h5 t ht
    rw [he2]
    simp only [List.mem_cons, List.not_mem_nil, or_false] at he
    rcases he with rfl | rfl | rfl <;> simp [lineAt, B0, B1, B2, TT]
  refine ⟨_, fnOf P, by unfold wingArgs; rw [h1, ok_bind]; rfl,
    ⟨hT.like, lower_bezier, X43.up_custom, rfl, .inl rfl, h2, h3, h4,
     fun x y z _ => by simp [uniformThickness, wing_thickness]; ring, fun x y z _ => by simp [uniformThickness, wing_thickness]; ring, liesOver_univ _ _ _, .inr rfl,
     fun t _ => by simp [leadingEdgeWidth_eq, lw], ?_, ?_, ?_, ?_⟩, rfl, rfl, rfl, rfl, rfl, ?_, ?_, ?_⟩
  · intro t ht; linarith
  · intro t ht; linarith [(lw_mem ht).1]
  · intro t ht
    exact hT.fits _ _ (by rw [abs_le]; constructor <;> linarith [hp.large]) (by linarith [(lw_mem ht).1])
  · intro t ht
    exact hT.gap _ _ (by linarith) (by linarith [hp.large]) (by linarith [(lw_mem ht).1])
  · rw [h3]; simp only [B0, A1, A0, wing_L]; linarith
  · rw [h4]; simp only [A1, A0, TT, wing_L]; linarith
  · intro t1 ht1
    have ab : ∀ x : ℝ, x ≤ 0 → |x| = -x := fun x => abs_of_nonpos
    have ap : ∀ x : ℝ, 0 ≤ x → |x| = x := fun x => abs_of_nonneg
    refine wingBox_uniform _ _ _ _ _ _ _ _ ht1 ?_ (fun t ht => by linarith [(lw_mem ht).1]) ?_ ?_
    · rintro q (rfl | rfl | rfl | rfl) <;> simp only [A0, A1, TT, B0, wing_L, wing_span, hlt, abs_zero] <;>
        refine ⟨?_, ?_, ?_⟩ <;> (try rw [ap (0.125 * p.R) (by positivity)]) <;> (try rw [abs_le]) <;> (try constructor) <;> linarith
    · intro t ht
      have k0 := fx 0 z0 t ht ht.1
      have k1 := fx t ht 1 z1 ht.2
      have k2 := fy 0 z0 t ht ht.1
      have k3 := fy t ht 1 z1 ht.2
      rw [h3] at k0 k2
      rw [h4] at k1 k3
      simp only [B0, TT, A0, wing_L, wing_span, hlt] at k0 k1 k2 k3
      have := lw_mem ht
      rw [ab (fnOf P t).x (by linarith), ap (fnOf P t).y (by linarith), fz t ht, abs_zero, ap (0.125 * p.R) (by positivity)]
      refine ⟨by linarith, by linarith, by linarith⟩
    · rintro q (rfl | rfl) <;> simp only [A0, B0, wing_L, flap_length, hlt, abs_zero] <;>
        rw [ap (0.1 * (p.L_n + p.L_b)) (by linarith), ab _ (by linarith)] <;> constructor <;> linarith

theorem curvatures_bend (hp : HIFiRE4Ok p) : Bends (curvatures p) (p.L_n + p.L_b + 1) (4 * p.R + 1) (p.L_n + p.L_b + p.R) (hifire4Factor p) := by
  have hR := hp.radius
  have hl := hp.length
  exact .cons _ _ _ _ _ _ _ _ _
    (gentle_parabola "x" (.inl rfl) _ _ (p.x_curve_mult * 0.05) _ _ (by linarith) (by linarith) (by intro x y; simp [curvX]) (by intro x y; rw [if_pos rfl]; simp only [curvXd]; congr 1; ring))
    (.cons _ _ _ _ _ _ _ _ _
      (gentle_parabola "y" (.inr rfl) _ _ (p.y_curve_mult * 0.1) _ _ (by linarith) (by linarith) (by intro x y; simp [curvY]) (by intro x y; rw [if_neg (by decide)]; simp only [curvYd]; congr 1; ring))
      (.nil _ _ _))

theorem curvatures_level : LevelAtPlane (curvatures p) := by
  intro k hk hd x
  simp only [curvatures, List.mem_cons, List.not_mem_nil, or_false] at hk
  rcases hk with rfl | rfl
  · simp at hd
  · simp [curvYd]

/-- Without curvature nothing is bent. -/
theorem curvatures_straight (hx : p.x_curve_mult = 0) (hy : p.y_curve_mult = 0) (v : V) : curveAll (curvatures p) v = v := by
  simp only [curveAll, curvatures, List.foldl_cons, List.foldl_nil]
  rw [curvePt_x _ rfl v 0 0 (by simp [curvX, hx]) (by simp [curvXd, hx])]
  rw [curvePt_y _ rfl _ 0 0 (by simp [curvY, hy]) (by simp [curvYd, hy])]
  ext <;> simp

/-- The mesh of the fuselage. -/
theorem fuse_mesh (hp : HIFiRE4Ok p) {P : PathObj} (q2 : ∀ t, P.call t = .ok (fnOf P t))
    (q3 : vdist (fnOf P 0) ⟨0, 0, 0⟩ ≤ HIFiRE4.lost p) (q4 : fnOf P 1 = ⟨-p.L_n - p.L_b, round6 p.R - p.R, 0⟩)
    (n : ℕ) (hn : 1 ≤ n) (name : Option String) (H : Heap) (id : ℕ)
    (hid : H id = { RevolvedComponent P n name with curvatures := some (curvatures p) }) :
    ∃ g c, generatePatches H id = (.ok (), g) ∧ pipeline 0 (g id) = (.ok (), c) ∧ ∃ M c', c.mesh = (.ok M, c') ∧
      ClosedUpTo (hifire4Factor p * HIFiRE4.lost p) M.tris ∧
      (p.x_curve_mult = 0 → p.y_curve_mult = 0 → Closed M.tris → round6 p.R = p.R) := by
  obtain ⟨x0, x1, x2, x3⟩ := fuse_ends q3 q4
  have hR := hp.radius
  have hnn := hp.nose
  have hbb := hp.body
  have hl := hp.length
  obtain ⟨g, c, g1, g2, M, c', g3, g4⟩ := C115_near P (fnOf P) (fun t _ _ => q2 t) _ x0 x1 (curvatures p) _ _ _ _ (curvatures_bend hp)
    ⟨by linarith, by rw [x3, abs_of_neg (by linarith)]; linarith⟩ (by linarith) (by linarith) hp.places n hn name H id hid
  refine ⟨g, c, g1, g2, M, c', g3, g4, fun hx hy hc => ?_⟩
  obtain ⟨g', d, h1, h2, M', d', h3, h4⟩ := bent_revolved_mesh P (fnOf P) (fun t _ _ => q2 t) (curvatures p) (bends_total (curvatures_bend hp)) n hn
    name H id hid
  rw [g1] at h1
  obtain rfl := (Prod.mk.inj h1).2
  rw [g2] at h2
  obtain rfl := (Prod.mk.inj h2).2
  rw [g3] at h3
  obtain rfl := Except.ok.inj (Prod.mk.inj h3).1
  rw [h4] at hc
  simp only [curvatures_straight hx hy, List.map_id'] at hc
  have := revolve_closed_imp (fnOf P) n hn (fun h => by
    have k := h.1
    rw [x3] at k
    have := abs_le.1 x2
    linarith) hc
  have := this.2.1
  rw [q4] at this
  exact sub_eq_zero.1 this

/-! ## The fins -/

theorem fin_uniform (hp : HIFiRE4Ok p) {ptan : ℝ → ℝ} (hT : FloatTan ptan) (off : V) :
    UniformFin ptan (finArgs p off) 0.01 off ∧ BreakFound (finArgs p off) := by
  have hR := hp.radius
  have hl := hp.length
  have hlt : L_t p = p.L_n + p.L_b := rfl
  have x1 : (finArgs p off).p1.x = -(0.9 * (p.L_n + p.L_b)) := by
    simp [finArgs, shifted, flat1, flat0, A0, wing_L, flap_length, hlt]; ring
  have x2 : (finArgs p off).p2.x = -(0.82 * (p.L_n + p.L_b)) := by
    simp [finArgs, shifted, flat2, flat1, flat0, A0, wing_L, fin_length, flap_length, hlt]; ring
  have x3 : (finArgs p off).p3.x = -(0.74 * (p.L_n + p.L_b)) := by
    simp [finArgs, shifted, flat3, flat0, A0, wing_L, fin_length, flap_length, hlt]; ring
  have e : (finArgs p off).fin_thickness = 0.25 * p.R := rfl
  refine ⟨⟨hT.like, by rw [e]; linarith, rfl, rfl, ?_, ?_, by norm_num, ?_, ?_, fun _ => ?_, ?_⟩, ?_⟩
  · intro hc
    rw [hc, x2] at x1; linarith
  · intro hc
    rw [hc, x3] at x2; linarith
  · rw [e]
    exact hT.fits _ _ (by rw [abs_le]; constructor <;> linarith [hp.large]) (by norm_num)
  · intro t ht
    exact ⟨lw t, (lw_mem ht).1, leadingEdgeWidth_eq t⟩
  · simp [finArgs, shifted, flat1, flat0, A0]
  · simp [OffsetBy, finArgs]
  · unfold BreakFound
    rw [x1, x2, x3]
    nlinarith

/-- The length of the leading edge of the fins. -/
noncomputable def finEdge (p : Params) : ℝ := brokenLength (shifted p (flat1 p)) (shifted p (flat2 p)) (shifted p (flat3 p))

theorem fin_mesh (hp : HIFiRE4Ok p) {ptan : ℝ → ℝ} (hT : FloatTan ptan) (off : V) (n : ℕ) (hn : 1 ≤ n)
    (name : Option String) (H : Heap) (id : ℕ) (hid : H id = Fin.comp (rounded bisect01) ptan (finArgs p off) n name) :
    ∃ g c, generatePatches H id = (.ok (), g) ∧ pipeline 0 (g id) = (.ok (), c) ∧
      ∃ M c', c.mesh = (.ok M, c') ∧ GapFree (6e-7 * finEdge p + 1e-12) M.tris := by
  have hR := hp.radius
  obtain ⟨hu, hb⟩ := fin_uniform hp hT off
  obtain ⟨h', M, c', g1, g2, g3⟩ := C105_fin_partial (rounded bisect01) ptan _ 0.01 6e-7 _ roundedBisect_finds hu hb n hn name H id hid
  obtain ⟨P, R, S, hopt⟩ := generatePatches_opts H id (by rw [hid]; simp [Comp.children, Fin.comp])
  rw [g1, hid] at hopt
  simp only at hopt
  refine ⟨h', h' id, g1, pipeline_plain _ (by rw [hopt]; rfl) (by rw [hopt]; rfl) (by rw [hopt]; rfl) (by rw [hopt]; rfl), M, c', g2,
    (closedUpTo_mono ?_ g3).watertight⟩
  have e : (finArgs p off).fin_thickness = 0.25 * p.R := rfl
  have := hT.gap ((finArgs p off).fin_thickness / 2) 0.01 (by rw [e]; linarith) (by rw [e]; linarith [hp.large]) (by norm_num)
  unfold finGap
  show finEdge p * 6e-7 + _ ≤ _
  linarith

end HIFiRE4
/-! ## The vehicle -/

theorem hifire4_params (kwargs : Dict String ℝ) (p : HIFiRE4.Params) (ha : HIFiRE4Args kwargs p) :
    HIFiRE4.Params.of (Generator.init HIFiRE4.defaults kwargs) = .ok p := by
  unfold HIFiRE4.Params.of
  have k := fun (s : String) (d v : ℝ) (h : given kwargs s d v) (e : HIFiRE4.defaults.get? s = some d) =>
    given_get' (dflts := HIFiRE4.defaults) ha.keys h e
  rw [k _ _ _ ha.L_n rfl, ok_bind, k _ _ _ ha.L_b rfl, ok_bind, k _ _ _ ha.R rfl, ok_bind, k _ _ _ ha.x_curve_mult rfl, ok_bind,
    k _ _ _ ha.y_curve_mult rfl, ok_bind]
  rfl

open HIFiRE4 in
theorem hifire4_instance (ptan : ℝ → ℝ) (h : Heap) (ids : ℕ → ℕ) (hi : Function.Injective ids) (kwargs : Dict String ℝ) (p : HIFiRE4.Params)
    (ha : HIFiRE4Args kwargs p) (P : PathObj) (a : Wing.Args) (w : Wing.State)
    (eP : fuseLine p = .ok P) (e1 : wingArgs p = .ok a) (i1 : Wing.init (rounded bisect01) a = .ok w) :
    ∃ st, HIFiRE4.instanceOf bisect01 ptan h ids kwargs = .ok st ∧
      st.veh.components = (List.range 5).map ids ∧
      st.veh.named = ["revolved_1", "wing_1", "fin_1", "fin_2", "fin_3"].zip ((List.range 5).map ids) ∧
      st.veh.angleOffset = 0 ∧ st.veh.transformations = [] ∧ st.veh.analyseOn = none ∧
      st.heap (ids 0) = { RevolvedComponent P 20 none with curvatures := some (curvatures p) } ∧
      st.heap (ids 1) = bentWing ptan w 3 none (some "y") true (curvatures p) ∧
      st.heap (ids 2) = Fin.comp (rounded bisect01) ptan (finArgs p (offset1 p)) 3 none ∧
      st.heap (ids 3) = Fin.comp (rounded bisect01) ptan (finArgs p (offset2 p)) 3 none ∧
      st.heap (ids 4) = Fin.comp (rounded bisect01) ptan (finArgs p (offset3 p)) 3 none := by
  unfold HIFiRE4.instanceOf HIFiRE4.createInstance
  rw [hifire4_params kwargs p ha, ok_bind, eP, ok_bind, e1, ok_bind, i1, ok_bind]
  simp only
  set H : Heap := ((((h.upd (ids 0) (RevolvedComponent P 20)).upd (ids 1) (Wing.comp ptan w 3)).upd (ids 2)
    (Fin.comp (rounded bisect01) ptan (finArgs p (offset1 p)) 3)).upd (ids 3)
    (Fin.comp (rounded bisect01) ptan (finArgs p (offset2 p)) 3)).upd (ids 4)
    (Fin.comp (rounded bisect01) ptan (finArgs p (offset3 p)) 3) with hH
  have f0 : H (ids 0) = RevolvedComponent P 20 := by simp only [hH, Heap.upd, hi.eq_iff]; rfl
  have f1 : H (ids 1) = Wing.comp ptan w 3 := by simp only [hH, Heap.upd, hi.eq_iff]; rfl
  have f2 : H (ids 2) = Fin.comp (rounded bisect01) ptan (finArgs p (offset1 p)) 3 := by simp only [hH, Heap.upd, hi.eq_iff]; rfl
  have f3 : H (ids 3) = Fin.comp (rounded bisect01) ptan (finArgs p (offset2 p)) 3 := by simp only [hH, Heap.upd, hi.eq_iff]; rfl
  have f4 : H (ids 4) = Fin.comp (rounded bisect01) ptan (finArgs p (offset3 p)) 3 := by simp only [hH, Heap.upd, hi.eq_iff]; rfl
  obtain ⟨st, b1, b2, b3, b4⟩ := addAll_spec ⟨H, ({} : Veh).configure (some "HIFiRE4") 1⟩ (HIFiRE4.parts p ids)
    (by simp [HIFiRE4.parts, hi.eq_iff])
    (by
      intro e he
      simp only [HIFiRE4.parts, List.mem_cons, List.not_mem_nil, or_false] at he
      rcases he with rfl | rfl | rfl | rfl | rfl
      · simp only [f0, RevolvedComponent, Veh.allowable]; decide
      · simp only [f1, Wing.comp, Veh.allowable]; decide
      · simp only [f2, Fin.comp, Veh.allowable]; decide
      · simp only [f3, Fin.comp, Veh.allowable]; decide
      · simp only [f4, Fin.comp, Veh.allowable]; decide)
  simp only [HIFiRE4.parts, List.foldl_cons, List.foldl_nil, f0, f1, f2, f3, f4] at b2
  have hrec : st.veh.components = (List.range 5).map ids ∧ st.veh.named = ["revolved_1", "wing_1", "fin_1", "fin_2", "fin_3"].zip ((List.range 5).map ids) ∧
      st.veh.angleOffset = 0 ∧ st.veh.transformations = [] ∧ st.veh.analyseOn = none := by
    rw [b2]
    refine ⟨rfl, ?_, rfl, rfl, rfl⟩
    have n1 : Nat.repr 1 = "1" := rfl
    have n2 : Nat.repr 2 = "2" := rfl
    have n3 : Nat.repr 3 = "3" := rfl
    simp [n1, n2, n3, record, nextCount, nameFor, Veh.configure, RevolvedComponent, Wing.comp, Fin.comp, Dict.set, Dict.get?, truthy, List.range_succ]
  refine ⟨st, b1, hrec.1, hrec.2.1, hrec.2.2.1, hrec.2.2.2.1, hrec.2.2.2.2, ?_, ?_, ?_, ?_, ?_⟩
  · rw [b3 (ids 0, { curvatures := some (curvatures p) }) (by simp [HIFiRE4.parts])]
    simp only [f0]; rfl
  · rw [b3 (ids 1, { reflection_axis := some "y", curvatures := some (curvatures p) }) (by simp [HIFiRE4.parts])]
    simp only [f1]; rfl
  · rw [b3 (ids 2, {}) (by simp [HIFiRE4.parts])]
    simp only [f2]; rfl
  · rw [b3 (ids 3, {}) (by simp [HIFiRE4.parts])]
    simp only [f3]; rfl
  · rw [b3 (ids 4, {}) (by simp [HIFiRE4.parts])]
    simp only [f4]; rfl

/-- What is known of the components of a generated HIFiRE 4. -/
structure HIFiRE4.Meshes (p : HIFiRE4.Params) (ids : ℕ → ℕ) (st' : VState) : Prop where
  fuselage : ∃ M c', (st'.heap (ids 0)).mesh = (.ok M, c') ∧ ClosedUpTo (hifire4Factor p * HIFiRE4.lost p) M.tris ∧
    (p.x_curve_mult = 0 → p.y_curve_mult = 0 → Closed M.tris → round6 p.R = p.R)
  wing : ∃ M c', (st'.heap (ids 1)).mesh = (.ok M, c') ∧ GapFree (hifire4Factor p * 1e-12) M.tris
  fins : ∀ i, 2 ≤ i → i < 5 → ∃ M c', (st'.heap (ids i)).mesh = (.ok M, c') ∧ GapFree (6e-7 * HIFiRE4.finEdge p + 1e-12) M.tris

open HIFiRE4 in
/-- C109 for the HIFiRE 4: for all positive lengths (together more than 0.75) and every positive radius of at most 800, and all curvature
multipliers of moderate factor, the generator returns a vehicle of five parts with the default names; at every mesh resolution it generates, the
mesh of the bent fuselage is closed up to what rounding the radius to six decimal places loses (so it is closed for radii of at most six
decimal places), the bent wing and the fins have meshes without gaps.  Conversely a straight fuselage is closed only for radii of at most six
decimal places. -/
theorem C109_hifire4 (ptan : ℝ → ℝ) (hT : FloatTan ptan) (h : Heap) (ids : ℕ → ℕ) (hi : Function.Injective ids) (kwargs : Dict String ℝ)
    (p : HIFiRE4.Params) (ha : HIFiRE4Args kwargs p) (hp : HIFiRE4Ok p) :
    ∃ st, HIFiRE4.instanceOf bisect01 ptan h ids kwargs = .ok st ∧
      st.veh.named = [("revolved_1", ids 0), ("wing_1", ids 1), ("fin_1", ids 2), ("fin_2", ids 3), ("fin_3", ids 4)] ∧
      ∀ st0 lib depth, Rescaled st st0 → ∃ st', generate lib depth st0 = (.ok (), st') ∧ HIFiRE4.Meshes p ids st' := by
  obtain ⟨P, q1, q2, q3, q4⟩ := fuse_line hp
  obtain ⟨a, L, e1, s1, t1, c1, y0, y1, yT, l0, l1, bx⟩ := wing_smooth hp hT
  obtain ⟨w, i1, m1⟩ := wing_break a t1 L s1.line l0 l1
  obtain ⟨st, b1, b2, b3, v1, v2, v3, f0, f1, f2, f3, f4⟩ := hifire4_instance ptan h ids hi kwargs p ha P a w q1 e1 i1
  refine ⟨st, b1, by rw [b3]; rfl, fun st0 lib depth hr => ?_⟩
  have hk : ∀ k ∈ curvatures p, (k.direction = "x" ∨ k.direction = "y") ∧ ∀ x y, ∃ f m, k.fn x y = .ok f ∧ k.fn_dash x y = .ok m :=
    bends_total (curvatures_bend hp)
  obtain ⟨n0, o0, r0⟩ : ∃ n : ℕ, 1 ≤ n ∧ st0.heap (ids 0) = { RevolvedComponent P n none with curvatures := some (curvatures p) } := by
    rcases hr.2 (ids 0) with h | ⟨m, hm, h⟩
    · exact ⟨20, by norm_num, by rw [h, f0]⟩
    · exact ⟨m, hm, by rw [h, f0]; rfl⟩
  obtain ⟨n1, o1, r1⟩ : ∃ n : ℕ, 1 ≤ n ∧ st0.heap (ids 1) = bentWing ptan w n none (some "y") true (curvatures p) := by
    rcases hr.2 (ids 1) with h | ⟨m, hm, h⟩
    · exact ⟨3, by norm_num, by rw [h, f1]⟩
    · exact ⟨m, hm, by rw [h, f1]; rfl⟩
  have hfin : ∀ k a, st.heap k = Fin.comp (rounded bisect01) ptan a 3 none → ∃ n : ℕ, 1 ≤ n ∧
      st0.heap k = Fin.comp (rounded bisect01) ptan a n none := by
    intro k a hk
    rcases hr.2 k with h | ⟨m, hm, h⟩
    · exact ⟨3, by norm_num, h.trans hk⟩
    · exact ⟨m, hm, by rw [h, hk]; rfl⟩
  obtain ⟨n2, o2, r2⟩ := hfin _ _ f2
  obtain ⟨n3, o3, r3⟩ := hfin _ _ f3
  obtain ⟨n4, o4, r4⟩ := hfin _ _ f4
  have hv : st0.veh = st.veh := hr.1
  have hcs : st0.veh.components = [ids 0, ids 1, ids 2, ids 3, ids 4] := by rw [hv, b2]; rfl
  have hbend := hp.bend
  obtain ⟨g0, d0, g01, g02, M0, c0', g03, g04⟩ := HIFiRE4.fuse_mesh hp q2 q3 q4 n0 o0 none st0.heap (ids 0) r0
  obtain ⟨g1, d1, g11, g12, M1, c1', g13, g14⟩ := C114_open_wing (rounded bisect01) ptan _ a w L _ _ _ _ _ _ _ _ (curvatures p) i1 s1 m1 c1 y0 y1 yT
    (bx _ m1) (curvatures_bend hp) curvatures_level (by linarith) n1 o1 none st0.heap (ids 1) r1
  obtain ⟨g2, d2, g21, g22, M2, c2', g23, g24⟩ := HIFiRE4.fin_mesh hp hT _ n2 o2 _ st0.heap (ids 2) r2
  obtain ⟨g3, d3, g31, g32, M3, c3', g33, g34⟩ := HIFiRE4.fin_mesh hp hT _ n3 o3 _ st0.heap (ids 3) r3
  obtain ⟨g4, d4, g41, g42, M4, c4', g43, g44⟩ := HIFiRE4.fin_mesh hp hT _ n4 o4 _ st0.heap (ids 4) r4
  have ch : ∀ k ∈ st0.veh.components, (st0.heap k).children = [] := by
    intro k hk
    rw [hcs] at hk
    simp only [List.mem_cons, List.not_mem_nil, or_false] at hk
    rcases hk with rfl | rfl | rfl | rfl | rfl
    · rw [r0]; rfl
    · rw [r1]; rfl
    · rw [r2]; rfl
    · rw [r3]; rfl
    · rw [r4]; rfl
  obtain ⟨st', h1, h2, h3⟩ := generate_parts lib depth st0 (by rw [hv, v1]) (by rw [hv, v2]) (by rw [hv, v3])
    (by
      refine ⟨by rw [hcs]; simp [hi.eq_iff], ?_, ?_⟩
      · intro k _ k' hk'
        rw [ch k' hk']; simp
      · intro k hk k' _ _
        rw [ch k hk]; simp)
    (fun k c => (k = ids 0 → c = d0) ∧ (k = ids 1 → c = d1) ∧ (k = ids 2 → c = d2) ∧ (k = ids 3 → c = d3) ∧ (k = ids 4 → c = d4))
    (by
      intro k hk
      rw [hcs] at hk
      simp only [List.mem_cons, List.not_mem_nil, or_false] at hk
      rcases hk with rfl | rfl | rfl | rfl | rfl
      · exact ⟨g0, d0, g01, g02, by simp [hi.eq_iff]⟩
      · exact ⟨g1, d1, g11, g12, by simp [hi.eq_iff]⟩
      · exact ⟨g2, d2, g21, g22, by simp [hi.eq_iff]⟩
      · exact ⟨g3, d3, g31, g32, by simp [hi.eq_iff]⟩
      · exact ⟨g4, d4, g41, g42, by simp [hi.eq_iff]⟩)
  rw [hcs] at h3
  refine ⟨st', h1, ?_, ?_, ?_⟩
  · rw [(h3 (ids 0) (by simp)).1 rfl]; exact ⟨M0, c0', g03, g04⟩
  · rw [(h3 (ids 1) (by simp)).2.1 rfl]; exact ⟨M1, c1', g13, g14⟩
  · intro i hi2 hi5
    interval_cases i
    · rw [(h3 (ids 2) (by simp)).2.2.1 rfl]; exact ⟨M2, c2', g23, g24⟩
    · rw [(h3 (ids 3) (by simp)).2.2.2.1 rfl]; exact ⟨M3, c3', g33, g34⟩
    · rw [(h3 (ids 4) (by simp)).2.2.2.2 rfl]; exact ⟨M4, c4', g43, g44⟩

/-- The HIFiRE 4 without arguments. -/
noncomputable def hifire4Default : HIFiRE4.Params := ⟨0.3, 0.5, 0.2, 2, 4⟩

theorem hifire4Default_ok : HIFiRE4Args [] hifire4Default ∧ HIFiRE4Ok hifire4Default := by
  constructor
  · constructor <;> first | exact List.nodup_nil | exact .inr ⟨by simp, rfl⟩
  · have hb : hifire4Factor hifire4Default ≤ 45 := by
      unfold hifire4Factor parabolaFactor hifire4Default
      norm_num [abs_of_pos, max_def]
    have hr : round6 (0.2 : ℝ) = 0.2 := by
      unfold round6
      rw [show (0.2 : ℝ) * 10 ^ 6 = ((200000 : ℤ) : ℝ) by norm_num, round_intCast]
      norm_num
    have hl : HIFiRE4.lost hifire4Default = 0 := by
      unfold HIFiRE4.lost
      rw [show hifire4Default.R = 0.2 from rfl, hr, sub_self, abs_zero]
    constructor <;> first | exact hb.trans (by norm_num) | (rw [hl, mul_zero]; exact zero_le_one) | (simp only [hifire4Default]; norm_num)

example (h : Heap) (lib : Lib) (depth : ℕ) : ∃ st st', HIFiRE4.instanceOf bisect01 ieeeTan h id [] = .ok st ∧
    generate lib depth st = (.ok (), st') ∧ (∃ M c', (st'.heap 0).mesh = (.ok M, c') ∧ Closed M.tris) ∧
    ∃ M c', (st'.heap 1).mesh = (.ok M, c') ∧ GapFree (hifire4Factor hifire4Default * 1e-12) M.tris := by
  obtain ⟨st, h1, -, h2⟩ := C109_hifire4 ieeeTan ieeeTan_float h id Function.injective_id [] _ hifire4Default_ok.1 hifire4Default_ok.2
  obtain ⟨st', g1, g2⟩ := h2 st lib depth ⟨rfl, fun k => .inl rfl⟩
  refine ⟨st, st', h1, g1, ?_, g2.wing⟩
  obtain ⟨M, c', k1, k2, -⟩ := g2.fuselage
  refine ⟨M, c', k1, ?_⟩
  have hr : round6 (0.2 : ℝ) = 0.2 := by
    unfold round6
    rw [show (0.2 : ℝ) * 10 ^ 6 = ((200000 : ℤ) : ℝ) by norm_num, round_intCast]
    norm_num
  unfold HIFiRE4.lost at k2
  rw [show hifire4Default.R = 0.2 from rfl, hr, sub_self, abs_zero, mul_zero, closedUpTo_zero] at k2
  exact k2

/-- C109 is violated for the HIFiRE 4: `y_o` rounds the radius of the body to six decimal places, but the base is drawn with the full radius, so
the line of the fuselage ends off the axis.  With radius 0.2000004 and no curvature the generated mesh of the fuselage has a hole. -/
theorem C109_hifire4_violated (h : Heap) (lib : Lib) (depth : ℕ) :
    ∃ (kwargs : Dict String ℝ) (p : HIFiRE4.Params), HIFiRE4Args kwargs p ∧ HIFiRE4Ok p ∧
      ∃ st st', HIFiRE4.instanceOf bisect01 ieeeTan h id kwargs = .ok st ∧ generate lib depth st = (.ok (), st') ∧
        ∃ M c', (st'.heap 0).mesh = (.ok M, c') ∧ ¬ Closed M.tris := by
  have hr : round6 (0.2000004 : ℝ) = 0.2 := by
    unfold round6
    rw [show round ((0.2000004 : ℝ) * 10 ^ 6) = 200000 by rw [round_eq, Int.floor_eq_iff]; norm_num]
    norm_num
  have ha : HIFiRE4Args [("x_curve_mult", 0), ("y_curve_mult", 0), ("R", 0.2000004)] ⟨0, 0, 0.2000004, 2, 4⟩ :=
    ⟨by decide, .inl (by simp), .inl (by simp), .inl (by simp), .inr ⟨by simp, rfl⟩, .inr ⟨by simp, rfl⟩⟩
  have hp : HIFiRE4Ok ⟨0, 0, 0.2000004, 2, 4⟩ := by
    have hf : hifire4Factor ⟨0, 0, 0.2000004, 2, 4⟩ = 25 := by
      unfold hifire4Factor parabolaFactor
      norm_num
    have hl : HIFiRE4.lost ⟨0, 0, 0.2000004, 2, 4⟩ ≤ 5e-7 := round6_near _
    constructor <;> (try rw [hf]) <;> first | (norm_num; done) | linarith
  obtain ⟨st, h1, -, h2⟩ := C109_hifire4 ieeeTan ieeeTan_float h id Function.injective_id _ _ ha hp
  obtain ⟨st', g1, g2⟩ := h2 st lib depth ⟨rfl, fun k => .inl rfl⟩
  obtain ⟨M, c', k1, -, k2⟩ := g2.fuselage
  refine ⟨_, _, ha, hp, st, st', h1, g1, M, c', k1, fun hc => ?_⟩
  have := k2 rfl rfl hc
  simp only [hr] at this
  norm_num at this

end HV
