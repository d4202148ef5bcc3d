import Verif.Props.Hifire4
import Verif.Props.Hifire8Size
import Verif.Props.Merge

/-!
# C155: the fins of the HIFiRE 4 and its wing
-/

namespace HV
open Spec Veh

namespace Spec

/-- The point at the height `z` over the point `x` of the sheet when the sheet is bent into the parabola of coefficient `c` along `x`: it stands
perpendicular on the bent sheet, at the same distance. -/
noncomputable def rolledX (c : ℝ) (u : V) : V :=
  ⟨u.x - u.z * Real.sin (Real.arctan (2 * c * u.x)), u.y, c * u.x ^ 2 + u.z * Real.cos (Real.arctan (2 * c * u.x))⟩

/-- The same across. -/
noncomputable def rolledY (c : ℝ) (u : V) : V :=
  ⟨u.x, u.y - u.z * Real.sin (Real.arctan (2 * c * u.y)), c * u.y ^ 2 + u.z * Real.cos (Real.arctan (2 * c * u.y))⟩

/-- Where the curvatures of the HIFiRE 4 take a point of the flat vehicle. -/
noncomputable def HIFiRE4.bent (p : HIFiRE4.Params) (u : V) : V := rolledY (p.y_curve_mult * 0.1) (rolledX (p.x_curve_mult * 0.05) u)

/-- The box of the flat wing, with the width of its leading edge. -/
def HIFiRE4.InWing (p : HIFiRE4.Params) (u : V) : Prop :=
  -0.9 * (p.L_n + p.L_b) - 0.055 ≤ u.x ∧ u.x ≤ -0.245 ∧ -0.055 ≤ u.y ∧ u.y ≤ 3.5 * p.R + 0.055 ∧ |u.z| ≤ 0.125 * p.R + 1e-12

/-- Every half space that contains the bent box contains the mesh. -/
def HIFiRE4.HullOfBent (p : HIFiRE4.Params) (m : TriMesh ℝ) : Prop :=
  ∀ a b c d : ℝ, (∀ u, HIFiRE4.InWing p u → 0 ≤ a * (HIFiRE4.bent p u).x + b * (HIFiRE4.bent p u).y + c * (HIFiRE4.bent p u).z + d) →
    ∀ v, IsVertex v m → 0 ≤ a * v.x + b * v.y + c * v.z + d

/-- The slope of the line through the feet of a fin. -/
noncomputable def HIFiRE4.footSlope (p : HIFiRE4.Params) : ℝ := 1.64 * (p.x_curve_mult * 0.05) * (p.L_n + p.L_b)

/-- An upright fin (the `z` axis points down): its side at `y`, its foot on the parabola of the bent body, shifted by `z`. -/
structure HIFiRE4.FinAt (p : HIFiRE4.Params) (y z : ℝ) (m : TriMesh ℝ) : Prop where
  within : ∀ v, IsVertex v m → -0.9 * (p.L_n + p.L_b) - 0.25 * p.R - 0.055 ≤ v.x ∧ v.x ≤ -0.74 * (p.L_n + p.L_b) + 0.055 ∧
    |v.y - y| ≤ 0.125 * p.R + 1e-12
  height : 0 ≤ p.x_curve_mult → ∀ v, IsVertex v m → z + p.x_curve_mult * 0.05 * (0.74 * (p.L_n + p.L_b)) ^ 2 - p.R - 0.055 ≤ v.z ∧
    v.z ≤ z - HIFiRE4.footSlope p * v.x - p.x_curve_mult * 0.05 * (0.666 * (p.L_n + p.L_b) ^ 2) + 0.055 * Real.sqrt (1 + HIFiRE4.footSlope p ^ 2)
  feet : ∀ s : ℝ, s = 1 ∨ s = -1 → ∀ k : ℝ, k = 0.9 ∨ k = 0.74 →
    IsVertex ⟨-k * (p.L_n + p.L_b), y + s * (0.125 * p.R), z + p.x_curve_mult * 0.05 * (k * (p.L_n + p.L_b)) ^ 2⟩ m
  top : ∀ s : ℝ, s = 1 ∨ s = -1 →
    IsVertex ⟨-0.9 * (p.L_n + p.L_b), y + s * (0.125 * p.R), z + p.x_curve_mult * 0.05 * (0.9 * (p.L_n + p.L_b)) ^ 2 - p.R⟩ m

/-- Where the parts of a generated HIFiRE 4 are. -/
structure HIFiRE4.Placed (p : HIFiRE4.Params) (ids : ℕ → ℕ) (st' : VState) : Prop where
  wing : ∃ M c' m, (st'.heap (ids 1)).mesh = (.ok M, c') ∧ M.tris = m ++ mapVerts (mirrorV 1) m ∧ HIFiRE4.HullOfBent p m ∧
    ∀ s : ℝ, s = 1 ∨ s = -1 → IsVertex (HIFiRE4.bent p ⟨-0.9 * (p.L_n + p.L_b), s * (3.5 * p.R), 0⟩) M.tris
  right : ∃ M c', (st'.heap (ids 2)).mesh = (.ok M, c') ∧ HIFiRE4.FinAt p (3.5 * p.R) 0 M.tris
  left : ∃ M c', (st'.heap (ids 3)).mesh = (.ok M, c') ∧ HIFiRE4.FinAt p (-(3.5 * p.R)) 0 M.tris
  middle : ∃ M c', (st'.heap (ids 4)).mesh = (.ok M, c') ∧ HIFiRE4.FinAt p 0 (-(0.95 * p.R)) M.tris

end Spec

theorem bent_wing_hull {find : (ℝ → Res ℝ) → Res ℝ} {ptan : ℝ → ℝ} {D : ℝ → ℝ → Prop} {a : Wing.Args} {w : Wing.State} {L : ℝ → V}
    {ht hb : ℝ → ℝ → ℝ} {wd : ℝ → ℝ} {ε W X Y Z : ℝ} {l : List Curvature} (hw : Wing.init find a = .ok w) (hs : SmoothWing ptan D a L ht hb wd ε)
    (hf : FlatPlanform a L wd W) (h1 : w.t_B1 ∈ Set.Icc (0 : ℝ) 1) (hc : a.close_wing = false) (r0 : a.A0.y = 0) (r1 : a.A1.y = 0) (rT : a.TT.y = 0)
    (hX : WingBox a L ht hb wd w.t_B1 X Y Z)
    (hl : ∀ k ∈ l, (k.direction = "x" ∨ k.direction = "y") ∧ ∀ x y, ∃ f m, k.fn x y = .ok f ∧ k.fn_dash x y = .ok m)
    (n : ℕ) (hn : 1 ≤ n) (name : Option String) (H : Heap) (id : ℕ) (hid : H id = bentWing ptan w n name (some "y") true l) :
    ∃ g c, generatePatches H id = (.ok (), g) ∧ pipeline 0 (g id) = (.ok (), c) ∧ ∃ M c' m, c.mesh = (.ok M, c') ∧
      M.tris = m ++ mapVerts (mirrorV 1) m ∧
      (∀ α β γ δ : ℝ, (∀ u, WithinWing D a ht hb W ε u → 0 ≤ aff α β γ δ (curveAll l u)) → ∀ v, IsVertex v m → 0 ≤ aff α β γ δ v) ∧
      IsVertex (curveAll l (flapEnd a ht hb a.A0)) m ∧ IsVertex (curveAll l (flapEnd a ht hb a.B0)) m := by
  obtain ⟨ha, t2, hok⟩ := smoothWing_ok hw hs h1
  subst ha
  obtain ⟨ls, Gs, hst, hG, -⟩ := wing_glued_open hok n hn (wingBox_in hok hX) hc r0 r1 rT
  obtain ⟨g, g1, -, g2⟩ := bent_wing hn hst hG hl H id hid
  obtain ⟨c, M, c'', k1, k2, k3⟩ := g2 rfl
  obtain ⟨i1, i2, i3, i4, i5⟩ := wing_items hst
  obtain ⟨h', M', c', f1, -, f2, f3⟩ := generated_mesh (fun _ => Wing.comp ptan w n none) 0 _ rfl n hn rfl rfl rfl rfl rfl i1 (by rw [i2]; exact i3) (by rw [i2]; exact i4)
    Gs (by rw [i2]; exact hG)
  obtain ⟨h'', M'', c''', e1, e2, e3⟩ := C140_wing find ptan D _ w L ht hb wd W ε hw hs hf h1 n hn none (fun _ => Wing.comp ptan w n none) 0 rfl
  rw [f1] at e1
  obtain rfl := (Prod.mk.inj e1).2
  rw [f2] at e2
  obtain rfl := Except.ok.inj (Prod.mk.inj e2).1
  have flat : ∀ G ∈ Gs, ∀ i ≤ n, ∀ j ≤ n, WithinWing D w.args ht hb W ε (G i j) := by
    intro G hG i hi j hj
    refine e3.within _ ?_
    rw [f3, isVertex_flatten]
    exact ⟨_, List.mem_map.2 ⟨G, hG, rfl⟩, gridMesh_vertex n n G i j hn hn hi hj⟩
  have zB : w.args.B0.z = 0 := by rw [← hok.L0]; exact hf.zL 0 ⟨le_rfl, zero_le_one⟩
  have hn0 : (n : ℝ) ≠ 0 := by positivity
  obtain ⟨F0, F1, hfl, vf⟩ := wing_flap_at hok.toWingBase
  have hmem : ("TE_top_patch", F0) ∈ ls.flatten := by
    obtain ⟨x, hx, e⟩ := exists_of_mem hst (show Wing.flap w ∈ Wing.stages ptan w by simp [Wing.stages])
    rw [hfl] at e
    obtain rfl := Except.ok.inj e
    exact List.mem_flatten.2 ⟨_, hx, by simp⟩
  obtain ⟨G, hG1, hG2⟩ := exists_of_mem hG hmem
  dsimp only at hG2
  have node : ∀ i ≤ n, ∀ j ≤ n, IsVertex (curveAll l (G i j)) ((Gs.map fun G i j => curveAll l (G i j)).map (gridMesh MeshArith.real false n n)).flatten := by
    intro i hi j hj
    rw [isVertex_flatten]
    exact ⟨_, List.mem_map.2 ⟨_, List.mem_map.2 ⟨G, hG1, rfl⟩, rfl⟩, gridMesh_vertex n n _ i j hn hn hi hj⟩
  refine ⟨g, c, g1, k1, M, c'', _, k2, by rw [k3, if_pos rfl], ?_, ?_, ?_⟩
  · intro α β γ δ hK v hv
    rw [isVertex_flatten] at hv
    obtain ⟨m, hm, hv⟩ := hv
    obtain ⟨G', hG', rfl⟩ := List.mem_map.1 hm
    obtain ⟨G, hG, rfl⟩ := List.mem_map.1 hG'
    refine grid_keeps n _ (fun v => 0 ≤ aff α β γ δ v) ?_ (fun i hi j hj => hK _ (flat G hG i hi j hj)) v hv
    intro p q r s hp hq hr hs
    rw [aff_centre]
    linarith
  · have := node 0 (Nat.zero_le _) 0 (Nat.zero_le _)
    have e := hG2 0 (Nat.zero_le _) 0 (Nat.zero_le _)
    rw [Nat.cast_zero, zero_div, (vf 0 ⟨le_rfl, zero_le_one⟩ 0 ⟨le_rfl, zero_le_one⟩).1, lineAt_zero, lineAt_zero] at e
    rw [← Except.ok.inj e] at this
    convert this using 2
    simp only [flapEnd, flapTip, midH, hf.z0, zero_add]
  · have := node n le_rfl 0 (Nat.zero_le _)
    have e := hG2 n le_rfl 0 (Nat.zero_le _)
    rw [Nat.cast_zero, zero_div, div_self hn0, (vf 1 ⟨zero_le_one, le_rfl⟩ 0 ⟨le_rfl, zero_le_one⟩).1, lineAt_zero, lineAt_one] at e
    rw [← Except.ok.inj e] at this
    convert this using 2
    simp only [flapEnd, flapTip, midH, zB, zero_add]

namespace HIFiRE4
variable {p : Params}

theorem bent_eq (u : V) : curveAll (curvatures p) u = HIFiRE4.bent p u := by
  simp only [curveAll, curvatures, List.foldl_cons, List.foldl_nil, HIFiRE4.bent]
  have e : curvePt ⟨"x", fun x y => .ok (curvX p x y), fun x y => .ok (curvXd p x y)⟩ u = rolledX (p.x_curve_mult * 0.05) u := by
    rw [curvePt_x _ rfl u _ _ rfl rfl]
    simp only [rolledX, curvX, curvXd, show p.x_curve_mult * 0.05 * 2 * u.x = 2 * (p.x_curve_mult * 0.05) * u.x by ring]
    rw [add_comm]
  rw [e, curvePt_y _ rfl _ _ _ rfl rfl]
  simp only [rolledY, curvY, curvYd]
  rw [show p.y_curve_mult * 0.1 * 2 * (rolledX (p.x_curve_mult * 0.05) u).y = 2 * (p.y_curve_mult * 0.1) * (rolledX (p.x_curve_mult * 0.05) u).y by ring]

theorem bent_mirror (u : V) : HIFiRE4.bent p ⟨u.x, -u.y, u.z⟩ = mirrorV 1 (HIFiRE4.bent p u) := by
  simp only [HIFiRE4.bent, rolledX, rolledY, mirrorV]
  have e : 2 * (p.y_curve_mult * 0.1) * -u.y = -(2 * (p.y_curve_mult * 0.1) * u.y) := by ring
  rw [e, Real.arctan_neg, Real.sin_neg, Real.cos_neg]
  ext <;> simp <;> ring

/-! ## The wing -/

theorem wing_planform (hp : HIFiRE4Ok p) {ptan : ℝ → ℝ} (hT : FloatTan ptan) : ∃ a L, wingArgs p = .ok a ∧
    SmoothWing ptan (fun x y => (-0.8 * (p.L_n + p.L_b) ≤ x ∧ x ≤ -0.3 ∧ 0 ≤ y) ∧ y ≤ 3.5 * p.R) a L (fun _ _ => -(0.125 * p.R))
      (fun _ _ => 0.125 * p.R) lw 1e-12 ∧ FlatPlanform a L lw 0.055 ∧
    a.t_B1 = none ∧ a.close_wing = false ∧ (L 0).x ≤ a.A1.x ∧ a.A1.x ≤ (L 1).x ∧ a.A0 = A0 p ∧ a.A1 = A1 p ∧ a.TT = TT p ∧ a.B0 = B0 p ∧
    a.flap_length = 0.1 * (p.L_n + p.L_b) ∧ a.flap_angle = 0 ∧
    ∀ t1 ∈ Set.Icc (0 : ℝ) 1, WingBox a L (fun _ _ => -(0.125 * p.R)) (fun _ _ => 0.125 * p.R) lw t1 (p.L_n + p.L_b + 1) (4 * p.R + 1) (p.L_n + p.L_b + p.R) := by
  have hR := hp.radius
  have hl := hp.length
  have hlt : L_t p = p.L_n + p.L_b := rfl
  have hd : ∀ e ∈ [(B0 p, B1 p), (B1 p, B2 p), (B2 p, TT p)], e.1 ≠ e.2 := by
    intro e he
    simp only [List.mem_cons, List.not_mem_nil, or_false] at he
    rcases he with rfl | rfl | rfl <;> intro hc
    · have := congrArg Vec.x hc; simp only [B0, B1, A1, wing_L] at this; linarith
    · have := congrArg Vec.x hc; simp only [B1, B2, A1, A0, TT, wing_L] at this; linarith
    · have := congrArg Vec.y hc; simp only [B2, TT, wing_span] at this; linarith
  have hj : ∀ (i : ℕ) (hi : i + 1 < [(B0 p, B1 p), (B1 p, B2 p), (B2 p, TT p)].length),
      ([(B0 p, B1 p), (B1 p, B2 p), (B2 p, TT p)][i]'(by omega)).2 = ([(B0 p, B1 p), (B1 p, B2 p), (B2 p, TT p)][i + 1]'hi).1 := by
    intro i hi
    simp only [List.length_cons, List.length_nil] at hi
    obtain rfl | rfl : i = 0 ∨ i = 1 := by omega
    all_goals rfl
  obtain ⟨P, h1, h2, -⟩ := lines_edge _ (by simp) hd hj
  obtain ⟨h3, h4, hm, hz⟩ := X43.edge_mono (by simp) hd hj
    (by
      intro e he
      simp only [List.mem_cons, List.not_mem_nil, or_false] at he
      rcases he with rfl | rfl | rfl <;> simp only [B0, B1, B2, A1, A0, TT, wing_L] <;> linarith)
    (by
      intro e he
      simp only [List.mem_cons, List.not_mem_nil, or_false] at he
      rcases he with rfl | rfl | rfl <;> simp only [B0, B1, B2, TT, wing_span] <;> linarith)
    (by
      intro e he
      simp only [List.mem_cons, List.not_mem_nil, or_false] at he
      rcases he with rfl | rfl | rfl <;> exact ⟨rfl, rfl⟩) h1 h2
  obtain ⟨a, L, e, s, b1, b2, b3, b4, b5, b6, b7, bx⟩ := wing_smooth hp hT
  simp only [List.map_cons, List.map_nil] at h1
  simp only [List.head_cons, List.getLast_cons, List.getLast_singleton, ne_eq, reduceCtorEq, not_false_eq_true, List.cons_ne_nil] at h3 h4
  have ea : a.A0 = A0 p ∧ a.A1 = A1 p ∧ a.TT = TT p ∧ a.B0 = B0 p ∧ a.line = P ∧ a.flap_length = flap_length p ∧ a.flap_angle = deg2rad 0 ∧
      a.top_tf = uniformThickness (wing_thickness p) "top" ∧ a.bot_tf = uniformThickness (wing_thickness p) "bot" := by
    unfold wingArgs at e
    rw [h1, ok_bind] at e
    obtain rfl := Except.ok.inj e
    exact ⟨rfl, rfl, rfl, rfl, rfl, rfl, rfl, rfl, rfl⟩
  obtain ⟨q0, q1, qT, qB, qP, qf, qa, qt, qb⟩ := ea
  have eL : L = fnOf P := by
    funext t
    have k1 := s.line t
    rw [qP] at k1
    exact Except.ok.inj (k1.symm.trans (h2 t))
  subst eL
  refine ⟨a, fnOf P, e, ⟨s.like, s.ty, s.le, s.tail, s.breaks, s.line, s.L0, s.L1, ?_, ?_, ?_, s.given, s.width, s.thick, s.wpos, s.fits, s.gap⟩,
    ⟨by rw [q0]; rfl, by rw [q1]; rfl, hz, fun t ht => (lw_mem ht).2⟩, b1, b2, b6, b7, q0, q1, qT, qB, qf, by rw [qa]; simp [deg2rad], bx⟩
  · rw [qt]
    exact fun x y z _ => by simp [uniformThickness, wing_thickness]; ring
  · rw [qb]
    exact fun x y z _ => by simp [uniformThickness, wing_thickness]; ring
  · rw [q0, q1]
    refine (liesOver_box hm _ _ ?_ ?_ ?_ ?_ le_rfl le_rfl ?_).and (liesOver_low hm rfl rfl ?_ _ ?_)
    · rw [h3]; simp only [B0, A0, wing_L, hlt]; linarith
    · rw [h4]; simp only [TT, A0, wing_L, hlt]; linarith
    · simp only [A0, wing_L, hlt]; constructor <;> linarith
    · simp only [A1, A0, wing_L, hlt]; constructor <;> linarith
    · rw [h4]; simp [TT]
    · rw [h4]; simp [TT]
    · rw [h3]; simp [B0, wing_span]

/-- The mesh of the wing. -/
theorem wing_placed (hp : HIFiRE4Ok p) {ptan : ℝ → ℝ} (hT : FloatTan ptan) : ∃ a w, wingArgs p = .ok a ∧ Wing.init (rounded bisect01) a = .ok w ∧
    ∀ (n : ℕ), 1 ≤ n → ∀ (name : Option String) (H : Heap) (id : ℕ), H id = bentWing ptan w n name (some "y") true (curvatures p) →
    ∃ g c, generatePatches H id = (.ok (), g) ∧ pipeline 0 (g id) = (.ok (), c) ∧ ∃ M c' m, c.mesh = (.ok M, c') ∧
      M.tris = m ++ mapVerts (mirrorV 1) m ∧ HIFiRE4.HullOfBent p m ∧
      ∀ s : ℝ, s = 1 ∨ s = -1 → IsVertex (HIFiRE4.bent p ⟨-0.9 * (p.L_n + p.L_b), s * (3.5 * p.R), 0⟩) M.tris := by
  have hR := hp.radius
  have hl := hp.length
  have hlt : L_t p = p.L_n + p.L_b := rfl
  obtain ⟨a, L, e, s, f, t1, c1, l0, l1, q0, q1, qT, qB, qf, qa, bx⟩ := wing_planform hp hT
  obtain ⟨w, i1, m1⟩ := wing_break a t1 L s.line l0 l1
  refine ⟨a, w, e, i1, fun n hn name H id hid => ?_⟩
  obtain ⟨g, c, g1, g2, M, c', m, g3, g4, g5, -, g6⟩ := bent_wing_hull i1 s f m1 c1 (by rw [q0]; rfl) (by rw [q1]; rfl) (by rw [qT]; rfl) (bx _ m1)
    (bends_total (curvatures_bend hp)) n hn name H id hid
  have tip : ∀ k : V, k = A0 p ∨ k = B0 p → flapEnd a (fun _ _ => -(0.125 * p.R)) (fun _ _ => 0.125 * p.R) k = ⟨-0.9 * (p.L_n + p.L_b), k.y, 0⟩ := by
    rintro k (rfl | rfl) <;> simp only [flapEnd, qf, qa, Real.cos_zero, Real.sin_zero, A0, B0, wing_L, hlt] <;> ext <;> simp <;> ring
  refine ⟨g, c, g1, g2, M, c', m, g3, g4, ?_, ?_⟩
  · intro α β γ δ hK v hv
    refine g5 α β γ δ (fun u hu => ?_) v hv
    rw [bent_eq]
    refine hK u ?_
    obtain ⟨b1, b2, b3, b4, b5, b6⟩ := hu.box (x0 := -0.9 * (p.L_n + p.L_b)) (x1 := -0.3) (y0 := 0) (y1 := 3.5 * p.R) (z0 := -(0.125 * p.R)) (z1 := 0.125 * p.R) (by
      rintro q (⟨⟨⟨k1, k2, k3⟩, k4⟩, hz⟩ | rfl | rfl)
      · refine ⟨by linarith, k2, k3, k4, ?_⟩
        rcases hz with hz | hz <;> rw [hz] <;> constructor <;> linarith
      · rw [tip _ (.inl q0)]
        simp only [q0, A0]
        refine ⟨?_, ?_, ?_, ?_, ?_, ?_⟩ <;> linarith
      · rw [tip _ (.inr qB)]
        simp only [qB, B0, wing_span]
        refine ⟨?_, ?_, ?_, ?_, ?_, ?_⟩ <;> linarith)
    exact ⟨b1, by linarith, by linarith, b4, abs_le.2 ⟨by linarith, b6⟩⟩
  · rw [tip _ (.inr qB), bent_eq, qB] at g6
    rintro s (rfl | rfl)
    · rw [g4, one_mul]
      exact right_of g6
    · have := bent_mirror (p := p) ⟨-0.9 * (p.L_n + p.L_b), 3.5 * p.R, 0⟩
      rw [neg_one_mul, this, g4]
      exact left_of g6

/-! ## The fins -/

theorem fin_placed (hp : HIFiRE4Ok p) {ptan : ℝ → ℝ} (hT : FloatTan ptan) (off : V) (n : ℕ) (hn : 1 ≤ n) (h0 : off.x = 0)
    (name : Option String) (H : Heap) (id : ℕ) (hid : H id = Fin.comp (rounded bisect01) ptan (finArgs p off) n name) :
    ∃ g c, generatePatches H id = (.ok (), g) ∧ pipeline 0 (g id) = (.ok (), c) ∧
      ∃ M c', c.mesh = (.ok M, c') ∧ HIFiRE4.FinAt p off.y off.z M.tris := by
  have hR := hp.radius
  have hl := hp.length
  have hlt : L_t p = p.L_n + p.L_b := rfl
  obtain ⟨hu, hb⟩ := fin_uniform hp hT off
  set Lt := p.L_n + p.L_b with hLt
  set c := p.x_curve_mult * 0.05 with hc
  have c0 : (finArgs p off).p0 = ⟨-(0.9 * Lt), -(c * (0.9 * Lt) ^ 2), 0⟩ := by
    simp only [finArgs, shifted, flat0, A0, wing_L, flap_length, hlt, curvX]
    ext <;> simp <;> ring
  have c1 : (finArgs p off).p1 = ⟨-(0.9 * Lt), p.R - c * (0.9 * Lt) ^ 2, 0⟩ := by
    simp only [finArgs, shifted, flat1, flat0, A0, wing_L, flap_length, hlt, curvX]
    ext <;> simp <;> ring
  have c2 : (finArgs p off).p2 = ⟨-(0.82 * Lt), 0.5 * p.R - c * (0.82 * Lt) ^ 2, 0⟩ := by
    simp only [finArgs, shifted, flat2, flat1, flat0, A0, wing_L, fin_length, flap_length, hlt, curvX]
    ext <;> simp <;> ring
  have c3 : (finArgs p off).p3 = ⟨-(0.74 * Lt), -(c * (0.74 * Lt) ^ 2), 0⟩ := by
    simp only [finArgs, shifted, flat3, flat0, A0, wing_L, fin_length, flap_length, hlt, curvX]
    ext <;> simp <;> ring
  have e : (finArgs p off).fin_thickness = 0.25 * p.R := rfl
  have hf : FlatOutline (finArgs p off) 0.055 := by
    refine ⟨by rw [c0], by rw [c1], by rw [c2], by rw [c3], ?_⟩
    intro t ht w hw
    have : leadingEdgeWidth t = .ok w := hw
    rw [leadingEdgeWidth_eq] at this
    obtain rfl := Except.ok.inj this
    exact (lw_mem ht).2
  obtain ⟨h', M, c', g1, g2, g3, g4, -⟩ := C139_fin (rounded bisect01) ptan _ 0.01 0.055 6e-7 _ roundedBisect_finds hu hf
    (by rw [c1, c2, c3]; simp only; nlinarith) n hn name H id hid
  obtain ⟨P, R, S, hopt⟩ := generatePatches_opts H id (by rw [hid]; simp [Comp.children, Fin.comp])
  rw [g1, hid] at hopt
  simp only at hopt
  have mv : ∀ u, finMove (finArgs p off) off u = ⟨u.x, off.y + u.z, off.z - u.y⟩ := by
    intro u
    rw [finMove_plain _ _ _ rfl]
    have : deg2rad (-90) = -(Real.pi / 2) := by unfold deg2rad; ring
    simp only [rotAbout, finArgs, this, Real.cos_neg, Real.sin_neg, Real.cos_pi_div_two, Real.sin_pi_div_two]
    ext <;> simp [h0] <;> ring
  have hh : finHalfHeight (finArgs p off) = 0.125 * p.R := by
    unfold finHalfHeight
    have : (finArgs p off).rudder_angle = 0 := rfl
    rw [if_pos (by rfl), e, this, Real.sin_zero, mul_zero, abs_zero, max_eq_left (by linarith)]; ring
  have gap := hT.gap ((finArgs p off).fin_thickness / 2) 0.01 (by rw [e]; linarith) (by rw [e]; linarith [hp.large]) (by norm_num)
  have corners : finCorners (finArgs p off) = [⟨-(0.9 * Lt), -(c * (0.9 * Lt) ^ 2), 0⟩, ⟨-(0.9 * Lt), p.R - c * (0.9 * Lt) ^ 2, 0⟩,
      ⟨-(0.82 * Lt), 0.5 * p.R - c * (0.82 * Lt) ^ 2, 0⟩, ⟨-(0.74 * Lt), -(c * (0.74 * Lt) ^ 2), 0⟩,
      ⟨-(0.9 * Lt) - 0.25 * p.R, -(c * (0.9 * Lt) ^ 2), 0⟩, ⟨-(0.9 * Lt) - 0.25 * p.R, p.R - c * (0.9 * Lt) ^ 2, 0⟩] := by
    unfold finCorners
    have r1 : (finArgs p off).rudder_angle = 0 := rfl
    have r2 : (finArgs p off).rudder_length = 0.25 * p.R := rfl
    rw [if_pos (by rfl), c0, c1, c2, c3, r1, r2, Real.sin_zero, mul_zero]
    rfl
  refine ⟨h', h' id, g1, pipeline_plain _ (by rw [hopt]; rfl) (by rw [hopt]; rfl) (by rw [hopt]; rfl) (by rw [hopt]; rfl), M, c', g2, ?_, ?_, ?_, ?_⟩
  · intro v hv
    obtain ⟨u, rfl, hu1, hu2⟩ := g3 v hv
    rw [hh] at hu1
    rw [mv]
    have k1 := hu2 (-1) 0 (0.9 * Lt + 0.25 * p.R) (by norm_num) (fun q hq => by
      rw [corners] at hq
      simp only [List.mem_cons, List.not_mem_nil, or_false] at hq
      rcases hq with rfl | rfl | rfl | rfl | rfl | rfl <;> simp only <;> linarith)
    have k2 := hu2 1 0 (-(0.74 * Lt)) (by norm_num) (fun q hq => by
      rw [corners] at hq
      simp only [List.mem_cons, List.not_mem_nil, or_false] at hq
      rcases hq with rfl | rfl | rfl | rfl | rfl | rfl <;> simp only <;> linarith)
    refine ⟨by simp only; linarith, by simp only; linarith, ?_⟩
    simp only [add_sub_cancel_left]
    linarith
  · intro hx v hv
    have hc0 : 0 ≤ c := by rw [hc]; linarith
    obtain ⟨u, rfl, hu1, hu2⟩ := g3 v hv
    rw [mv]
    have hsl : HIFiRE4.footSlope p = 1.64 * c * Lt := rfl
    set k := HIFiRE4.footSlope p with hk
    have hr : 0 < Real.sqrt (1 + k ^ 2) := Real.sqrt_pos.2 (by positivity)
    have hsq : Real.sqrt (1 + k ^ 2) ^ 2 = 1 + k ^ 2 := Real.sq_sqrt (by positivity)
    set r := Real.sqrt (1 + k ^ 2)
    have hk0 : 0 ≤ k := by rw [hsl]; positivity
    have hcl : 0 ≤ c * Lt ^ 2 := by positivity
    have k1 := hu2 0 1 (p.R - c * (0.74 * Lt) ^ 2) (by norm_num) (fun q hq => by
      rw [corners] at hq
      simp only [List.mem_cons, List.not_mem_nil, or_false] at hq
      rcases hq with rfl | rfl | rfl | rfl | rfl | rfl <;> simp only <;> linarith)
    have k2 := hu2 (k / r) (-1 / r) (-(0.666 * (c * Lt ^ 2)) / r) (by
        rw [div_pow, div_pow, hsq, ← add_div]; rw [div_eq_one_iff_eq (by positivity)]; ring) (fun q hq => by
      have : k * q.x - q.y ≤ -(0.666 * (c * Lt ^ 2)) := by
        have e2 : k * Lt = 1.64 * (c * Lt ^ 2) := by rw [hsl]; ring
        have e3 : 0 ≤ k * p.R := by positivity
        rw [corners] at hq
        simp only [List.mem_cons, List.not_mem_nil, or_false] at hq
        rcases hq with rfl | rfl | rfl | rfl | rfl | rfl <;> simp only <;> linarith
      have := div_le_div_of_nonneg_right this hr.le
      calc k / r * q.x + -1 / r * q.y = (k * q.x - q.y) / r := by ring
        _ ≤ _ := this)
    have e1 : k / r * u.x + -1 / r * u.y = (k * u.x - u.y) / r := by ring
    rw [e1, div_le_iff₀ hr, add_mul, div_mul_cancel₀ _ hr.ne'] at k2
    constructor
    · show off.z + c * (0.74 * Lt) ^ 2 - p.R - 0.055 ≤ off.z - u.y
      linarith
    · show off.z - u.y ≤ off.z - k * u.x - c * (0.666 * Lt ^ 2) + 0.055 * r
      linarith
  · have key : ∀ q : V, q ∈ [(finArgs p off).p0, (finArgs p off).p1, (finArgs p off).p2, (finArgs p off).p3] →
        ∀ x y, q = ⟨x, y, 0⟩ → ∀ s : ℝ, s = 1 ∨ s = -1 → IsVertex ⟨x, off.y + s * (0.125 * p.R), off.z - y⟩ M.tris := by
      rintro q hq x y rfl s hs
      have := g4 _ hq
      rw [mv, mv, e] at this
      rcases hs with rfl | rfl
      · convert this.1 using 2 <;> simp <;> ring
      · convert this.2 using 2 <;> simp <;> ring
    rintro s hs k (rfl | rfl)
    · convert key _ (by simp) _ _ c0 s hs using 2 <;> ring
    · convert key _ (by simp) _ _ c3 s hs using 2 <;> ring
  · have key : ∀ s : ℝ, s = 1 ∨ s = -1 → IsVertex ⟨-(0.9 * Lt), off.y + s * (0.125 * p.R), off.z - (p.R - c * (0.9 * Lt) ^ 2)⟩ M.tris := by
      rintro s hs
      have := g4 _ (show (finArgs p off).p1 ∈ _ by simp)
      rw [mv, mv, e, c1] at this
      rcases hs with rfl | rfl
      · convert this.1 using 2 <;> simp <;> ring
      · convert this.2 using 2 <;> simp <;> ring
    intro s hs
    convert key s hs using 2 <;> ring

end HIFiRE4

open HIFiRE4 in
theorem hifire4_placed (ptan : ℝ → ℝ) (hT : FloatTan ptan) (h : Heap) (ids : ℕ → ℕ) (hi : Function.Injective ids) (kwargs : Dict String ℝ)
    (p : HIFiRE4.Params) (ha : HIFiRE4Args kwargs p) (hp : HIFiRE4Ok p) :
    ∃ st, HIFiRE4.instanceOf bisect01 ptan h ids kwargs = .ok st ∧
      st.veh.named = [("revolved_1", ids 0), ("wing_1", ids 1), ("fin_1", ids 2), ("fin_2", ids 3), ("fin_3", ids 4)] ∧
      ∀ st0 lib depth, Rescaled st st0 → ∃ st', generate lib depth st0 = (.ok (), st') ∧ HIFiRE4.Placed p ids st' := by
  obtain ⟨P, q1, q2, q3, q4⟩ := fuse_line hp
  obtain ⟨a, w, e1, i1, hwing⟩ := wing_placed hp hT
  obtain ⟨st, b1, b2, b3, v1, v2, v3, f0, f1, f2, f3, f4⟩ := hifire4_instance ptan h ids hi kwargs p ha P a w q1 e1 i1
  refine ⟨st, b1, by rw [b3]; rfl, fun st0 lib depth hr => ?_⟩
  obtain ⟨n0, o0, r0⟩ : ∃ n : ℕ, 1 ≤ n ∧ st0.heap (ids 0) = { RevolvedComponent P n none with curvatures := some (curvatures p) } := by
    rcases hr.2 (ids 0) with h | ⟨m, hm, h⟩
    · exact ⟨20, by norm_num, by rw [h, f0]⟩
    · exact ⟨m, hm, by rw [h, f0]; rfl⟩
  obtain ⟨n1, o1, r1⟩ : ∃ n : ℕ, 1 ≤ n ∧ st0.heap (ids 1) = bentWing ptan w n none (some "y") true (curvatures p) := by
    rcases hr.2 (ids 1) with h | ⟨m, hm, h⟩
    · exact ⟨3, by norm_num, by rw [h, f1]⟩
    · exact ⟨m, hm, by rw [h, f1]; rfl⟩
  have hfin : ∀ k a, st.heap k = Fin.comp (rounded bisect01) ptan a 3 none → ∃ n : ℕ, 1 ≤ n ∧
      st0.heap k = Fin.comp (rounded bisect01) ptan a n none := by
    intro k a hk
    rcases hr.2 k with h | ⟨m, hm, h⟩
    · exact ⟨3, by norm_num, h.trans hk⟩
    · exact ⟨m, hm, by rw [h, hk]; rfl⟩
  obtain ⟨n2, o2, r2⟩ := hfin _ _ f2
  obtain ⟨n3, o3, r3⟩ := hfin _ _ f3
  obtain ⟨n4, o4, r4⟩ := hfin _ _ f4
  have hv : st0.veh = st.veh := hr.1
  have hcs : st0.veh.components = [ids 0, ids 1, ids 2, ids 3, ids 4] := by rw [hv, b2]; rfl
  obtain ⟨g0, d0, g01, g02, -⟩ := HIFiRE4.fuse_mesh hp q2 q3 q4 n0 o0 none st0.heap (ids 0) r0
  obtain ⟨g1, d1, g11, g12, M1, c1', m1, g13, g14, g15, g16⟩ := hwing n1 o1 none st0.heap (ids 1) r1
  obtain ⟨g2, d2, g21, g22, M2, c2', g23, g24⟩ := HIFiRE4.fin_placed hp hT _ n2 o2 rfl _ st0.heap (ids 2) r2
  obtain ⟨g3, d3, g31, g32, M3, c3', g33, g34⟩ := HIFiRE4.fin_placed hp hT _ n3 o3 rfl _ st0.heap (ids 3) r3
  obtain ⟨g4, d4, g41, g42, M4, c4', g43, g44⟩ := HIFiRE4.fin_placed hp hT _ n4 o4 rfl _ st0.heap (ids 4) r4
  have ch : ∀ k ∈ st0.veh.components, (st0.heap k).children = [] := by
    intro k hk
    rw [hcs] at hk
    simp only [List.mem_cons, List.not_mem_nil, or_false] at hk
    rcases hk with rfl | rfl | rfl | rfl | rfl
    · rw [r0]; rfl
    · rw [r1]; rfl
    · rw [r2]; rfl
    · rw [r3]; rfl
    · rw [r4]; rfl
  obtain ⟨st', h1, h2, h3⟩ := generate_parts lib depth st0 (by rw [hv, v1]) (by rw [hv, v2]) (by rw [hv, v3])
    (by
      refine ⟨by rw [hcs]; simp [hi.eq_iff], ?_, ?_⟩
      · intro k _ k' hk'
        rw [ch k' hk']; simp
      · intro k hk k' _ _
        rw [ch k hk]; simp)
    (fun k c => (k = ids 0 → c = d0) ∧ (k = ids 1 → c = d1) ∧ (k = ids 2 → c = d2) ∧ (k = ids 3 → c = d3) ∧ (k = ids 4 → c = d4))
    (by
      intro k hk
      rw [hcs] at hk
      simp only [List.mem_cons, List.not_mem_nil, or_false] at hk
      rcases hk with rfl | rfl | rfl | rfl | rfl
      · exact ⟨g0, d0, g01, g02, by simp [hi.eq_iff]⟩
      · exact ⟨g1, d1, g11, g12, by simp [hi.eq_iff]⟩
      · exact ⟨g2, d2, g21, g22, by simp [hi.eq_iff]⟩
      · exact ⟨g3, d3, g31, g32, by simp [hi.eq_iff]⟩
      · exact ⟨g4, d4, g41, g42, by simp [hi.eq_iff]⟩)
  rw [hcs] at h3
  refine ⟨st', h1, ?_, ?_, ?_, ?_⟩
  · rw [(h3 (ids 1) (by simp)).2.1 rfl]; exact ⟨M1, c1', m1, g13, g14, g15, g16⟩
  · rw [(h3 (ids 2) (by simp)).2.2.1 rfl]; exact ⟨M2, c2', g23, g24⟩
  · rw [(h3 (ids 3) (by simp)).2.2.2.1 rfl]; exact ⟨M3, c3', g33, g34⟩
  · rw [(h3 (ids 4) (by simp)).2.2.2.2 rfl]
    refine ⟨M4, c4', g43, ?_⟩
    have e : (offset3 p).z = -(0.95 * p.R) := by simp [offset3]
    rw [e] at g44
    exact g44

/-- C155, in part: for all sensible dimensions and at every resolution the wing of the generated HIFiRE 4 lies in every half space that contains the bent
box of the flat wing, and has the bent tips of its flap as vertices; the fins stand upright, the outer ones at the span of the flat wing, the third in the
plane of symmetry, with their feet on the parabola into which the body is bent lengthwise, as high as the radius.  Without curvature across, the tips of the
flap are the middles of the rear feet of the outer fins.  Missing: the fins do not follow the curvature across, see `C155_floating_fins_violated`. -/
theorem C155_hifire4_partial (ptan : ℝ → ℝ) (hT : FloatTan ptan) (h : Heap) (ids : ℕ → ℕ) (hi : Function.Injective ids) (kwargs : Dict String ℝ)
    (p : HIFiRE4.Params) (ha : HIFiRE4Args kwargs p) (hp : HIFiRE4Ok p) :
    ∃ st, HIFiRE4.instanceOf bisect01 ptan h ids kwargs = .ok st ∧
      st.veh.named = [("revolved_1", ids 0), ("wing_1", ids 1), ("fin_1", ids 2), ("fin_2", ids 3), ("fin_3", ids 4)] ∧
      ∀ st0 lib depth, Rescaled st st0 → ∃ st', generate lib depth st0 = (.ok (), st') ∧ HIFiRE4.Placed p ids st' ∧
        (p.y_curve_mult = 0 → ∃ M c', (st'.heap (ids 1)).mesh = (.ok M, c') ∧ ∀ s : ℝ, s = 1 ∨ s = -1 →
          IsVertex ⟨-0.9 * (p.L_n + p.L_b), s * (3.5 * p.R), p.x_curve_mult * 0.05 * (0.9 * (p.L_n + p.L_b)) ^ 2⟩ M.tris) := by
  obtain ⟨st, h1, h2, h3⟩ := hifire4_placed ptan hT h ids hi kwargs p ha hp
  refine ⟨st, h1, h2, fun st0 lib depth hr => ?_⟩
  obtain ⟨st', h4, h5⟩ := h3 st0 lib depth hr
  refine ⟨st', h4, h5, fun hy => ?_⟩
  obtain ⟨M, c', m, g1, -, -, g2⟩ := h5.wing
  refine ⟨M, c', g1, fun s hs => ?_⟩
  convert g2 s hs using 1
  simp only [HIFiRE4.bent, rolledX, rolledY, hy]
  ext <;> simp <;> ring

/-- The default HIFiRE 4: the third fin reaches from the back of the body to the height of its radius. -/
example (h : Heap) (lib : Lib) (depth : ℕ) : ∃ st st', HIFiRE4.instanceOf bisect01 ieeeTan h id [] = .ok st ∧
    generate lib depth st = (.ok (), st') ∧ ∃ M c', (st'.heap 4).mesh = (.ok M, c') ∧ IsVertex ⟨-5.4, 0.025, 0.0474⟩ M.tris := by
  obtain ⟨st, h1, -, h2⟩ := C155_hifire4_partial ieeeTan ieeeTan_float h id Function.injective_id [] _ hifire4Default_ok.1 hifire4Default_ok.2
  obtain ⟨st', g1, g2, -⟩ := h2 st lib depth ⟨rfl, fun k => .inl rfl⟩
  obtain ⟨M, c', k1, k2⟩ := g2.middle
  refine ⟨st, st', h1, g1, M, c', k1, ?_⟩
  convert k2.top 1 (.inl rfl) using 2 <;> simp only [hifire4Default] <;> norm_num

/-! ## Fins above the wing -/

/-- The height of a rolled point over the parabola. -/
theorem rolled_above {c x z Z Z2 μ : ℝ} (hc : 0 ≤ c) (h1 : -Z ≤ z) (h2 : |z| ≤ Z2) (hZ : 0 ≤ Z) (hμ : (2 * c * x) ^ 2 ≤ μ) :
    c * (x - z * Real.sin (Real.arctan (2 * c * x))) ^ 2 + z - Z * μ / 2 - c * (Z2 ^ 2 * μ) ≤ c * x ^ 2 + z * Real.cos (Real.arctan (2 * c * x)) := by
  set m := 2 * c * x with hm
  rw [Real.sin_arctan, Real.cos_arctan]
  have hr : 0 < Real.sqrt (1 + m ^ 2) := Real.sqrt_pos.2 (by positivity)
  have hsq : Real.sqrt (1 + m ^ 2) ^ 2 = 1 + m ^ 2 := Real.sq_sqrt (by positivity)
  set r := Real.sqrt (1 + m ^ 2)
  have hr1 : 1 ≤ r := by nlinarith [sq_nonneg m]
  have hr2 : r ≤ 1 + m ^ 2 / 2 := by nlinarith [sq_nonneg (m ^ 2)]
  have key : c * x ^ 2 + z * (1 / r) - c * (x - z * (m / r)) ^ 2 = z * r - c * (z ^ 2 * (m / r) ^ 2) := by
    have e : r * r = 1 + m ^ 2 := by rw [← hsq]; ring
    have : z * (1 / r) + 2 * c * x * z * (m / r) = z * r := by
      rw [← hm]
      field_simp
      rw [hsq]
    linear_combination this
  have b1 : (m / r) ^ 2 ≤ μ := by
    rw [div_pow]
    exact (div_le_self (sq_nonneg m) (by nlinarith)).trans hμ
  have b2 : z ^ 2 ≤ Z2 ^ 2 := sq_le_sq' (by linarith [abs_le.1 h2]) (abs_le.1 h2).2
  have b3 : c * (z ^ 2 * (m / r) ^ 2) ≤ c * (Z2 ^ 2 * μ) :=
    mul_le_mul_of_nonneg_left (mul_le_mul b2 b1 (sq_nonneg _) (sq_nonneg _)) hc
  have b4 : z - Z * μ / 2 ≤ z * r := by
    rcases le_or_gt 0 z with hz | hz
    · have k1 := mul_le_mul_of_nonneg_left hr1 hz
      have k2 := mul_nonneg hZ ((sq_nonneg m).trans hμ)
      linarith
    · have k1 := mul_le_mul_of_nonpos_left hr2 hz.le
      have k2 := mul_le_mul (show -z ≤ Z by linarith) hμ (sq_nonneg m) hZ
      linarith
  linarith

theorem onMesh_aff {m : TriMesh ℝ} {a b c d : ℝ} (h : ∀ v, IsVertex v m → 0 ≤ a * v.x + b * v.y + c * v.z + d) {q : V} (hq : OnMesh m q) :
    0 ≤ a * q.x + b * q.y + c * q.z + d := by
  obtain ⟨t, ht, α, β, γ, h1, h2, h3, h4, rfl⟩ := hq
  have k1 := mul_nonneg h1 (h t.v0 ⟨t, ht, .inl rfl⟩)
  have k2 := mul_nonneg h2 (h t.v1 ⟨t, ht, .inr (.inl rfl)⟩)
  have k3 := mul_nonneg h3 (h t.v2 ⟨t, ht, .inr (.inr rfl)⟩)
  simp only
  have e : d = (α + β + γ) * d := by rw [h4, one_mul]
  rw [e]
  linarith

/-- The HIFiRE 4 with a wing bent more across than the default. -/
noncomputable def hifire4Drooped : HIFiRE4.Params := ⟨0.3, 3, 0.2, 2, 4⟩

theorem drooped_wing {m : TriMesh ℝ} (h : HIFiRE4.HullOfBent hifire4Drooped m) {q : V} (hq : OnMesh (m ++ mapVerts (mirrorV 1) m) q) :
    0.015 * q.x ^ 2 + 0.3 * q.y ^ 2 - 0.043 ≤ q.z := by
  have box : ∀ u, HIFiRE4.InWing hifire4Drooped u → 0.015 * (HIFiRE4.bent hifire4Drooped u).x ^ 2 + 0.3 * (HIFiRE4.bent hifire4Drooped u).y ^ 2 - 0.043 ≤
      (HIFiRE4.bent hifire4Drooped u).z := by
    rintro u ⟨h1, h2, h3, h4, h5⟩
    simp only [hifire4Drooped] at h1 h2 h3 h4 h5
    have hb : HIFiRE4.bent hifire4Drooped u = rolledY 0.3 (rolledX 0.015 u) := by
      simp only [HIFiRE4.bent, hifire4Drooped]; norm_num
    rw [hb]
    have z5 := abs_le.1 h5
    have xx : u.x ^ 2 ≤ 29.8 := by nlinarith
    have yy : u.y ^ 2 ≤ 0.571 := by nlinarith
    have A := rolled_above (c := 0.015) (x := u.x) (z := u.z) (Z := 0.0251) (Z2 := 0.0251) (μ := 0.027) (by norm_num) (by linarith) (h5.trans (by norm_num)) (by norm_num)
      (by nlinarith)
    have zu : (rolledX 0.015 u).z ≤ 0.4722 := by
      simp only [rolledX]
      have : u.z * Real.cos (Real.arctan (2 * 0.015 * u.x)) ≤ 0.0251 := by
        refine (le_abs_self _).trans ?_
        rw [abs_mul]
        exact (mul_le_of_le_one_right (abs_nonneg _) (Real.abs_cos_le_one _)).trans (h5.trans (by norm_num))
      linarith
    have A' : 0.015 * (rolledX 0.015 u).x ^ 2 - 0.0256 ≤ (rolledX 0.015 u).z := by
      simp only [rolledX]
      norm_num at A ⊢
      linarith
    have zl : -0.0256 ≤ (rolledX 0.015 u).z := by nlinarith [sq_nonneg (rolledX 0.015 u).x]
    have B := rolled_above (c := 0.3) (x := (rolledX 0.015 u).y) (z := (rolledX 0.015 u).z) (Z := 0.0256) (Z2 := 0.4722) (μ := 0.206) (by norm_num) (by linarith)
      (abs_le.2 ⟨by linarith, zu⟩) (by norm_num) (by
        show (2 * 0.3 * u.y) ^ 2 ≤ 0.206
        nlinarith)
    have e1 : (rolledY 0.3 (rolledX 0.015 u)).x = (rolledX 0.015 u).x := rfl
    rw [e1]
    have e2 : (rolledY 0.3 (rolledX 0.015 u)).y = (rolledX 0.015 u).y - (rolledX 0.015 u).z * Real.sin (Real.arctan (2 * 0.3 * (rolledX 0.015 u).y)) := rfl
    have e3 : (rolledY 0.3 (rolledX 0.015 u)).z = 0.3 * (rolledX 0.015 u).y ^ 2 + (rolledX 0.015 u).z * Real.cos (Real.arctan (2 * 0.3 * (rolledX 0.015 u).y)) := rfl
    rw [e2, e3]
    norm_num at B A' ⊢
    linarith
  have sup : ∀ a b : ℝ, ∀ v, IsVertex v (m ++ mapVerts (mirrorV 1) m) → 0 ≤ (-(0.03 * a)) * v.x + (-(0.6 * b)) * v.y + 1 * v.z + (0.015 * a ^ 2 + 0.3 * b ^ 2 + 0.043) := by
    intro a b
    have half : ∀ b : ℝ, ∀ v, IsVertex v m → 0 ≤ (-(0.03 * a)) * v.x + (-(0.6 * b)) * v.y + 1 * v.z + (0.015 * a ^ 2 + 0.3 * b ^ 2 + 0.043) := by
      intro b
      refine h _ _ _ _ fun u hu => ?_
      have := box u hu
      nlinarith [sq_nonneg ((HIFiRE4.bent hifire4Drooped u).x - a), sq_nonneg ((HIFiRE4.bent hifire4Drooped u).y - b)]
    intro v hv
    rcases isVertex_two.1 hv with hv | hv
    · exact half b v hv
    · obtain ⟨u, hu, rfl⟩ := isVertex_mapVerts.1 hv
      have := half (-b) u hu
      have e : mirrorV 1 u = ⟨u.x, -u.y, u.z⟩ := by simp [mirrorV]
      rw [e]
      simp only
      linarith
  have := onMesh_aff (sup q.x q.y) hq
  nlinarith

theorem drooped_fin {m : TriMesh ℝ} {s : ℝ} (hs : s = 1 ∨ s = -1) (h : HIFiRE4.FinAt hifire4Drooped (s * (3.5 * 0.2)) 0 m) {q : V} (hq : OnMesh m q) :
    q.z ≤ 0.015 * q.x ^ 2 + 0.3 * q.y ^ 2 - 0.075 := by
  have a1 := onMesh_aff (m := m) (a := 0) (b := -1) (c := 0) (d := s * 0.7 + 0.0251) (fun v hv => by
    have := (abs_le.1 (h.within v hv).2.2).2
    simp only [hifire4Drooped] at this
    norm_num at this ⊢
    linarith) hq
  have a2 := onMesh_aff (m := m) (a := 0) (b := 1) (c := 0) (d := -(s * 0.7) + 0.0251) (fun v hv => by
    have := (abs_le.1 (h.within v hv).2.2).1
    simp only [hifire4Drooped] at this
    norm_num at this ⊢
    linarith) hq
  have sl : HIFiRE4.footSlope hifire4Drooped = 0.1476 := by
    simp only [HIFiRE4.footSlope, hifire4Drooped]; norm_num
  have sq : Real.sqrt (1 + 0.1476 ^ 2) ≤ 1.011 := by
    rw [Real.sqrt_le_left (by norm_num)]; norm_num
  have a3 := onMesh_aff (m := m) (a := -0.1476) (b := 0) (c := -1) (d := -0.35964 + 0.055606) (fun v hv => by
    have := (h.height (by simp only [hifire4Drooped]; norm_num) v hv).2
    rw [sl] at this
    simp only [hifire4Drooped] at this
    norm_num at this sq ⊢
    linarith) hq
  have yy : 0.4553 ≤ q.y ^ 2 := by
    rcases hs with rfl | rfl <;> nlinarith
  nlinarith [sq_nonneg (q.x + 4.92)]

theorem drooped_ok : HIFiRE4Args [("y_curve_mult", 3)] hifire4Drooped ∧ HIFiRE4Ok hifire4Drooped := by
  constructor
  · exact ⟨by decide, .inr ⟨by simp, rfl⟩, .inl (by simp [hifire4Drooped]), .inr ⟨by simp, rfl⟩, .inr ⟨by simp, rfl⟩, .inr ⟨by simp, rfl⟩⟩
  · have hb : hifire4Factor hifire4Drooped ≤ 1000 := by
      unfold hifire4Factor parabolaFactor hifire4Drooped
      norm_num [abs_of_pos, max_def]
    have hr : round6 (0.2 : ℝ) = 0.2 := by
      unfold round6
      rw [show (0.2 : ℝ) * 10 ^ 6 = ((200000 : ℤ) : ℝ) by norm_num, round_intCast]
      norm_num
    have hl : HIFiRE4.lost hifire4Drooped = 0 := by
      unfold HIFiRE4.lost
      rw [show hifire4Drooped.R = 0.2 from rfl, hr, sub_self, abs_zero]
    constructor <;> first | exact hb.trans (by norm_num) | (rw [hl, mul_zero]; exact zero_le_one) | (simp only [hifire4Drooped]; norm_num)

open HIFiRE4 in
/-- C155 fails: with `y_curve_mult = 3` the outer fins float above the wing.  Wherever they are one above the other there are more than three centimetres
between them (the `z` axis points down), at every resolution; in particular they do not touch. -/
theorem C155_floating_fins_violated (ptan : ℝ → ℝ) (hT : FloatTan ptan) (h : Heap) (ids : ℕ → ℕ) (hi : Function.Injective ids) :
    ∃ st, HIFiRE4.instanceOf bisect01 ptan h ids [("y_curve_mult", 3)] = .ok st ∧
      ∀ st0 lib depth, Rescaled st st0 → ∃ st' W c', generate lib depth st0 = (.ok (), st') ∧ (st'.heap (ids 1)).mesh = (.ok W, c') ∧
        ∀ i, i = 2 ∨ i = 3 → ∃ M c'', (st'.heap (ids i)).mesh = (.ok M, c'') ∧
          (∀ q r, OnMesh M.tris q → OnMesh W.tris r → q.x = r.x → q.y = r.y → q.z + 0.03 < r.z) ∧
          ∀ q, OnMesh M.tris q → ¬ OnMesh W.tris q := by
  obtain ⟨st, h1, -, h3⟩ := hifire4_placed ptan hT h ids hi _ _ drooped_ok.1 drooped_ok.2
  refine ⟨st, h1, fun st0 lib depth hr => ?_⟩
  obtain ⟨st', h4, h5⟩ := h3 st0 lib depth hr
  obtain ⟨W, c', m, g1, g2, g3, -⟩ := h5.wing
  refine ⟨st', W, c', h4, g1, ?_⟩
  have key : ∀ (M : TriMesh ℝ) (s : ℝ), s = 1 ∨ s = -1 → HIFiRE4.FinAt hifire4Drooped (s * (3.5 * 0.2)) 0 M →
      ∀ q r, OnMesh M q → OnMesh W.tris r → q.x = r.x → q.y = r.y → q.z + 0.03 < r.z := by
    intro M s hs hM q r hq hr hx hy
    rw [g2] at hr
    have a := drooped_wing g3 hr
    have b := drooped_fin hs hM hq
    rw [hx, hy] at b
    linarith
  rintro i (rfl | rfl)
  · obtain ⟨M, c'', k1, k2⟩ := h5.right
    have := key M.tris 1 (.inl rfl) (by rw [one_mul]; exact k2)
    exact ⟨M, c'', k1, this, fun q hq hq' => by have := this q q hq hq' rfl rfl; linarith⟩
  · obtain ⟨M, c'', k1, k2⟩ := h5.left
    have := key M.tris (-1) (.inr rfl) (by rw [neg_one_mul]; exact k2)
    exact ⟨M, c'', k1, this, fun q hq hq' => by have := this q q hq hq' rfl rfl; linarith⟩

example (h : Heap) (lib : Lib) (depth : ℕ) : ∃ st st' M W c' c'', HIFiRE4.instanceOf bisect01 ieeeTan h id [("y_curve_mult", 3)] = .ok st ∧
    generate lib depth st = (.ok (), st') ∧ (st'.heap 1).mesh = (.ok W, c') ∧ (st'.heap 2).mesh = (.ok M, c'') ∧
    (∀ q, OnMesh M.tris q → ¬ OnMesh W.tris q) := by
  obtain ⟨st, h1, h2⟩ := C155_floating_fins_violated ieeeTan ieeeTan_float h id Function.injective_id
  obtain ⟨st', W, c', g1, g2, g3⟩ := h2 st lib depth ⟨rfl, fun k => .inl rfl⟩
  obtain ⟨M, c'', k1, -, k2⟩ := g3 2 (.inl rfl)
  exact ⟨st, st', M, W, c', c'', h1, g1, g2, k1, k2⟩

end HV
