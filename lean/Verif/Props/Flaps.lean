import Verif.Props.X43
import Verif.Props.Edges
import Mathlib.Analysis.Real.Pi.Bounds

/-!
# Properties C107, C108: deflected control surfaces; parts in mirrored pairs
-/

namespace HV
open Spec Veh

/-! ## C109: the hypotheses are met -/

/-- The X-43 without arguments. -/
noncomputable def x43Default : X43.Params := ⟨3.7, 1, 0, 0.4, 1, 0.25, 0.3, 0.1, 0.3, 1, 0.2, 0, 0⟩

theorem x43Default_ok : X43Args [] x43Default ∧ X43Ok x43Default := by
  constructor
  · constructor <;> first | exact List.nodup_nil | exact .inr ⟨by simp, rfl⟩
  · constructor <;> simp only [x43Default] <;> norm_num

example (h : Heap) (lib : Lib) (depth : ℕ) : ∃ st st', X43.instanceOf bisect01 ieeeTan h id [] = .ok st ∧
    generate lib depth st = (.ok (), st') ∧ ∀ i < 4, ∃ M c', (st'.heap i).mesh = (.ok M, c') ∧ GapFree 1e-12 M.tris := by
  obtain ⟨st, h1, -, -, h2⟩ := C109_x43 ieeeTan ieeeTan_float h id Function.injective_id [] _ x43Default_ok.1 x43Default_ok.2
  obtain ⟨st', g1, g2, -⟩ := h2 st lib depth ⟨rfl, fun k => .inl rfl⟩
  exact ⟨st, st', h1, g1, g2⟩

/-! ## C108 -/

namespace Spec

/-- The meshes `m₁`, `m₂` of a pair of parts make up one part and its mirror image in the plane `y = 0`, each once. -/
def MirroredPair (m₁ m₂ : TriMesh ℝ) : Prop :=
  (m₁ ++ m₂).Perm (m₁ ++ mapVerts (mirrorV 1) m₁)

end Spec

/-- C108 is violated by the X-43: whatever the parameters, the component `wing2`, which is meant to be the mirror image of `wing1`, contains
`wing1` as well, so that the vehicle has every triangle of the first flap twice. -/
theorem C108_violated (ptan : ℝ → ℝ) (hT : FloatTan ptan) (h : Heap) (ids : ℕ → ℕ) (hi : Function.Injective ids) (kwargs : Dict String ℝ)
    (p : X43.Params) (ha : X43Args kwargs p) (hp : X43Ok p) (lib : Lib) (depth : ℕ) :
    ∃ st st' M₁ M₂ c₁ c₂, X43.instanceOf bisect01 ptan h ids kwargs = .ok st ∧ generate lib depth st = (.ok (), st') ∧
      Dict.get st.veh.named "wing1" = .ok (ids 1) ∧ Dict.get st.veh.named "wing2" = .ok (ids 2) ∧
      (st'.heap (ids 1)).mesh = (.ok M₁, c₁) ∧ (st'.heap (ids 2)).mesh = (.ok M₂, c₂) ∧
      M₁.tris.length = 304 ∧ M₂.tris = M₁.tris ++ mapVerts (mirrorV 1) M₁.tris ∧ ¬ MirroredPair M₁.tris M₂.tris := by
  obtain ⟨st, Mw, b1, b2, r1, r2, b3, b4⟩ := x43_meshes ptan hT h ids hi kwargs p ha hp
  obtain ⟨st', g1, -, g2⟩ := b4 st lib depth ⟨rfl, fun k => .inl rfl⟩
  obtain ⟨n, M₁, c₁, -, e1, m1, t1⟩ := g2.wing1
  obtain ⟨n', M₂, c₂, -, e2, m2, t2⟩ := g2.wing2
  rw [r1] at e1
  rw [r2] at e2
  cases e1
  cases e2
  have hlen : M₁.tris.length = 304 := by rw [t1, (b3 2 (by norm_num)).2]; norm_num
  refine ⟨st, st', M₁, M₂, c₁, c₂, b1, g1, by rw [b2]; rfl, by rw [b2]; rfl, m1, m2, hlen, by rw [t1, t2], ?_⟩
  intro hP
  have := hP.length_eq
  rw [t2, ← t1] at this
  simp only [List.length_append, mapVerts, List.length_map, hlen] at this
  omega

example : ∃ kwargs p, X43Args kwargs p ∧ X43Ok p := ⟨_, _, x43Default_ok⟩

/-- C108 for pairs added as the documentation describes, with `append_reflection=False` for the second: from two equal new components with
a fixed generator, one without options and one reflected in `y` without keeping the original, the vehicle has one part and its mirror
image. -/
theorem C108_partial (out : Reso → GenOut) (n : ℕ) (hn : 1 ≤ n) (H : Heap) (j k : ℕ) (c : Comp) (hc : c.gen = .into out)
    (hres : c.stl_resolution = .int n) (hp0 : c.patches = []) (hm : c.mesh_ = none) (hs : c.surfaces = none) (hmo : c.modifier = none)
    (hcu : c.curvatures = none) (htr : c.transformations = []) (hj : H j = { c with reflection_axis := none })
    (hk : H k = { c with reflection_axis := some "y", append_reflection := false })
    (h' : Heap) (M : StlMesh) (c' : Comp) (g1 : generatePatches H j = (.ok (), h')) (g2 : (h' j).mesh = (.ok M, c'))
    (hnm : ∀ e ∈ (h' j).patches.map Prod.fst, e ++ "_mirrored" ∉ (h' j).patches.map Prod.fst) :
    ∃ gj gk dj dk M₁ M₂ c₁ c₂, generatePatches H j = (.ok (), gj) ∧ generatePatches H k = (.ok (), gk) ∧
      pipeline 0 (gj j) = (.ok (), dj) ∧ pipeline 0 (gk k) = (.ok (), dk) ∧ dj.mesh = (.ok M₁, c₁) ∧ dk.mesh = (.ok M₂, c₂) ∧
      M₁.tris = M.tris ∧ MirroredPair M₁.tris M₂.tris := by
  obtain ⟨gj, dj, M₁, c₁, a1, a2, a3, a4⟩ := plain_leaf H j out (by rw [hj]; exact hc) n hn (by rw [hj]; exact hres) (by rw [hj]; exact hp0)
    (by rw [hj]; exact hm) (by rw [hj]; exact hs) h' M c' g1 g2 H j (by rw [hj]; exact hc) (by rw [hj]; exact hres) (by rw [hj]; exact hp0)
    (by rw [hj]; exact hm) (by rw [hj]; exact hs) rfl (by rw [hj]; exact hmo) (by rw [hj]; exact hcu) (by rw [hj]; exact htr) (by rw [hj])
  obtain ⟨gk, dk, M₂, c₂, b1, b2, b3, b4⟩ := reflected_leaf H j out (by rw [hj]; exact hc) n hn (by rw [hj]; exact hres) (by rw [hj]; exact hp0)
    (by rw [hj]; exact hm) (by rw [hj]; exact hs) h' M c' g1 g2 hnm H k (by rw [hk]; exact hc) (by rw [hk]; exact hres) (by rw [hk]; exact hp0)
    (by rw [hk]; exact hm) (by rw [hk]; exact hs) (by rw [hj, hk]) (by rw [hk]; exact hmo) (by rw [hk]; exact hcu) (by rw [hk]; exact htr)
    "y" 1 (.inl rfl) (by rw [hk]; exact .inl rfl)
  refine ⟨gj, gk, dj, dk, M₁, M₂, c₁, c₂, a1, b1, a2, b2, a3, b3, a4, ?_⟩
  rw [hk] at b4
  simp only [Bool.false_eq_true, if_false, List.nil_append] at b4
  unfold MirroredPair
  rw [b4, a4]

/-! ## C107 -/

namespace Spec

/-- Where the trailing edge of a control surface of chord `l` hinged at `hinge` is when it is deflected by `δ` degrees towards the unit
vector `dir`; undeflected it points in the direction `-x`. -/
noncomputable def deflected (hinge : V) (l δ : ℝ) (dir : V) : V :=
  hinge + ⟨-(l * Real.cos (δ * Real.pi / 180)), 0, 0⟩ + dir * (l * Real.sin (δ * Real.pi / 180))

end Spec

/-- The trailing edge of the flap of a wing with a straight hinge line. -/
theorem wing_flap_edge {ptan : ℝ → ℝ} {w : Wing.State} {n : ℕ} {name : Option String} {H h' : Heap} {id : ℕ}
    (hid : H id = Wing.comp ptan w n name) (hg : generatePatches H id = (.ok (), h')) (u v : V)
    (hm : ∀ r, (Wing.teMean w).call r = .ok (lineAt u v r)) (ht : ∀ r, ∃ q, (Wing.teTop w).call r = .ok q) :
    ∃ S, ("TE_top_patch", S) ∈ (h' id).patches ∧ ∀ r, S r 0 = .ok (lineAt u v r +
      ⟨-(w.args.flap_length * Real.cos w.args.flap_angle), 0, w.args.flap_length * Real.sin w.args.flap_angle⟩) := by
  obtain ⟨ls, h1, h2⟩ := (Wing.generated hid).1 (by rw [hg])
  rw [hg] at h2
  unfold Wing.stages at h1
  simp only [List.cons_append, List.nil_append] at h1
  obtain ⟨l1, u1, e1, g1, rfl⟩ := List.forall₂_cons_left_iff.1 h1
  obtain ⟨l2, u2, e2, g2, rfl⟩ := List.forall₂_cons_left_iff.1 g1
  obtain ⟨l3, u3, e3, g3, rfl⟩ := List.forall₂_cons_left_iff.1 g2
  unfold Wing.flap at e3
  have hb : w.args.tail_option = "FLAP" := by
    by_contra hb
    simp only [hb, ne_eq, not_false_eq_true, if_true] at e3
    cases e3
  simp only [hb, ne_eq, not_true_eq_false, if_false] at e3
  obtain ⟨-, -, e3⟩ := bind_ok.1 e3
  obtain ⟨S, hS, e3⟩ := bind_ok.1 e3
  obtain ⟨B, -, e3⟩ := bind_ok.1 e3
  obtain ⟨q0, hq0⟩ := ht 0
  obtain ⟨q1, hq1⟩ := ht 1
  obtain ⟨S', tip0, tip1, hS', k1, k2, k3, -, -, k4, k5⟩ := C35_mean_flap_partial (Wing.teMean w) (Wing.teTop w) w.args.flap_length w.args.flap_angle "top"
    (.inl rfl) _ _ q0 q1 (hm 0) (hm 1) hq0 hq1
  rw [hS] at hS'
  cases hS'
  refine ⟨S, ?_, ?_⟩
  · rw [h2, ← pure_ok.1 e3]
    simp
  · intro r
    obtain ⟨q, hq⟩ := ht r
    obtain ⟨-, q', hq', e⟩ := k1 r q hq
    simp only [tipSide, if_true] at hq'
    rw [hq']
    congr 1
    apply Vec.toE_injective
    rw [e, sub_eq_iff_eq_add.1 k4, sub_eq_iff_eq_add.1 k5, lineAt_zero, lineAt_one]
    simp only [← Vec.toE_mul, ← Vec.toE_add]
    congr 1
    ext <;> simp [lineAt] <;> ring

/-- The hinge line of the flaps of the X-43: the middle of the back of the wing, from the body to the wing tip. -/
noncomputable def X43.hinge (p : X43.Params) (r : ℝ) : V :=
  lineAt ⟨p.flap_length, p.body_width / 2, (p.flap_length - p.body_length) * Real.tan (p.body_angle * (Real.pi / 180))⟩
    ⟨p.flap_length - p.wing_TE_back, p.body_width / 2 + p.wing_span,
      (p.flap_length - p.wing_TE_back - p.body_length) * Real.tan (p.body_angle * (Real.pi / 180))⟩ r

/-- C107 for the flaps of the X-43: the trailing edge is the hinge line moved by the chord, at the angle `flap_angle` taken in radians,
downwards. -/
theorem C107_elevon_partial (ptan : ℝ → ℝ) (hT : FloatTan ptan) (h : Heap) (ids : ℕ → ℕ) (hi : Function.Injective ids)
    (kwargs : Dict String ℝ) (p : X43.Params) (ha : X43Args kwargs p) (hp : X43Ok p) :
    ∃ st h' S, X43.instanceOf bisect01 ptan h ids kwargs = .ok st ∧ generatePatches st.heap (ids 1) = (.ok (), h') ∧
      ("TE_top_patch", S) ∈ (h' (ids 1)).patches ∧
      ∀ r, S r 0 = .ok (deflected (X43.hinge p r) p.flap_length (p.flap_angle * 180 / Real.pi) ⟨0, 0, 1⟩) := by
  obtain ⟨a1, L1, e1, s1, t1, c1, y10, y11, y1T, k1, k1'⟩ := X43.body_smooth hp hT
  obtain ⟨a2, L2, e2, s2, t2, c2, k2, k2', fl, fa⟩ := X43.wing_smooth hp hT
  obtain ⟨a3, L3, e3, s3, t3, c3, y30, y31, y3T, k3, k3'⟩ := X43.inlet_smooth hp hT
  obtain ⟨w1, i1, m1⟩ := wing_break a1 t1 L1 s1.line k1 k1'
  obtain ⟨w2, i2, m2⟩ := wing_break a2 t2 L2 s2.line k2 k2'
  obtain ⟨w3, i3, m3⟩ := wing_break a3 t3 L3 s3.line k3 k3'
  obtain ⟨st, b1, b2, f0, f1, f2, f3, f4, f5⟩ := x43_instance ptan h ids hi kwargs p ha a1 a2 a3 w1 w2 w3 e1 e2 e3 i1 i2 i3
  obtain ⟨h', M, c', g1, g2, g3⟩ := C106_closed_wing_partial (rounded bisect01) ptan _ a2 w2 L2 _ _ _ _ 0 i2 s2 m2 c2
        (X43.flap_bends _ _ _) (X43.flap_bends _ _ _) (X43.flap_bends _ _ _) (X43.flap_bends _ _ _) 2 (by norm_num) (some "wing1")
        st.heap (ids 1) f1
  obtain ⟨hw, -⟩ := Wing.init_ok i2
  have hA : a2.A0 = ⟨p.flap_length, p.body_width / 2, 0⟩ ∧ a2.B0 = ⟨p.flap_length - p.wing_TE_back, p.body_width / 2 + p.wing_span, 0⟩ := by
    unfold X43.wingArgs at e2
    obtain ⟨y1, -, e2⟩ := bind_ok.1 e2
    obtain ⟨y2, -, e2⟩ := bind_ok.1 e2
    obtain ⟨P, -, e2⟩ := bind_ok.1 e2
    rw [← pure_ok.1 e2]
    simp only [X43.B0]
    constructor <;> ext <;> simp
    ring
  have ht : ∀ r, (Wing.teTop w2).call r = .ok (liftBy (fun x _ => X43.flapH p (-1) x) (lineAt a2.A0 a2.B0 r)) := by
    intro r
    unfold Wing.teTop
    rw [hw]
    simp only [TrailingEdgePath, offsetPathAt, Line, bind, Except.bind, s2.top _ _ _ trivial, pure, Except.pure, liftBy]
    congr 1
    ext <;> simp
  have hb : ∀ r, (Wing.teBot w2).call r = .ok (liftBy (fun x _ => X43.flapH p 1 x) (lineAt a2.A0 a2.B0 r)) := by
    intro r
    unfold Wing.teBot
    rw [hw]
    simp only [TrailingEdgePath, offsetPathAt, Line, bind, Except.bind, s2.bot _ _ _ trivial, pure, Except.pure, liftBy]
    congr 1
    ext <;> simp
  obtain ⟨S, j1, j2⟩ := wing_flap_edge f1 g1 _ _ (fun r => show (Wing.teMean w2).call r = .ok (X43.hinge p r) by
    unfold Wing.teMean
    simp only [GeometricMeanPathFunction, meanPathAt, ht, hb, bind, Except.bind, pure, Except.pure, X43.hinge, hA.1, hA.2]
    congr 1
    ext <;> simp [liftBy, lineAt, X43.flapH, X43.beta, deg2rad] <;> ring) (fun r => ⟨_, ht r⟩)
  refine ⟨st, h', S, b1, g1, j1, fun r => ?_⟩
  rw [j2, hw, fl, fa]
  congr 1
  rw [deflected, show p.flap_angle * 180 / Real.pi * Real.pi / 180 = p.flap_angle by field_simp]
  ext <;> simp [X43.hinge, lineAt]

/-- C107 is violated by the X-43, where `flap_angle` is documented as degrees, positive upwards (the direction `-z`), and used as radians,
positive downwards: with `flap_angle=1` the trailing edge goes down by more than four fifths of the chord instead of up by a
fiftieth, with `flap_angle=10` it lies in front of the hinge. -/
theorem C107_violated (ptan : ℝ → ℝ) (hT : FloatTan ptan) (h : Heap) (ids : ℕ → ℕ) (hi : Function.Injective ids)
    (kwargs : Dict String ℝ) (p : X43.Params) (ha : X43Args kwargs p) (hp : X43Ok p) (hl : 0 < p.flap_length) :
    ∃ st h' S, X43.instanceOf bisect01 ptan h ids kwargs = .ok st ∧ generatePatches st.heap (ids 1) = (.ok (), h') ∧
      ("TE_top_patch", S) ∈ (h' (ids 1)).patches ∧
      ∀ r, ∃ q, S r 0 = .ok q ∧
        (p.flap_angle = 1 → (X43.hinge p r).z + 0.8 * p.flap_length < q.z ∧
          (deflected (X43.hinge p r) p.flap_length p.flap_angle ⟨0, 0, -1⟩).z < (X43.hinge p r).z) ∧
        (p.flap_angle = 10 → (X43.hinge p r).x < q.x ∧
          (deflected (X43.hinge p r) p.flap_length p.flap_angle ⟨0, 0, -1⟩).x < (X43.hinge p r).x) := by
  obtain ⟨st, h', S, h1, h2, h3, h4⟩ := C107_elevon_partial ptan hT h ids hi kwargs p ha hp
  refine ⟨st, h', S, h1, h2, h3, fun r => ⟨_, h4 r, ?_, ?_⟩⟩
  · intro hf
    rw [hf]
    have e : (1 : ℝ) * 180 / Real.pi * Real.pi / 180 = 1 := by field_simp
    have hs : (0.8 : ℝ) < Real.sin 1 := by
      have := Real.sin_gt_sub_cube (x := 1) (by norm_num)
      linarith
    have hs' : 0 < Real.sin (1 * Real.pi / 180) := Real.sin_pos_of_pos_of_lt_pi (by positivity) (by linarith [Real.pi_pos])
    simp only [deflected, Vec.add_z, Vec.mul_z, e]
    constructor <;> nlinarith
  · intro hf
    rw [hf]
    have e : (10 : ℝ) * 180 / Real.pi * Real.pi / 180 = 10 := by field_simp
    have hs : Real.cos 10 < 0 := by
      rw [← Real.cos_sub_two_pi]
      apply Real.cos_neg_of_pi_div_two_lt_of_lt <;> linarith [Real.pi_gt_three, Real.pi_lt_four]
    have hs' : 0 < Real.cos (10 * Real.pi / 180) := Real.cos_pos_of_mem_Ioo ⟨by linarith [Real.pi_pos], by linarith [Real.pi_pos]⟩
    simp only [deflected, Vec.add_x, Vec.mul_x, e]
    constructor <;> nlinarith

example : ∃ kwargs p, X43Args kwargs p ∧ X43Ok p ∧ 0 < p.flap_length ∧ p.flap_angle = 10 := by
  refine ⟨[("flap_angle", 10)], { x43Default with flap_angle := 10 }, ?_, ?_, by simp only [x43Default]; norm_num, rfl⟩
  · constructor <;> first | exact .inr ⟨by simp, rfl⟩ | exact .inl (by simp) | simp [Dict.keys]
  · have := x43Default_ok.2
    exact ⟨this.length, this.short, this.width, this.span, this.wing, this.flap, this.fin, this.rudder⟩

/-- The trailing edge of a sharp fin placed by a rotation about `x` and a constant offset. -/
theorem fin_rudder_edge {find : (ℝ → Res ℝ) → Res ℝ} {ptan : ℝ → ℝ} {a : Fin.Args} {wmin : ℝ} {o : V} (hu : UniformFin ptan a wmin o)
    (hs : a.rudder_type = "sharp") {n : ℕ} {name : Option String} {H h' : Heap} {id : ℕ} (hid : H id = Fin.comp find ptan a n name)
    (hg : generatePatches H id = (.ok (), h')) :
    ∃ T, ("TE_top", Fin.place a T) ∈ (h' id).patches ∧ ∀ r, T r 0 = .ok (lineAt (rudderTip a a.p0) (rudderTip a a.p1) r) := by
  have hgen : (H id).gen = (Fin.comp find ptan a).gen := by rw [hid]; rfl
  obtain ⟨l, hl⟩ := (Fin.generated hgen).1.1 (by rw [hg])
  have hpat := (Fin.generated hgen).2 l hl
  rw [hg] at hpat
  unfold Fin.unplaced at hl
  obtain ⟨line, -, hl⟩ := bind_ok.1 hl
  obtain ⟨s, hs', hl⟩ := bind_ok.1 hl
  obtain ⟨le, hle, hl⟩ := bind_ok.1 hl
  obtain ⟨b, hb, hl⟩ := bind_ok.1 hl
  obtain ⟨te, hte, hl⟩ := bind_ok.1 hl
  obtain rfl := pure_ok.1 hl
  rw [Fin.trailingEdge, if_pos hs, Fin.sharpTE] at hte
  obtain ⟨T, hT, hte⟩ := bind_ok.1 hte
  have hmem : ("TE_top", T) ∈ te := by
    obtain ⟨_, -, hte⟩ := bind_ok.1 hte
    obtain ⟨_, -, hte⟩ := bind_ok.1 hte
    obtain ⟨_, -, hte⟩ := bind_ok.1 hte
    obtain ⟨_, -, hte⟩ := bind_ok.1 hte
    obtain ⟨_, -, hte⟩ := bind_ok.1 hte
    obtain ⟨_, -, hte⟩ := bind_ok.1 hte
    obtain ⟨_, -, hte⟩ := bind_ok.1 hte
    obtain ⟨_, -, hte⟩ := bind_ok.1 hte
    obtain ⟨_, -, hte⟩ := bind_ok.1 hte
    rw [← pure_ok.1 hte]
    simp
  refine ⟨T, ?_, ?_⟩
  · rw [hpat]
    exact List.mem_map.2 ⟨("TE_top", T), by simp [hmem], rfl⟩
  · have tot : ∀ t, ∃ q, (TrailingEdgePath a.p0 a.p1 a.top_tf).call t = .ok q := by
      intro t
      rw [hu.top]
      exact ⟨_, rfl⟩
    obtain ⟨q0, hq0⟩ := tot 0
    obtain ⟨q1, hq1⟩ := tot 1
    obtain ⟨T', hT', hed⟩ := coons_ruled (Line (rudderTip a a.p0) (rudderTip a a.p1)) (TrailingEdgePath a.p0 a.p1 a.top_tf) _ _ q0 q1
      (line_zero _ _) (line_one _ _) hq0 hq1
    have e : T = T' := by
      unfold TrailingEdgePatch at hT
      simp only [if_true, zero_add, bind, Except.bind, pure, Except.pure] at hT
      change _ = _ at hT
      simp only [rudderTip] at hT'
      rw [line_zero, line_one] at hT
      simp only [hq0, hq1] at hT
      rw [hT'] at hT
      cases hT; rfl
    subst e
    intro r
    obtain ⟨q, hq⟩ := tot r
    exact (hed r _ q rfl hq).1

/-- C107 for the rudders of the X-43: the trailing edge is moved towards `+y` by the chord times the sine of `rudder_angle` in degrees, as
documented; it stays a full chord behind the hinge (C35), where it should be a chord times the cosine. -/
theorem C107_rudder_partial (ptan : ℝ → ℝ) (hT : FloatTan ptan) (h : Heap) (ids : ℕ → ℕ) (hi : Function.Injective ids)
    (kwargs : Dict String ℝ) (p : X43.Params) (ha : X43Args kwargs p) (hp : X43Ok p) (k : ℕ) (sgn : ℝ)
    (hk : k = 4 ∧ sgn = 1 ∨ k = 5 ∧ sgn = -1) :
    ∃ st h' S, X43.instanceOf bisect01 ptan h ids kwargs = .ok st ∧ generatePatches st.heap (ids k) = (.ok (), h') ∧
      ("TE_top", S) ∈ (h' (ids k)).patches ∧
      ∀ r, ∃ q, S r 0 = .ok q ∧ q.x = 0 ∧ q.y = (deflected ⟨p.rudder_length, sgn * (p.body_width / 2), 0⟩ p.rudder_length p.rudder_angle ⟨0, 1, 0⟩).y ∧
        q.z = (p.fin_length - p.body_length) * Real.tan (p.body_angle * (Real.pi / 180)) - r * p.fin_height := by
  obtain ⟨a1, L1, e1, s1, t1, c1, y10, y11, y1T, k1, k1'⟩ := X43.body_smooth hp hT
  obtain ⟨a2, L2, e2, s2, t2, c2, k2, k2', fl, fa⟩ := X43.wing_smooth hp hT
  obtain ⟨a3, L3, e3, s3, t3, c3, y30, y31, y3T, k3, k3'⟩ := X43.inlet_smooth hp hT
  obtain ⟨w1, i1, m1⟩ := wing_break a1 t1 L1 s1.line k1 k1'
  obtain ⟨w2, i2, m2⟩ := wing_break a2 t2 L2 s2.line k2 k2'
  obtain ⟨w3, i3, m3⟩ := wing_break a3 t3 L3 s3.line k3 k3'
  obtain ⟨st, b1, b2, f0, f1, f2, f3, f4, f5⟩ := x43_instance ptan h ids hi kwargs p ha a1 a2 a3 w1 w2 w3 e1 e2 e3 i1 i2 i3
  obtain ⟨nm, hf⟩ : ∃ nm, st.heap (ids k) = Fin.comp (rounded bisect01) ptan (X43.finArgs p sgn) 2 nm := by
    rcases hk with ⟨rfl, rfl⟩ | ⟨rfl, rfl⟩
    · exact ⟨_, f4⟩
    · exact ⟨_, f5⟩
  obtain ⟨g, c, g1, -, -⟩ := x43_fin hp hT sgn 2 (by norm_num) nm st.heap (ids k) hf
  obtain ⟨T, j1, j2⟩ := fin_rudder_edge (X43.fin_uniform hp hT sgn).1 rfl hf g1
  refine ⟨st, g, _, b1, g1, j1, fun r => ?_⟩
  have hsin : Real.sin (deg2rad (-90)) = -1 := by
    rw [deg2rad, show (-90 : ℝ) * (Real.pi / 180) = -(Real.pi / 2) by ring, Real.sin_neg, Real.sin_pi_div_two]
  have hcos : Real.cos (deg2rad (-90)) = 0 := by
    rw [deg2rad, show (-90 : ℝ) * (Real.pi / 180) = -(Real.pi / 2) by ring, Real.cos_neg, Real.cos_pi_div_two]
  refine ⟨⟨0, sgn * (p.body_width / 2) + p.rudder_length * Real.sin (deg2rad p.rudder_angle),
    (p.fin_length - p.body_length) * Real.tan (p.body_angle * (Real.pi / 180)) - r * p.fin_height⟩, ?_, rfl, ?_, rfl⟩
  · simp only [Fin.place, X43.finArgs, OffsetPatchFunction, RotatedPatch, j2, axisOf_x, axisOf_y, bind, Except.bind, pure, Except.pure]
    congr 1
    ext
    · simp [rotAbout, lineAt, rudderTip, X43.finArgs, hsin, hcos, X43.B0, X43.beta]
    · simp [rotAbout, lineAt, rudderTip, X43.finArgs, hsin, hcos, X43.B0, X43.beta]
      ring
    · simp [rotAbout, lineAt, rudderTip, X43.finArgs, hsin, hcos, X43.B0, X43.beta]
      rw [show deg2rad p.body_angle = p.body_angle * (Real.pi / 180) from rfl]
      ring
  · simp only [deflected, deg2rad, Vec.add_y, Vec.mul_y]
    rw [show p.rudder_angle * Real.pi / 180 = p.rudder_angle * (Real.pi / 180) by ring]
    ring

end HV
