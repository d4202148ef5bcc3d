import Verif.Lemmas.GluedWing
import Verif.Props.X43

/-!
# C114: bending a wing keeps it free of gaps
-/

namespace HV
open Spec Veh

namespace Spec

/-- The box around the origin with these half lengths. -/
def Box (X Y Z : ℝ) (v : V) : Prop := |v.x| ≤ X ∧ |v.y| ≤ Y ∧ |v.z| ≤ Z

/-- A curvature in the direction of `x` or `y` whose height and slope are defined everywhere, and over the rectangle of half lengths
`X` and `Y` the height is at most `F`, and height and slope change by at most `K1` and `K2` per unit. -/
structure Gentle (k : Curvature) (X Y F K1 K2 : ℝ) : Prop where
  dir : k.direction = "x" ∨ k.direction = "y"
  total : ∀ x y, ∃ f m, k.fn x y = .ok f ∧ k.fn_dash x y = .ok m
  bound : ∀ x y f, |x| ≤ X → |y| ≤ Y → k.fn x y = .ok f → |f| ≤ F
  lip : ∀ (u v : V) (f f' m m' d : ℝ), |u.x| ≤ X → |u.y| ≤ Y → |v.x| ≤ X → |v.y| ≤ Y → k.fn u.x u.y = .ok f → k.fn v.x v.y = .ok f' →
    k.fn_dash u.x u.y = .ok m → k.fn_dash v.x v.y = .ok m' → vdist u v ≤ d → |f - f'| ≤ K1 * d ∧ |m - m'| ≤ K2 * d
  f0 : 0 ≤ F
  k1 : 0 ≤ K1
  k2 : 0 ≤ K2

/-- A sequence of curvatures applied to a body in the box of half lengths `X`, `Y`, `Z` moves points that are close together apart by
no more than the factor `c`. -/
inductive Bends : List Curvature → ℝ → ℝ → ℝ → ℝ → Prop
  | nil (X Y Z : ℝ) : Bends [] X Y Z 1
  | cons (k : Curvature) (l : List Curvature) (X Y Z F K1 K2 c : ℝ) : Gentle k (X + 1) (Y + 1) F K1 K2 → Bends l (X + Z) (Y + Z) (Z + F) c →
      Bends (k :: l) X Y Z ((5 + 2 * Z * K2 + K1) * c)

/-- Curvatures in the direction of `y` are level at the plane `y = 0`, so that this plane stays where it is. -/
def LevelAtPlane (l : List Curvature) : Prop := ∀ k ∈ l, k.direction = "y" → ∀ x, k.fn_dash x 0 = .ok 0

/-- The wing with leading edge `L`, heights `ht`, `hb` and leading edge width `wd` lies in the box. -/
structure WingBox (a : Wing.Args) (L : ℝ → V) (ht hb : ℝ → ℝ → ℝ) (wd : ℝ → ℝ) (t1 X Y Z : ℝ) : Prop where
  rear : ∀ h, h = ht ∨ h = hb → ∀ t ∈ Set.Icc (0 : ℝ) 1, Box X Y Z (liftBy h (lineAt a.A0 a.A1 t))
  front : ∀ h, h = ht ∨ h = hb → ∀ t ∈ Set.Icc (0 : ℝ) 1, Box X Y Z (liftBy h (lineAt a.A1 a.TT t))
  chord : ∀ h, h = ht ∨ h = hb → ∀ t ∈ Set.Icc (0 : ℝ) 1, Box X Y Z (liftBy h (lineAt a.A1 (L t1) t))
  trail : ∀ h, h = ht ∨ h = hb → ∀ t ∈ Set.Icc (0 : ℝ) 1, Box X Y Z (liftBy h (lineAt a.A0 a.B0 t))
  edge : ∀ h, h = ht ∨ h = hb → ∀ t ∈ Set.Icc (0 : ℝ) 1, Box X Y Z (liftBy h (L t))
  nose : ∀ t ∈ Set.Icc (0 : ℝ) 1, |(L t).x| + wd t ≤ X ∧ |(L t).y| + wd t ≤ Y
  flap : ∀ p, p = a.A0 ∨ p = a.B0 → |p.x| + |a.flap_length| ≤ X ∧ |p.z + (ht p.x p.y + hb p.x p.y) / 2| + |a.flap_length| ≤ Z

end Spec

theorem box_conv {X Y Z : ℝ} {u v : V} {t : ℝ} (ht : t ∈ Set.Icc (0 : ℝ) 1) (hu : Box X Y Z u) (hv : Box X Y Z v) : Box X Y Z (lineAt u v t) := by
  have key : ∀ a b c : ℝ, |a| ≤ c → |b| ≤ c → |a * (1 - t) + b * t| ≤ c := by
    intro a b c ha hb
    have h1 := abs_le.1 ha
    have h2 := abs_le.1 hb
    rw [abs_le]
    constructor <;> nlinarith [ht.1, ht.2]
  refine ⟨?_, ?_, ?_⟩
  · have := key _ _ _ hu.1 hv.1
    simpa [lineAt] using this
  · have := key _ _ _ hu.2.1 hv.2.1
    simpa [lineAt] using this
  · have := key _ _ _ hu.2.2 hv.2.2
    simpa [lineAt] using this

/-- The points of an ellipse lie in the rectangle of its half axes. -/
theorem ellRaw_box (ptan : ℝ → ℝ) {b w : ℝ} (hb : 0 < b) (hw : 0 < w) (top : Bool) (r : ℝ) :
    |(ellRaw ptan b w top r).y| ≤ w ∧ |(ellRaw ptan b w top r).z| ≤ b := by
  simp only [ellRaw]
  set T := ptan (Elipse.angle top r)
  set S := Real.sqrt (b ^ 2 + (w * T) ^ 2) with hS
  have hS2 : S ^ 2 = b ^ 2 + (w * T) ^ 2 := Real.sq_sqrt (by positivity)
  have hpos : 0 < S := Real.sqrt_pos.2 (by positivity)
  have s1 : b ≤ S := by
    apply le_of_sq_le_sq _ hpos.le
    rw [hS2]; nlinarith [sq_nonneg (w * T)]
  have s2 : w * |T| ≤ S := by
    apply le_of_sq_le_sq _ hpos.le
    rw [hS2, mul_pow, sq_abs, mul_pow]; nlinarith [sq_nonneg b]
  constructor
  · rw [abs_of_nonneg (by positivity), div_le_iff₀ hpos]
    nlinarith
  · rw [show w * b / S * T = b * (w * T) / S by ring, abs_div, abs_of_pos hpos, div_le_iff₀ hpos, abs_mul, abs_of_pos hb, abs_mul, abs_of_pos hw]
    exact mul_le_mul_of_nonneg_left s2 hb.le
  where
    le_of_sq_le_sq {a c : ℝ} (h : a ^ 2 ≤ c ^ 2) (hc : 0 ≤ c) : a ≤ c := (le_abs_self a).trans (abs_le_of_sq_le_sq h hc)

theorem trig_le (a x : ℝ) : |a * Real.cos x| ≤ |a| ∧ |a * Real.sin x| ≤ |a| := by
  constructor
  · rw [abs_mul]; exact mul_le_of_le_one_right (abs_nonneg _) (Real.abs_cos_le_one x)
  · rw [abs_mul]; exact mul_le_of_le_one_right (abs_nonneg _) (Real.abs_sin_le_one x)

theorem wingBox_in {ptan : ℝ → ℝ} {D : ℝ → ℝ → Prop} {w : Wing.State} {L : ℝ → V} {ht hb : ℝ → ℝ → ℝ} {wd : ℝ → ℝ} {t2 g X Y Z : ℝ}
    (h : WingOk ptan D w ⟨L, ht, hb, wd⟩ t2 g) (hX : WingBox w.args L ht hb wd w.t_B1 X Y Z) : WingIn ptan (Box X Y Z) w ⟨L, ht, hb, wd⟩ where
  conv u v t ht' hu hv := box_conv ht' hu hv
  rear := hX.rear
  front := hX.front
  chord := hX.chord
  trail := hX.trail
  edge := hX.edge
  rim top t ht' r hr := by
    obtain ⟨b1, b2⟩ := ellRaw_box ptan (h.shape.thick t ht') (h.shape.wpos t ht') top
      (ArcLen.uMap (fun i : ℕ => ellRaw ptan ((⟨L, ht, hb, wd⟩ : WingShape).half t) (wd t) top ((i : ℝ) / (1000 : ℕ))) 1000 r)
    change |(ellArc ptan ((⟨L, ht, hb, wd⟩ : WingShape).half t) (wd t) top r).y| ≤ wd t at b1
    change |(ellArc ptan ((⟨L, ht, hb, wd⟩ : WingShape).half t) (wd t) top r).z| ≤ (⟨L, ht, hb, wd⟩ : WingShape).half t at b2
    obtain ⟨n1, n2⟩ := hX.nose t ht'
    have e1 := hX.edge _ (.inl rfl) t ht'
    have e2 := hX.edge _ (.inr rfl) t ht'
    obtain ⟨c1, c2⟩ := trig_le (ellArc ptan ((⟨L, ht, hb, wd⟩ : WingShape).half t) (wd t) top r).y (angAt (⟨L, ht, hb, wd⟩ : WingShape).M t)
    refine ⟨?_, ?_, ?_⟩
    · exact (abs_add_le _ _).trans (by simp only [WingShape.M, liftBy, swing]; linarith)
    · exact (abs_add_le _ _).trans (by simp only [WingShape.M, liftBy, swing]; linarith)
    · simp only [WingShape.rim, WingShape.M, liftBy, swing, Vec.add_z, midH]
      simp only [WingShape.half, halfH] at b2 ⊢
      have k1 := abs_le.1 e1.2.2
      have k2 := abs_le.1 e2.2.2
      have k3 := abs_le.1 b2
      simp only [liftBy] at k1 k2
      rw [abs_le]
      constructor <;> linarith
  tipA := by
    obtain ⟨f1, f2⟩ := hX.flap _ (.inl rfl)
    obtain ⟨c1, c2⟩ := trig_le w.args.flap_length w.args.flap_angle
    have e := hX.trail _ (.inl rfl) 0 ⟨le_rfl, zero_le_one⟩
    rw [lineAt_zero] at e
    exact ⟨(abs_sub _ _).trans (by linarith), e.2.1, (abs_add_le _ _).trans (by simp only [midH]; linarith)⟩
  tipB := by
    obtain ⟨f1, f2⟩ := hX.flap _ (.inr rfl)
    obtain ⟨c1, c2⟩ := trig_le w.args.flap_length w.args.flap_angle
    have e := hX.trail _ (.inl rfl) 1 ⟨zero_le_one, le_rfl⟩
    rw [lineAt_one] at e
    exact ⟨(abs_sub _ _).trans (by linarith), e.2.1, (abs_add_le _ _).trans (by simp only [midH]; linarith)⟩

theorem bends_ge {l : List Curvature} {X Y Z c : ℝ} (h : Bends l X Y Z c) (hZ : 0 ≤ Z) : 1 ≤ c := by
  induction h with
  | nil => exact le_rfl
  | cons k l X Y Z F K1 K2 c hk _ ih =>
    have := ih (by linarith [hk.f0])
    have := hk.k1
    nlinarith [mul_nonneg hZ hk.k2]

theorem curvePt_box (k : Curvature) (hd : k.direction = "x" ∨ k.direction = "y") (v : V) (X Y Z F f m : ℝ) (hf : k.fn v.x v.y = .ok f)
    (hm : k.fn_dash v.x v.y = .ok m) (hv : Box X Y Z v) (hF : |f| ≤ F) : Box (X + Z) (Y + Z) (Z + F) (curvePt k v) := by
  obtain ⟨c1, c2⟩ := trig_le v.z (Real.arctan m)
  obtain ⟨h1, h2, h3⟩ := hv
  have hZ := (abs_nonneg _).trans h3
  rcases hd with hd | hd
  · rw [curvePt_x k hd v f m hf hm]
    exact ⟨(abs_sub _ _).trans (by linarith), by simp only; linarith, (abs_add_le _ _).trans (by linarith)⟩
  · rw [curvePt_y k hd v f m hf hm]
    exact ⟨by simp only; linarith, (abs_sub _ _).trans (by linarith), (abs_add_le _ _).trans (by linarith)⟩

/-- Bending moves points apart by no more than the factor. -/
theorem bends_near {l : List Curvature} {X Y Z c : ℝ} (h : Bends l X Y Z c) : ∀ (u v : V) (ε : ℝ), Box X Y Z v → vdist u v ≤ ε → c * ε ≤ 1 →
    vdist (curveAll l u) (curveAll l v) ≤ c * ε := by
  induction h with
  | nil => intro u v ε _ hd _; simpa [curveAll] using hd
  | cons k l X Y Z F K1 K2 c hk hl ih =>
    intro u v ε hv hd hc
    obtain ⟨c1, c2, c3⟩ := vdist_coords u v
    have hε := (vdist_nonneg u v).trans hd
    have hZ := (abs_nonneg _).trans hv.2.2
    have hc1 := bends_ge hl (by linarith [hk.f0])
    have hfac : 1 ≤ 5 + 2 * Z * K2 + K1 := by nlinarith [mul_nonneg hZ hk.k2, hk.k1]
    have h1 : (5 + 2 * Z * K2 + K1) * ε ≤ (5 + 2 * Z * K2 + K1) * c * ε := by
      have := mul_nonneg (zero_le_one.trans hfac) hε
      nlinarith
    have hε1 : ε ≤ 1 := by nlinarith
    obtain ⟨f, m, hf, hm⟩ := hk.total u.x u.y
    obtain ⟨f', m', hf', hm'⟩ := hk.total v.x v.y
    have bx : ∀ a b A : ℝ, |b| ≤ A → |a - b| ≤ ε → |a| ≤ A + 1 := by
      intro a b A hb hab
      have := abs_le.1 hb
      have := abs_le.1 hab
      rw [abs_le]
      constructor <;> linarith
    have ux := bx _ _ _ hv.1 (c1.trans hd)
    have uy := bx _ _ _ hv.2.1 (c2.trans hd)
    have vx : |v.x| ≤ X + 1 := by linarith [hv.1]
    have vy : |v.y| ≤ Y + 1 := by linarith [hv.2.1]
    obtain ⟨l1, l2⟩ := hk.lip u v f f' m m' ε ux uy vx vy hf hf' hm hm' hd
    have near := curvePt_near k hk.dir u v f f' m m' ε Z K1 K2 hf hm hf' hm' hd hv.2.2 l1 l2
    have box := curvePt_box k hk.dir v X Y Z F f' m' hf' hm' hv (hk.bound _ _ _ vx vy hf')
    have := ih (curvePt k u) (curvePt k v) _ box near (by rw [← mul_assoc, mul_comm c]; exact hc)
    rw [← mul_assoc, mul_comm c] at this
    exact this

theorem bends_total {l : List Curvature} {X Y Z c : ℝ} (h : Bends l X Y Z c) :
    ∀ k ∈ l, (k.direction = "x" ∨ k.direction = "y") ∧ ∀ x y, ∃ f m, k.fn x y = .ok f ∧ k.fn_dash x y = .ok m := by
  induction h with
  | nil => simp
  | cons k l X Y Z F K1 K2 c hk _ ih =>
    intro k' hk'
    rcases List.mem_cons.1 hk' with rfl | hk'
    · exact ⟨hk.dir, hk.total⟩
    · exact ih k' hk'

/-- The plane of symmetry stays where it is. -/
theorem curveAll_plane {l : List Curvature} (hl : ∀ k ∈ l, (k.direction = "x" ∨ k.direction = "y") ∧ ∀ x y, ∃ f m, k.fn x y = .ok f ∧ k.fn_dash x y = .ok m)
    (hp : LevelAtPlane l) (v : V) (hv : v.y = 0) : (curveAll l v).y = 0 := by
  induction l generalizing v with
  | nil => exact hv
  | cons k l ih =>
    obtain ⟨f, m, hf, hm⟩ := (hl k List.mem_cons_self).2 v.x v.y
    apply ih (fun k hk => hl k (List.mem_cons_of_mem _ hk)) (fun k hk => hp k (List.mem_cons_of_mem _ hk))
    rcases (hl k List.mem_cons_self).1 with hd | hd
    · show (curvePt k v).y = 0
      rw [curvePt_x k hd v f m hf hm]; exact hv
    · show (curvePt k v).y = 0
      rw [curvePt_y k hd v f m hf hm]
      have := hp k List.mem_cons_self hd v.x
      rw [hv, this] at hm
      cases hm
      simp [hv]

/-- A wing as a generator leaves it: with a name, an axis of reflection, and curvatures. -/
noncomputable def bentWing (ptan : ℝ → ℝ) (w : Wing.State) (n : ℕ) (name refl : Option String) (app : Bool) (l : List Curvature) : Comp :=
  { Wing.comp ptan w n name with reflection_axis := refl, append_reflection := app, curvatures := some l }

theorem bent_wing {ptan : ℝ → ℝ} {w : Wing.State} {n : ℕ} (hn : 1 ≤ n) {ls : List (List (String × Surf))} {Gs : List (ℕ → ℕ → V)}
    (hst : List.Forall₂ (fun (r : Res (List (String × Surf))) l => r = .ok l) (Wing.stages ptan w) ls) (hG : GridsOf n ls.flatten Gs)
    {name refl : Option String} {app : Bool} {l : List Curvature}
    (hl : ∀ k ∈ l, (k.direction = "x" ∨ k.direction = "y") ∧ ∀ x y, ∃ f m, k.fn x y = .ok f ∧ k.fn_dash x y = .ok m)
    (H : Heap) (id : ℕ) (hid : H id = bentWing ptan w n name refl app l) :
    ∃ g, generatePatches H id = (.ok (), g) ∧
      (refl = none → ∃ c M c'', pipeline 0 (g id) = (.ok (), c) ∧ c.mesh = (.ok M, c'') ∧
        M.tris = ((Gs.map fun G i j => curveAll l (G i j)).map (gridMesh MeshArith.real false n n)).flatten) ∧
      (refl = some "y" → ∃ c M c'', pipeline 0 (g id) = (.ok (), c) ∧ c.mesh = (.ok M, c'') ∧
          M.tris = (if app then ((Gs.map fun G i j => curveAll l (G i j)).map (gridMesh MeshArith.real false n n)).flatten
            else []) ++ mapVerts (mirrorV 1) ((Gs.map fun G i j => curveAll l (G i j)).map (gridMesh MeshArith.real false n n)).flatten) := by
  obtain ⟨i1, i2, i3, i4, i5⟩ := wing_items hst
  obtain ⟨g, g1, g2, g3⟩ := curved_leaf H id _ (show (H id).gen = .into _ by rw [hid]; rfl) n hn (by rw [hid]; rfl) (by rw [hid]; rfl) (by rw [hid]; rfl) (by rw [hid]; rfl)
    (by rw [hid]; rfl) i1 (by rw [i2]; exact i3) (by rw [i2]; exact i4) Gs (by rw [i2]; exact hG) (by rw [hid]; rfl) l (by rw [hid]; rfl) hl
    (by rw [hid]; rfl)
  refine ⟨g, g1, fun hr => g2 (by rw [hid]; exact hr), fun hr => ?_⟩
  obtain ⟨c, M, c'', k1, k2, k3⟩ := g3 "y" 1 (.inl rfl) (by rw [hid]; subst hr; exact .inl rfl) (by rw [i2, i5]; exact Wing.no_mirrored w)
  refine ⟨c, M, c'', k1, k2, ?_⟩
  rw [k3, hid]; rfl

/-- C114, wings in the plane of symmetry: a wing whose root lies in the plane `y = 0`, added with its reflection and with curvatures that keep that plane, is
free of gaps; the numerical gaps of the wing grow by no more than the factor of the curvatures. -/
theorem C114_open_wing (find : (ℝ → Res ℝ) → Res ℝ) (ptan : ℝ → ℝ) (D : ℝ → ℝ → Prop) (a : Wing.Args) (w : Wing.State) (L : ℝ → V)
    (ht hb : ℝ → ℝ → ℝ) (wd : ℝ → ℝ) (ε X Y Z κ : ℝ) (l : List Curvature) (hw : Wing.init find a = .ok w) (hs : SmoothWing ptan D a L ht hb wd ε)
    (h1 : w.t_B1 ∈ Set.Icc (0 : ℝ) 1) (hc : a.close_wing = false) (r0 : a.A0.y = 0) (r1 : a.A1.y = 0) (rT : a.TT.y = 0)
    (hX : WingBox a L ht hb wd w.t_B1 X Y Z) (hl : Bends l X Y Z κ) (hp : LevelAtPlane l) (hε : κ * ε ≤ 1)
    (n : ℕ) (hn : 1 ≤ n) (name : Option String) (H : Heap) (id : ℕ) (hid : H id = bentWing ptan w n name (some "y") true l) :
    ∃ g c, generatePatches H id = (.ok (), g) ∧ pipeline 0 (g id) = (.ok (), c) ∧ ∃ M c', c.mesh = (.ok M, c') ∧ GapFree (κ * ε) M.tris := by
  obtain ⟨ha, t2, hok⟩ := smoothWing_ok hw hs h1
  subst ha
  obtain ⟨ls, Gs, hst, hG, glue⟩ := wing_glued_open hok n hn (wingBox_in hok hX) hc r0 r1 rT
  obtain ⟨g, g1, -, g2⟩ := bent_wing hn hst hG (bends_total hl) H id hid
  obtain ⟨c, M, c'', k1, k2, k3⟩ := g2 rfl
  have hZ : 0 ≤ Z := (abs_nonneg _).trans (hX.rear _ (.inl rfl) 0 ⟨le_rfl, zero_le_one⟩).2.2
  have hge := bends_ge hl hZ
  have h0 := hok.shape.gap_nonneg
  have glue' := glue.map (δ := κ * ε) (B' := fun _ => True) (K' := fun v => v.y = 0) (curveAll l)
    (fun u v hv hd => bends_near hl u v ε hv hd hε) (fun _ _ => trivial) (fun v hv => curveAll_plane (bends_total hl) hp v hv)
  obtain ⟨m', m1, m2⟩ := glue'.half (by positivity)
  refine ⟨g, c, g1, k1, M, c'', k2, ?_⟩
  rw [k3, if_pos rfl]
  exact halves_watertight m1 m2

/-- C114, closed wings: a closed wing added with curvatures is closed up to the gaps it had without them times the factor of the curvatures,
and so is its reflection when that replaces it. -/
theorem C114_closed_wing (find : (ℝ → Res ℝ) → Res ℝ) (ptan : ℝ → ℝ) (D : ℝ → ℝ → Prop) (a : Wing.Args) (w : Wing.State) (L : ℝ → V)
    (ht hb : ℝ → ℝ → ℝ) (wd : ℝ → ℝ) (ε δ X Y Z κ : ℝ) (l : List Curvature) (hw : Wing.init find a = .ok w) (hs : SmoothWing ptan D a L ht hb wd ε)
    (h1 : w.t_B1 ∈ Set.Icc (0 : ℝ) 1) (hc : a.close_wing = true) (t01 : BendsBy δ ht a.A0 a.A1) (t1T : BendsBy δ ht a.A1 a.TT)
    (b01 : BendsBy δ hb a.A0 a.A1) (b1T : BendsBy δ hb a.A1 a.TT) (hX : WingBox a L ht hb wd w.t_B1 X Y Z) (hl : Bends l X Y Z κ)
    (hε : κ * (ε + δ) ≤ 1) (n : ℕ) (hn : 1 ≤ n) (name : Option String) (H : Heap) (id : ℕ) :
    (H id = bentWing ptan w n name none true l →
      ∃ g c, generatePatches H id = (.ok (), g) ∧ pipeline 0 (g id) = (.ok (), c) ∧ ∃ M c', c.mesh = (.ok M, c') ∧ ClosedUpTo (κ * (ε + δ)) M.tris) ∧
    (H id = bentWing ptan w n name (some "y") false l →
      ∃ g c, generatePatches H id = (.ok (), g) ∧ pipeline 0 (g id) = (.ok (), c) ∧ ∃ M c', c.mesh = (.ok M, c') ∧ ClosedUpTo (κ * (ε + δ)) M.tris) := by
  obtain ⟨ha, t2, hok⟩ := smoothWing_ok hw hs h1
  subst ha
  obtain ⟨ls, Gs, hst, hG, glue⟩ := wing_glued_closed hok n hn (wingBox_in hok hX) hc δ (fun t ht => ⟨t01 t ht, t1T t ht⟩) (fun t ht => ⟨b01 t ht, b1T t ht⟩)
  have z0 : (0 : ℝ) ∈ Set.Icc (0 : ℝ) 1 := ⟨le_rfl, zero_le_one⟩
  have hZ : 0 ≤ Z := (abs_nonneg _).trans (hX.rear _ (.inl rfl) 0 z0).2.2
  have hge := bends_ge hl hZ
  have h0 := hok.shape.gap_nonneg
  have hδ : 0 ≤ δ := (vdist_nonneg _ _).trans (t01 0 z0)
  have glue' := glue.map (δ := κ * (ε + δ)) (B' := fun _ => True) (K' := fun _ => False) (curveAll l)
    (fun u v hv hd => bends_near hl u v (ε + δ) hv hd hε) (fun _ _ => trivial) (fun v hv => hv)
  have cl := glue'.closed (by positivity)
  constructor
  · intro hid
    obtain ⟨g, g1, g2, -⟩ := bent_wing hn hst hG (bends_total hl) H id hid
    obtain ⟨c, M, c'', k1, k2, k3⟩ := g2 rfl
    exact ⟨g, c, g1, k1, M, c'', k2, by rw [k3]; exact cl⟩
  · intro hid
    obtain ⟨g, g1, -, g2⟩ := bent_wing hn hst hG (bends_total hl) H id hid
    obtain ⟨c, M, c'', k1, k2, k3⟩ := g2 rfl
    refine ⟨g, c, g1, k1, M, c'', k2, ?_⟩
    rw [k3, if_neg (by simp), List.nil_append]
    obtain ⟨m', m1, m2⟩ := cl
    exact ⟨_, within_mapVerts _ (mirrorV_isometry 1) m1, closed_mapVerts _ _ m2⟩

/-- Parabolic curvature. -/
theorem gentle_parabola (d : String) (hd : d = "x" ∨ d = "y") (fn fn_dash : ℝ → ℝ → Res ℝ) (a X Y : ℝ) (hX : 0 ≤ X) (hY : 0 ≤ Y)
    (h1 : ∀ x y, fn x y = .ok (a * (if d = "x" then x else y) ^ 2)) (h2 : ∀ x y, fn_dash x y = .ok (2 * a * (if d = "x" then x else y))) :
    Gentle ⟨d, fn, fn_dash⟩ X Y (|a| * (max X Y) ^ 2) (2 * |a| * max X Y) (2 * |a|) where
  dir := hd
  total x y := ⟨_, _, h1 x y, h2 x y⟩
  bound x y f hx hy hf := by
    simp only at hf
    rw [h1] at hf
    cases hf
    have : |if d = "x" then x else y| ≤ max X Y := by
      split_ifs
      · exact hx.trans (le_max_left _ _)
      · exact hy.trans (le_max_right _ _)
    rw [abs_mul, abs_pow]
    gcongr
  lip u v f f' m m' D ux uy vx vy hf hf' hm hm' hD := by
    simp only at hf hf' hm hm'
    rw [h1] at hf hf'
    rw [h2] at hm hm'
    cases hf; cases hf'; cases hm; cases hm'
    obtain ⟨c1, c2, -⟩ := vdist_coords u v
    set p := if d = "x" then u.x else u.y with hp
    set q := if d = "x" then v.x else v.y with hq
    have e1 : |p| ≤ max X Y := by
      rw [hp]; split_ifs
      · exact ux.trans (le_max_left _ _)
      · exact uy.trans (le_max_right _ _)
    have e2 : |q| ≤ max X Y := by
      rw [hq]; split_ifs
      · exact vx.trans (le_max_left _ _)
      · exact vy.trans (le_max_right _ _)
    have e3 : |p - q| ≤ D := by
      rw [hp, hq]; split_ifs
      · exact c1.trans hD
      · exact c2.trans hD
    have hm0 : 0 ≤ max X Y := hX.trans (le_max_left _ _)
    constructor
    · rw [show a * p ^ 2 - a * q ^ 2 = a * ((p + q) * (p - q)) by ring, abs_mul, abs_mul]
      have : |p + q| ≤ 2 * max X Y := (abs_add_le _ _).trans (by linarith)
      calc |a| * (|p + q| * |p - q|) ≤ |a| * (2 * max X Y * D) := by gcongr
        _ = _ := by ring
    · rw [show 2 * a * p - 2 * a * q = 2 * a * (p - q) by ring, abs_mul, abs_mul, abs_two]
      gcongr
  f0 := by positivity
  k1 := by positivity
  k2 := by positivity

/-- A wing of uniform thickness lies in a box if its corners and its leading edge do. -/
theorem wingBox_uniform (a : Wing.Args) (L : ℝ → V) (b : ℝ) (wd : ℝ → ℝ) (t1 X Y Z : ℝ) (ht1 : t1 ∈ Set.Icc (0 : ℝ) 1)
    (hp : ∀ p, p = a.A0 ∨ p = a.A1 ∨ p = a.TT ∨ p = a.B0 → |p.x| ≤ X ∧ |p.y| ≤ Y ∧ |p.z| + |b| ≤ Z) (hw : ∀ t ∈ Set.Icc (0 : ℝ) 1, 0 ≤ wd t)
    (hL : ∀ t ∈ Set.Icc (0 : ℝ) 1, |(L t).x| + wd t ≤ X ∧ |(L t).y| + wd t ≤ Y ∧ |(L t).z| + |b| ≤ Z)
    (hf : ∀ p, p = a.A0 ∨ p = a.B0 → |p.x| + |a.flap_length| ≤ X ∧ |p.z| + |a.flap_length| ≤ Z) :
    WingBox a L (fun _ _ => -b) (fun _ _ => b) wd t1 X Y Z := by
  have lift : ∀ (h : ℝ → ℝ → ℝ) (p : V), (h = (fun _ _ => -b) ∨ h = fun _ _ => b) → |p.x| ≤ X → |p.y| ≤ Y → |p.z| + |b| ≤ Z → Box X Y Z (liftBy h p) := by
    intro h p hh h1 h2 h3
    refine ⟨h1, h2, (abs_add_le _ _).trans ?_⟩
    rcases hh with rfl | rfl
    · rw [abs_neg]; exact h3
    · exact h3
  have line : ∀ (h : ℝ → ℝ → ℝ) (u v : V) (t : ℝ), (h = (fun _ _ => -b) ∨ h = fun _ _ => b) → t ∈ Set.Icc (0 : ℝ) 1 → Box X Y Z (liftBy h u) →
      Box X Y Z (liftBy h v) → Box X Y Z (liftBy h (lineAt u v t)) := by
    intro h u v t hh ht hu hv
    have := box_conv ht hu hv
    rcases hh with rfl | rfl
    · rwa [show lineAt (liftBy (fun _ _ => -b) u) (liftBy (fun _ _ => -b) v) t = liftBy (fun _ _ => -b) (lineAt u v t) by
        ext <;> simp [liftBy, lineAt]; ring] at this
    · rwa [show lineAt (liftBy (fun _ _ => b) u) (liftBy (fun _ _ => b) v) t = liftBy (fun _ _ => b) (lineAt u v t) by
        ext <;> simp [liftBy, lineAt]; ring] at this
  have pt : ∀ h, (h = (fun _ _ => -b) ∨ h = fun _ _ => b) → ∀ p, p = a.A0 ∨ p = a.A1 ∨ p = a.TT ∨ p = a.B0 → Box X Y Z (liftBy h p) :=
    fun h hh p hp' => lift h p hh (hp p hp').1 (hp p hp').2.1 (hp p hp').2.2
  have ed : ∀ h, (h = (fun _ _ => -b) ∨ h = fun _ _ => b) → ∀ t ∈ Set.Icc (0 : ℝ) 1, Box X Y Z (liftBy h (L t)) := fun h hh t ht =>
    lift h _ hh (by linarith [(hL t ht).1, hw t ht]) (by linarith [(hL t ht).2.1, hw t ht]) (hL t ht).2.2
  exact {
    rear := fun h hh t ht => line h _ _ t hh ht (pt h hh _ (.inl rfl)) (pt h hh _ (.inr (.inl rfl)))
    front := fun h hh t ht => line h _ _ t hh ht (pt h hh _ (.inr (.inl rfl))) (pt h hh _ (.inr (.inr (.inl rfl))))
    chord := fun h hh t ht => line h _ _ t hh ht (pt h hh _ (.inr (.inl rfl))) (ed h hh _ ht1)
    trail := fun h hh t ht => line h _ _ t hh ht (pt h hh _ (.inl rfl)) (pt h hh _ (.inr (.inr (.inr rfl))))
    edge := ed
    nose := fun t ht => ⟨(hL t ht).1, (hL t ht).2.1⟩
    flap := fun p hp' => ⟨(hf p hp').1, by simpa using (hf p hp').2⟩ }

/-- Bending along the body and across it by parabolas. -/
def parabolas (a b : ℝ) : List Curvature :=
  [⟨"x", fun x _ => .ok (a * x ^ 2), fun x _ => .ok (2 * a * x)⟩, ⟨"y", fun _ y => .ok (b * y ^ 2), fun _ y => .ok (2 * b * y)⟩]

/-- The delta wing bent along and across, whole with its reflection, and closed: gaps of at most `10⁻⁹`. -/
example (find : (ℝ → Res ℝ) → Res ℝ) (n : ℕ) (hn : 1 ≤ n) : ∃ w,
    Wing.init find { deltaWing "custom" (some 0.5) none with close_wing := false } = .ok w ∧
      ∃ g c, generatePatches (fun _ => bentWing ieeeTan w n none (some "y") true (parabolas 0.01 0.05)) 0 = (.ok (), g) ∧
        pipeline 0 (g 0) = (.ok (), c) ∧ ∃ κ M c', κ * 1e-12 ≤ 1e-9 ∧ c.mesh = (.ok M, c') ∧ GapFree (κ * 1e-12) M.tris := by
  obtain ⟨w, hw⟩ : ∃ w, Wing.init find { deltaWing "custom" (some 0.5) none with close_wing := false } = .ok w := ⟨_, rfl⟩
  have h1 := (Wing.init_ok hw).2.2.1 0.5 rfl
  have hm : w.t_B1 ∈ Set.Icc (0 : ℝ) 1 := by rw [h1]; norm_num
  have wd : ∀ t ∈ Set.Icc (0 : ℝ) 1, (0.01 + 0.18 * t * (1 - t) : ℝ) ∈ Set.Icc (0 : ℝ) 1 := fun t ht => by
    have := mul_nonneg ht.1 (sub_nonneg.2 ht.2)
    constructor <;> nlinarith [ht.1, ht.2, sq_nonneg (t - 1 / 2)]
  have hX : WingBox { deltaWing "custom" (some 0.5) none with close_wing := false } (lineAt ⟨0, 1, 0⟩ ⟨2, 0, 0⟩) (fun _ _ => -0.05) (fun _ _ => 0.05)
      (fun t => 0.01 + 0.18 * t * (1 - t)) w.t_B1 3 3 1 := by
    apply wingBox_uniform _ _ _ _ _ _ _ _ hm
    · rintro p (rfl | rfl | rfl | rfl) <;> simp [deltaWing] <;> norm_num [abs_of_pos]
    · exact fun t ht => (wd t ht).1
    · intro t ht
      have := (wd t ht).2
      simp only [lineAt, Vec.add_x, Vec.add_y, Vec.add_z, Vec.mul_x, Vec.mul_y, Vec.mul_z]
      refine ⟨?_, ?_, by norm_num [abs_of_pos]⟩
      · have : |0 * (1 - t) + 2 * t| ≤ 2 := by rw [abs_le]; constructor <;> linarith [ht.1, ht.2]
        linarith
      · have : |1 * (1 - t) + 0 * t| ≤ 1 := by rw [abs_le]; constructor <;> linarith [ht.1, ht.2]
        linarith
    · rintro p (rfl | rfl) <;> simp [deltaWing] <;> norm_num [abs_of_pos]
  have hl : Bends (parabolas 0.01 0.05) 3 3 1 _ := .cons _ _ _ _ _ _ _ _ _
    (gentle_parabola "x" (.inl rfl) _ _ 0.01 (3 + 1) (3 + 1) (by norm_num) (by norm_num) (by intro x y; simp) (by intro x y; simp))
    (.cons _ _ _ _ _ _ _ _ _
      (gentle_parabola "y" (.inr rfl) _ _ 0.05 (3 + 1 + 1) (3 + 1 + 1) (by norm_num) (by norm_num) (by intro x y; simp) (by intro x y; simp))
      (.nil _ _ _))
  obtain ⟨g, c, g1, g2, M, c', g3, g4⟩ := C114_open_wing find ieeeTan _ _ w _ _ _ _ _ 3 3 1 _ _ hw (delta_smooth false) hm rfl rfl rfl rfl hX hl
    (by
      intro k hk hd x
      simp only [parabolas, List.mem_cons, List.not_mem_nil, or_false] at hk
      rcases hk with rfl | rfl
      · simp at hd
      · simp) (by norm_num [abs_of_pos]) n hn none (fun _ => bentWing ieeeTan w n none (some "y") true (parabolas 0.01 0.05)) 0 rfl
  exact ⟨w, hw, g, c, g1, g2, _, M, c', by norm_num [abs_of_pos], g3, g4⟩

end HV
