import Verif.Props.FinClosed

/-!
# The parts of a wing as panels
-/

namespace HV
open Spec

/-- Over the region `D` of the planform the thickness function moves every point vertically by a height that depends on `x` and `y`
only. -/
def Spec.HeightFn (D : ℝ → ℝ → Prop) (f : OffFn) (h : ℝ → ℝ → ℝ) : Prop := ∀ x y z, D x y → f x y z = .ok ⟨0, 0, h x y⟩

/-- The point at height `h` above `p`. -/
def Spec.liftBy (h : ℝ → ℝ → ℝ) (p : V) : V := ⟨p.x, p.y, p.z + h p.x p.y⟩

theorem liftBy_eq (h : ℝ → ℝ → ℝ) (p : V) : p + ⟨0, 0, h p.x p.y⟩ = liftBy h p := by ext <;> simp [liftBy]

/-- A curve traversed from parameter `a` to parameter `b` in `n` steps. -/
noncomputable def crv (n : ℕ) (F : ℝ → V) (a b : ℝ) (i : ℕ) : V := F (a + (i : ℝ) / n * (b - a))

theorem crv_zero (n : ℕ) (F : ℝ → V) (a b : ℝ) : crv n F a b 0 = F a := by simp [crv]

theorem crv_last (n : ℕ) (hn : 1 ≤ n) (F : ℝ → V) (a b : ℝ) : crv n F a b n = F b := by
  unfold crv
  rw [div_self (by positivity)]
  congr 1; ring

/-- Traversing a curve backwards changes the sign. -/
theorem pathSum_crv {A : Type} [AddCommGroup A] (φ : V → V → A) (h : Anti φ) (n : ℕ) (hn : 1 ≤ n) (F : ℝ → V) (a b : ℝ) :
    pathSum φ (crv n F b a) n = -pathSum φ (crv n F a b) n := by
  rw [← pathSum_reverse φ h (crv n F a b) n]
  apply pathSum_congr
  intro i hi
  unfold crv
  rw [div_flip hn hi]
  congr 1; ring

/-- A straight segment as a curve. -/
theorem crv_lineAt (n : ℕ) (u v : V) : crv n (lineAt u v) 0 1 = seg n u v := by
  funext i; simp [crv, seg]

/-- The point of a Coons patch with edges `N`, `E`, `S`, `W` that meet. -/
def blendAt (N E S W : ℝ → V) (u v : ℝ) : V := Coons.blend (S u) (N u) (W v) (E v) (S 0) (S 1) (N 1) (N 0) ⟨0, 0, 0⟩ u v

/-- A Coons patch whose edges meet has these edges as sides. -/
theorem coons_exact (n e s w : PathObj) (N E S W : ℝ → V) (hn : ∀ t ∈ Set.Icc (0 : ℝ) 1, n.call t = .ok (N t))
    (he : ∀ t ∈ Set.Icc (0 : ℝ) 1, e.call t = .ok (E t)) (hs : ∀ t ∈ Set.Icc (0 : ℝ) 1, s.call t = .ok (S t))
    (hw : ∀ t ∈ Set.Icc (0 : ℝ) 1, w.call t = .ok (W t)) (k00 : S 0 = W 0) (k10 : S 1 = E 0) (k01 : N 0 = W 1) (k11 : N 1 = E 1) :
    ∃ F : Surf, CoonsPatch n e s w = .ok F ∧
      (∀ u ∈ Set.Icc (0 : ℝ) 1, ∀ v ∈ Set.Icc (0 : ℝ) 1, F u v = .ok (blendAt N E S W u v)) ∧ (∀ v, blendAt N E S W 0 v = W v) ∧
      (∀ v, blendAt N E S W 1 v = E v) ∧ (∀ u, blendAt N E S W u 0 = S u) ∧ ∀ u, blendAt N E S W u 1 = N u := by
  have z0 : (0 : ℝ) ∈ Set.Icc (0 : ℝ) 1 := ⟨le_rfl, zero_le_one⟩
  have z1 : (1 : ℝ) ∈ Set.Icc (0 : ℝ) 1 := ⟨zero_le_one, le_rfl⟩
  have hk : Coons.ofEdges n e s w = .ok ⟨n, e, s, w, S 0, S 1, N 1, N 0, false, ⟨0, 0, 0⟩⟩ := by
    rw [Coons.ofEdges_ok_iff]
    exact ⟨S 0, S 1, N 0, N 1, W 0, W 1, E 0, E 1, hs _ z0, hs _ z1, hn _ z0, hn _ z1, hw _ z0, hw _ z1, he _ z0, he _ z1,
      k00 ▸ cornerClose_refl _, k10 ▸ cornerClose_refl _, k01 ▸ cornerClose_refl _, k11 ▸ cornerClose_refl _, rfl⟩
  refine ⟨_, by unfold CoonsPatch; rw [hk, ok_bind]; rfl, ?_, ?_, ?_, ?_, ?_⟩
  · intro u hu v hv
    simp only [Coons.call, hn u hu, he v hv, hs u hu, hw v hv, ok_bind, pure_eq]
    rfl
  · intro v
    simp only [blendAt, Coons.blend]
    ext <;> simp
  · intro v
    simp only [blendAt, Coons.blend]
    ext <;> simp
  · intro u
    simp only [blendAt, Coons.blend, ← k00, ← k10]
    ext <;> simp <;> ring
  · intro u
    simp only [blendAt, Coons.blend, ← k01, ← k11]
    ext <;> simp <;> ring

/-- A lifted Coons patch as a panel with exact sides. -/
theorem lifted_panel (k : ℕ) (hk : 1 ≤ k) (ε : ℝ) (hε : 0 ≤ ε) (D : ℝ → ℝ → Prop) (f : OffFn) (h : ℝ → ℝ → ℝ) (hf : HeightFn D f h)
    (n e s w : PathObj) (N E S W : ℝ → V) (hn : ∀ t ∈ Set.Icc (0 : ℝ) 1, n.call t = .ok (N t))
    (he : ∀ t ∈ Set.Icc (0 : ℝ) 1, e.call t = .ok (E t)) (hs : ∀ t ∈ Set.Icc (0 : ℝ) 1, s.call t = .ok (S t))
    (hw : ∀ t ∈ Set.Icc (0 : ℝ) 1, w.call t = .ok (W t)) (k00 : S 0 = W 0) (k10 : S 1 = E 0) (k01 : N 0 = W 1) (k11 : N 1 = E 1)
    (hD : ∀ u ∈ Set.Icc (0 : ℝ) 1, ∀ v ∈ Set.Icc (0 : ℝ) 1, D (blendAt N E S W u v).x (blendAt N E S W u v).y) :
    ∃ (F : Surf) (P : ℕ → ℕ → V), CoonsPatch n e s w = .ok F ∧
      (∀ i ≤ k, ∀ j ≤ k, OffsetPatchFunction F f ((i : ℝ) / k) ((j : ℝ) / k) = .ok (P i j)) ∧
      OffsetPatchFunction F f 0 0 = .ok (liftBy h (S 0)) ∧ OffsetPatchFunction F f 1 0 = .ok (liftBy h (S 1)) ∧
      (⟨P, crv k (liftBy h ∘ S) 0 1, crv k (liftBy h ∘ N) 0 1, crv k (liftBy h ∘ W) 0 1, crv k (liftBy h ∘ E) 0 1⟩ : Panel).Good k ε := by
  obtain ⟨F, h1, h2, h3, h4, h5, h6⟩ := coons_exact n e s w N E S W hn he hs hw k00 k10 k01 k11
  set G := blendAt N E S W
  have hk0 : (0 : ℝ) < k := by exact_mod_cast hk
  have hz : ∀ {u v : V}, u = v → vdist u v ≤ ε := fun h => by rw [h, vdist_self]; exact hε
  have hv : ∀ u ∈ Set.Icc (0 : ℝ) 1, ∀ v ∈ Set.Icc (0 : ℝ) 1, OffsetPatchFunction F f u v = .ok (liftBy h (G u v)) := by
    intro u hu v hv
    rw [offsetPatch_ok]
    exact ⟨_, _, h2 u hu v hv, hf _ _ _ (hD u hu v hv), (liftBy_eq h _).symm⟩
  have hmem : ∀ i ≤ k, (i : ℝ) / k ∈ Set.Icc (0 : ℝ) 1 := fun i hi => ⟨by positivity, (div_le_one hk0).2 (by exact_mod_cast hi)⟩
  have he' : ∀ i : ℕ, (0 : ℝ) + (i : ℝ) / k * (1 - 0) = (i : ℝ) / k := fun i => by ring
  have z0 : (0 : ℝ) ∈ Set.Icc (0 : ℝ) 1 := ⟨le_rfl, zero_le_one⟩
  have z1 : (1 : ℝ) ∈ Set.Icc (0 : ℝ) 1 := ⟨zero_le_one, le_rfl⟩
  refine ⟨F, fun i j => liftBy h (G ((i : ℝ) / k) ((j : ℝ) / k)), h1, fun i hi j hj => hv _ (hmem i hi) _ (hmem j hj),
    by rw [hv 0 z0 0 z0, h5 0], by rw [hv 1 z1 0 z0, h5 1], ?_⟩
  constructor
  · simp only [crv_zero, Function.comp, k00]
  · simp only [crv_zero, crv_last k hk, Function.comp, k10]
  · simp only [crv_zero, crv_last k hk, Function.comp, k01]
  · simp only [crv_last k hk, Function.comp, k11]
  · intro i hi
    apply hz
    simp only [Nat.cast_zero, zero_div, crv, he', Function.comp, h5]
  · intro i hi
    apply hz
    simp only [div_self hk0.ne', crv, he', Function.comp, h6]
  · intro i hi
    apply hz
    simp only [Nat.cast_zero, zero_div, crv, he', Function.comp, h3]
  · intro i hi
    apply hz
    simp only [div_self hk0.ne', crv, he', Function.comp, h4]

/-- The local angle only uses the line between parameters 0 and 1. -/
theorem leAngle_on {line : PathObj} {PL : ℝ → V} (h : ∀ t ∈ Set.Icc (0 : ℝ) 1, line.call t = .ok (PL t)) (t : ℝ)
    (ht : t ∈ Set.Icc (0 : ℝ) 1) : leAngle line t = .ok (angAt PL t) := by
  unfold leAngle angAt
  split_ifs with h0 h1
  · rfl
  · rfl
  · have hd : 0 ≤ min (min (0.001 : ℝ) |1 - t|) |t - 0| := le_min (le_min (by norm_num) (abs_nonneg _)) (abs_nonneg _)
    have d1 : min (min (0.001 : ℝ) |1 - t|) |t - 0| ≤ 1 - t := by
      refine (min_le_left _ _).trans ((min_le_right _ _).trans (le_of_eq (abs_of_nonneg (by linarith [ht.2]))))
    have d2 : min (min (0.001 : ℝ) |1 - t|) |t - 0| ≤ t := by
      refine (min_le_right _ _).trans (le_of_eq ?_)
      rw [sub_zero, abs_of_nonneg ht.1]
    simp only
    rw [h _ ⟨by linarith [ht.1], by linarith⟩, h _ ⟨by linarith, by linarith [ht.2]⟩]
    rfl

/-- A leading edge patch at one point. -/
theorem le_value_at (ptan : ℝ → ℝ) (wf : ℝ → Res ℝ) (M : ℝ → V) (mean guide : PathObj) (top : Bool)
    (hm : ∀ t ∈ Set.Icc (0 : ℝ) 1, mean.call t = .ok (M t)) (t0 t1 u r t : ℝ) (ht : t1 - u * (t1 - t0) = t) (hI : t ∈ Set.Icc (0 : ℝ) 1) (g : V) (b wv : ℝ) (hb : 0 < b) (hg : guide.call t = .ok g) (hz : |(M t).z - g.z| = b)
    (hw : wf t = .ok wv) :
    MeanLeadingEdgePatchFunction ptan mean guide wf t0 t1 (sideName top) u r =
      .ok (M t + swing (angAt M t) (ellArc ptan b wv top r)) := by
  subst ht
  unfold MeanLeadingEdgePatchFunction
  obtain ⟨q, hq, hcall⟩ := ellArc_path ptan ⟨0, 0, 0⟩ ((M (t1 - u * (t1 - t0))).z - g.z) b wv top hb hz
  simp only [hm _ hI, ok_bind, hg, hw, hq, hcall, leAngle_on hm _ hI, Vec.zero_add']
  rfl

/-- The elliptical edges about `c`, whatever the signs of the thicknesses: values, common nose, ends close to the vertices. -/
theorem ellipse_tips (ptan : ℝ → ℝ) (hT : TanLike ptan) (c : V) (tt tb b wv : ℝ) (hb : 0 < b) (htt : |tt| = b) (htb : |tb| = b) (hw : 0 < wv)
    (hfit : PoleFits ptan b wv) :
    ∃ et eb, ArcLengthParameterizedPath (ElipsePath ptan c tt wv "top") = .ok et ∧
      ArcLengthParameterizedPath (ElipsePath ptan c tb wv "bot") = .ok eb ∧
      (∀ r, et.call r = .ok (c + ellArc ptan b wv true r)) ∧ (∀ r, eb.call r = .ok (c + ellArc ptan b wv false r)) ∧
      ellArc ptan b wv true 1 = ⟨0, wv, 0⟩ ∧ ellArc ptan b wv false 0 = ⟨0, wv, 0⟩ ∧
      CornerClose (c + ellArc ptan b wv true 0) (c + upBy (-b)) ∧ CornerClose (c + upBy (-b)) (c + ellArc ptan b wv true 0) ∧
      CornerClose (c + ellArc ptan b wv false 1) (c + upBy b) ∧ CornerClose (c + upBy b) (c + ellArc ptan b wv false 1) ∧
      (∀ φ, vdist (swing φ (ellArc ptan b wv true 0)) (upBy (-b)) ≤ poleGap ptan b wv) ∧
      ∀ φ, vdist (swing φ (ellArc ptan b wv false 1)) (upBy b) ≤ poleGap ptan b wv := by
  have z0 : (0 : ℝ) ∈ Set.Icc (0 : ℝ) 1 := ⟨le_rfl, zero_le_one⟩
  have hr : RimOk ptan b wv (fun _ => .ok wv) := ⟨hT, hb, hw, hfit, fun _ _ => ⟨wv, le_rfl, rfl⟩⟩
  have hwid : widthAt (fun _ => .ok wv) 0 = wv := rfl
  obtain ⟨et, e1, v1⟩ := ellArc_path ptan c tt b wv true hb htt
  obtain ⟨eb, e2, v2⟩ := ellArc_path ptan c tb b wv false hb htb
  have hne : ∀ s : ℝ, |s| = b → s ≠ 0 := by rintro s hs rfl; simp at hs; linarith
  have hfit' : ∀ s : ℝ, |s| = b → PoleFits ptan s wv := by
    intro s hs
    obtain ⟨⟨a1, a2, a3⟩, a4⟩ := hfit
    rw [abs_of_pos hb] at a2 a3
    exact ⟨⟨a1, by rwa [hs], by rwa [hs]⟩, a4⟩
  obtain ⟨-, q1, f1, -, -, p1, f2, x1, y1, zz1⟩ := elipse_arc ptan hT c tt wv (hne _ htt) hw (hfit' _ htt)
  obtain ⟨⟨q2, f3, -, -, p2, f4, x2, y2, zz2⟩, -⟩ := elipse_arc ptan hT c tb wv (hne _ htb) hw (hfit' _ htb)
  have e1' : ArcLengthParameterizedPath (ElipsePath ptan c tt wv "top") = .ok et := e1
  have e2' : ArcLengthParameterizedPath (ElipsePath ptan c tb wv "bot") = .ok eb := e2
  rw [e1'] at f1
  rw [e2'] at f3
  cases f1
  cases f3
  rw [v1] at f2
  rw [v2] at f4
  cases f2
  cases f4
  rw [htt] at zz1
  rw [htb] at zz2
  have n1 := hr.nose true z0
  have n2 := hr.nose false z0
  simp only [if_true, Bool.false_eq_true, if_false, hwid] at n1 n2
  refine ⟨et, eb, e1', e2', v1, v2, n1, n2, ?_, ?_, ?_, ?_, fun φ => (hr.pole φ z0).2, fun φ => (hr.pole φ z0).1⟩
  · exact cornerClose_of (by simpa [upBy] using x1) (by simpa [upBy] using y1) (by simpa [upBy, sub_eq_add_neg] using zz1)
  · exact cornerClose_of (by simpa [upBy] using x1.symm) (by rw [abs_sub_comm]; simpa [upBy] using y1)
      (by rw [abs_sub_comm]; simpa [upBy, sub_eq_add_neg] using zz1)
  · exact cornerClose_of (by simpa [upBy] using x2) (by simpa [upBy] using y2) (by simpa [upBy] using zz2)
  · exact cornerClose_of (by simpa [upBy] using x2.symm) (by rw [abs_sub_comm]; simpa [upBy] using y2)
      (by rw [abs_sub_comm]; simpa [upBy] using zz2)

/-- Panels whose curves do not cancel: after moving the vertices onto the curves, the mesh has their turns as edge sums. -/
theorem panels_snapped (n : ℕ) (hn : 1 ≤ n) (ε : ℝ) (hε : 0 ≤ ε) (ps : List Panel) (h : ∀ p ∈ ps, p.Good n ε) :
    ∃ m', VertsWithin ε ((ps.map fun p => gridMesh MeshArith.real false n n p.P).flatten) m' ∧
      ∀ {A : Type} [AddCommGroup A] (φ : V → V → A), Anti φ → edgeSum φ (edges m') = (ps.map (Panel.turn φ n)).sum := by
  refine ⟨((ps.map (Panel.snap n)).map (gridMesh MeshArith.real false n n)).flatten, ?_, ?_⟩
  · induction ps with
    | nil => exact .nil
    | cons p ps ih =>
      simp only [List.map_cons, List.flatten_cons]
      exact List.rel_append (gridMesh_within n ε _ _ fun i hi j hj => Panel.snap_near n ε hε p (h p (by simp)) i j hi hj)
        (ih fun q hq => h q (by simp [hq]))
  · intro A _ φ hφ
    rw [edgeSum_grids φ hφ, List.map_map]
    congr 1
    apply List.map_congr_left
    intro p hp
    exact Panel.bdry_snap φ n hn ε p (h p hp)

/-! ## The leading edge of a wing -/

/-- The height half way between two heights. -/
noncomputable def midH (ht hb : ℝ → ℝ → ℝ) (x y : ℝ) : ℝ := (ht x y + hb x y) / 2

/-- Half the thickness above a point. -/
noncomputable def halfH (ht hb : ℝ → ℝ → ℝ) (p : V) : ℝ := (hb p.x p.y - ht p.x p.y) / 2

theorem liftBy_top (ht hb : ℝ → ℝ → ℝ) (p : V) : liftBy ht p = liftBy (midH ht hb) p + upBy (-halfH ht hb p) := by
  ext <;> simp [liftBy, midH, halfH, upBy]; ring

theorem liftBy_bot (ht hb : ℝ → ℝ → ℝ) (p : V) : liftBy hb p = liftBy (midH ht hb) p + upBy (halfH ht hb p) := by
  ext <;> simp [liftBy, midH, halfH, upBy]; ring

/-- The shape of a wing: leading edge line, heights of the two skins, width of the leading edge. -/
structure WingShape where
  L : ℝ → V
  ht : ℝ → ℝ → ℝ
  hb : ℝ → ℝ → ℝ
  wd : ℝ → ℝ

namespace WingShape
variable (ptan : ℝ → ℝ) (s : WingShape) (n : ℕ)

/-- The mean line. -/
noncomputable def M (t : ℝ) : V := liftBy (midH s.ht s.hb) (s.L t)

/-- Half the thickness at the leading edge. -/
noncomputable def half (t : ℝ) : ℝ := halfH s.ht s.hb (s.L t)

/-- The upper edge. -/
noncomputable def T (t : ℝ) : V := liftBy s.ht (s.L t)

/-- The lower edge. -/
noncomputable def B (t : ℝ) : V := liftBy s.hb (s.L t)

/-- The rim at parameter `t`. -/
noncomputable def rim (top : Bool) (t r : ℝ) : V := s.M t + swing (angAt s.M t) (ellArc ptan (s.half t) (s.wd t) top r)

noncomputable def rimTop (t : ℝ) (j : ℕ) : V := if j = 0 then s.T t else s.rim ptan true t ((j : ℝ) / n)

noncomputable def rimBot (t : ℝ) (j : ℕ) : V := if j = n then s.B t else s.rim ptan false t ((j : ℝ) / n)

/-- The nose of the leading edge. -/
noncomputable def nose (t : ℝ) : V := s.M t + swing (angAt s.M t) ⟨0, s.wd t, 0⟩

noncomputable def leTop (t0 t1 : ℝ) : Panel where
  P i j := s.rim ptan true (t1 - (i : ℝ) / n * (t1 - t0)) ((j : ℝ) / n)
  S := crv n s.T t1 t0
  N := crv n s.nose t1 t0
  W := s.rimTop ptan n t1
  E := s.rimTop ptan n t0

noncomputable def leBot (t0 t1 : ℝ) : Panel where
  P i j := s.rim ptan false (t1 - (i : ℝ) / n * (t1 - t0)) ((j : ℝ) / n)
  S := crv n s.nose t1 t0
  N := crv n s.B t1 t0
  W := s.rimBot ptan n t1
  E := s.rimBot ptan n t0

/-- What is needed of the numerical tangent, thickness and widths along the leading edge. -/
structure Ok (ptan : ℝ → ℝ) (s : WingShape) (g : ℝ) : Prop where
  like : TanLike ptan
  thick : ∀ t ∈ Set.Icc (0 : ℝ) 1, 0 < s.half t
  wpos : ∀ t ∈ Set.Icc (0 : ℝ) 1, 0 < s.wd t
  fits : ∀ t ∈ Set.Icc (0 : ℝ) 1, PoleFits ptan (s.half t) (s.wd t)
  gap : ∀ t ∈ Set.Icc (0 : ℝ) 1, poleGap ptan (s.half t) (s.wd t) ≤ g

variable {ptan s n} {g : ℝ} (h : s.Ok ptan g)
include h

theorem Ok.rimOk {t : ℝ} (ht : t ∈ Set.Icc (0 : ℝ) 1) : RimOk ptan (s.half t) (s.wd t) (fun _ => .ok (s.wd t)) :=
  ⟨h.like, h.thick t ht, h.wpos t ht, h.fits t ht, fun _ _ => ⟨_, le_rfl, rfl⟩⟩

theorem Ok.gap_nonneg : 0 ≤ g :=
  (h.rimOk ⟨le_rfl, zero_le_one⟩).gap_nonneg.trans (h.gap 0 ⟨le_rfl, zero_le_one⟩)

theorem Ok.rim_nose {t : ℝ} (ht : t ∈ Set.Icc (0 : ℝ) 1) : s.rim ptan true t 1 = s.nose t ∧ s.rim ptan false t 0 = s.nose t := by
  have z0 : (0 : ℝ) ∈ Set.Icc (0 : ℝ) 1 := ⟨le_rfl, zero_le_one⟩
  have n1 := (h.rimOk ht).nose true z0
  have n2 := (h.rimOk ht).nose false z0
  simp only [if_true, Bool.false_eq_true, if_false, show widthAt (fun _ => .ok (s.wd t)) 0 = s.wd t from rfl] at n1 n2
  constructor
  · rw [rim, n1]; rfl
  · rw [rim, n2]; rfl

theorem Ok.rim_pole {t : ℝ} (ht : t ∈ Set.Icc (0 : ℝ) 1) : vdist (s.rim ptan true t 0) (s.T t) ≤ g ∧ vdist (s.rim ptan false t 1) (s.B t) ≤ g := by
  have z0 : (0 : ℝ) ∈ Set.Icc (0 : ℝ) 1 := ⟨le_rfl, zero_le_one⟩
  have hp := (h.rimOk ht).pole (angAt s.M t) z0
  simp only [show widthAt (fun _ => .ok (s.wd t)) 0 = s.wd t from rfl] at hp
  have hg := h.gap t ht
  constructor
  · rw [rim, T, liftBy_top s.ht s.hb]
    exact (vdist_add_left _ _ _).trans_le (hp.2.trans hg)
  · rw [rim, B, liftBy_bot s.ht s.hb]
    exact (vdist_add_left _ _ _).trans_le (hp.1.trans hg)

theorem Ok.leTop_good (hn : 1 ≤ n) {t0 t1 : ℝ} (m0 : t0 ∈ Set.Icc (0 : ℝ) 1) (m1 : t1 ∈ Set.Icc (0 : ℝ) 1) :
    (s.leTop ptan n t0 t1).Good n g := by
  have hn0 : (n : ℝ) ≠ 0 := by positivity
  have hnn : n ≠ 0 := by omega
  have hg := h.gap_nonneg
  have z : ∀ {u v : V}, u = v → vdist u v ≤ g := fun h => by rw [h, vdist_self]; exact hg
  have hm : ∀ i ≤ n, t1 - (i : ℝ) / n * (t1 - t0) ∈ Set.Icc (0 : ℝ) 1 := by
    intro i hi
    have u0 : (0 : ℝ) ≤ (i : ℝ) / n := by positivity
    have u1 : (i : ℝ) / n ≤ 1 := (div_le_one (by positivity)).2 (by exact_mod_cast hi)
    constructor
    · nlinarith [m0.1, m1.1]
    · nlinarith [m0.2, m1.2]
  have e : ∀ i : ℕ, t1 + (i : ℝ) / n * (t0 - t1) = t1 - (i : ℝ) / n * (t1 - t0) := fun i => by ring
  have e1 : t1 - 1 * (t1 - t0) = t0 := by ring
  constructor
  · simp [WingShape.leTop, crv_zero, WingShape.rimTop]
  · simp [WingShape.leTop, crv_last n hn, WingShape.rimTop]
  · simp only [WingShape.leTop, crv_zero, WingShape.rimTop, hnn, if_false, div_self hn0, (h.rim_nose m1).1]
  · simp only [WingShape.leTop, crv_last n hn, WingShape.rimTop, hnn, if_false, div_self hn0, (h.rim_nose m0).1]
  · intro i hi
    simp only [WingShape.leTop, crv, e, Nat.cast_zero, zero_div]
    exact (h.rim_pole (hm i hi)).1
  · intro i hi
    apply z
    simp only [WingShape.leTop, crv, e, div_self hn0, (h.rim_nose (hm i hi)).1]
  · intro j hj
    simp only [WingShape.leTop, WingShape.rimTop, Nat.cast_zero, zero_div, zero_mul, sub_zero]
    split_ifs with h0
    · subst h0; simp only [Nat.cast_zero, zero_div]; exact (h.rim_pole m1).1
    · exact z rfl
  · intro j hj
    simp only [WingShape.leTop, WingShape.rimTop, div_self hn0, e1]
    split_ifs with h0
    · subst h0; simp only [Nat.cast_zero, zero_div]; exact (h.rim_pole m0).1
    · exact z rfl

theorem Ok.leBot_good (hn : 1 ≤ n) {t0 t1 : ℝ} (m0 : t0 ∈ Set.Icc (0 : ℝ) 1) (m1 : t1 ∈ Set.Icc (0 : ℝ) 1) :
    (s.leBot ptan n t0 t1).Good n g := by
  have hn0 : (n : ℝ) ≠ 0 := by positivity
  have hnn : (0 : ℕ) ≠ n := by omega
  have hg := h.gap_nonneg
  have z : ∀ {u v : V}, u = v → vdist u v ≤ g := fun h => by rw [h, vdist_self]; exact hg
  have hm : ∀ i ≤ n, t1 - (i : ℝ) / n * (t1 - t0) ∈ Set.Icc (0 : ℝ) 1 := by
    intro i hi
    have u0 : (0 : ℝ) ≤ (i : ℝ) / n := by positivity
    have u1 : (i : ℝ) / n ≤ 1 := (div_le_one (by positivity)).2 (by exact_mod_cast hi)
    constructor
    · nlinarith [m0.1, m1.1]
    · nlinarith [m0.2, m1.2]
  have e : ∀ i : ℕ, t1 + (i : ℝ) / n * (t0 - t1) = t1 - (i : ℝ) / n * (t1 - t0) := fun i => by ring
  have e1 : t1 - 1 * (t1 - t0) = t0 := by ring
  constructor
  · simp only [WingShape.leBot, crv_zero, WingShape.rimBot, hnn, if_false, Nat.cast_zero, zero_div, (h.rim_nose m1).2]
  · simp only [WingShape.leBot, crv_last n hn, WingShape.rimBot, hnn, if_false, Nat.cast_zero, zero_div, (h.rim_nose m0).2]
  · simp [WingShape.leBot, crv_zero, WingShape.rimBot]
  · simp [WingShape.leBot, crv_last n hn, WingShape.rimBot]
  · intro i hi
    apply z
    simp only [WingShape.leBot, crv, e, Nat.cast_zero, zero_div, (h.rim_nose (hm i hi)).2]
  · intro i hi
    simp only [WingShape.leBot, crv, e, div_self hn0]
    exact (h.rim_pole (hm i hi)).2
  · intro j hj
    simp only [WingShape.leBot, WingShape.rimBot, Nat.cast_zero, zero_div, zero_mul, sub_zero]
    split_ifs with h0
    · subst h0; simp only [div_self hn0]; exact (h.rim_pole m1).2
    · exact z rfl
  · intro j hj
    simp only [WingShape.leBot, WingShape.rimBot, div_self hn0, e1]
    split_ifs with h0
    · subst h0; simp only [div_self hn0]; exact (h.rim_pole m0).2
    · exact z rfl

end WingShape

end HV
