import Verif.Lemmas.WingClose
import Verif.Lemmas.Assembly

/-!
# C140: the dimensions given for a wing are those of its mesh
-/

namespace HV
open Spec

namespace Spec

/-- The end of the flap behind the point `p` of the trailing edge: the length of the flap back, turned by its angle, from the middle of the edge. -/
noncomputable def flapEnd (a : Wing.Args) (ht hb : ℝ → ℝ → ℝ) (p : V) : V :=
  ⟨p.x - a.flap_length * Real.cos a.flap_angle, p.y, (ht p.x p.y + hb p.x p.y) / 2 + a.flap_length * Real.sin a.flap_angle⟩

/-- A point of the upper or lower skin over the region `D`, or an end of the flap. -/
def OnWing (D : ℝ → ℝ → Prop) (a : Wing.Args) (ht hb : ℝ → ℝ → ℝ) (q : V) : Prop :=
  (D q.x q.y ∧ (q.z = ht q.x q.y ∨ q.z = hb q.x q.y)) ∨ q = flapEnd a ht hb a.A0 ∨ q = flapEnd a ht hb a.B0

/-- Every plane that has the skins and the ends of the flap on one side has the point on that side, up to `W` horizontally and `g` vertically. -/
def WithinWing (D : ℝ → ℝ → Prop) (a : Wing.Args) (ht hb : ℝ → ℝ → ℝ) (W g : ℝ) (v : V) : Prop :=
  ∀ α β γ δ κ : ℝ, 0 ≤ κ → α ^ 2 + β ^ 2 ≤ κ ^ 2 → (∀ q, OnWing D a ht hb q → α * q.x + β * q.y + γ * q.z ≤ δ) →
    α * v.x + β * v.y + γ * v.z ≤ δ + κ * W + |γ| * g

/-- The mesh of a wing has the dimensions of its arguments: it reaches nowhere beyond the skins and the flap, up to the width `W` of the leading edge and the
allowance `g`; the skins have vertices at the four corners and at the `n` equal parts of the root between `A0` and `A1`, the flap at its two ends, and the leading edge stands `w0` to the side of its root and `w1` in front
of the tip. -/
structure WingSized (D : ℝ → ℝ → Prop) (a : Wing.Args) (ht hb : ℝ → ℝ → ℝ) (w0 w1 W g : ℝ) (n : ℕ) (m : TriMesh ℝ) : Prop where
  within : ∀ v, IsVertex v m → WithinWing D a ht hb W g v
  skins : ∀ p ∈ [a.A0, a.A1, a.B0, a.TT], IsVertex ⟨p.x, p.y, ht p.x p.y⟩ m ∧ IsVertex ⟨p.x, p.y, hb p.x p.y⟩ m
  root : ∀ i : ℕ, i ≤ n → ∀ x y : ℝ, x = a.A0.x + (i : ℝ) / n * (a.A1.x - a.A0.x) → y = a.A0.y + (i : ℝ) / n * (a.A1.y - a.A0.y) →
    IsVertex ⟨x, y, ht x y⟩ m ∧ IsVertex ⟨x, y, hb x y⟩ m
  flap : ∀ p ∈ [a.A0, a.B0], IsVertex (flapEnd a ht hb p) m
  side : IsVertex ⟨a.B0.x, a.B0.y + w0, (ht a.B0.x a.B0.y + hb a.B0.x a.B0.y) / 2⟩ m
  front : IsVertex ⟨a.TT.x + w1, a.TT.y, (ht a.TT.x a.TT.y + hb a.TT.x a.TT.y) / 2⟩ m

/-- The planform lies in the plane `z = 0`, and the leading edge is at most `W` wide. -/
structure FlatPlanform (a : Wing.Args) (L : ℝ → V) (wd : ℝ → ℝ) (W : ℝ) : Prop where
  z0 : a.A0.z = 0
  z1 : a.A1.z = 0
  zL : ∀ t ∈ Set.Icc (0 : ℝ) 1, (L t).z = 0
  width : ∀ t ∈ Set.Icc (0 : ℝ) 1, wd t ≤ W

end Spec

theorem swing_le {α β φ y κ : ℝ} (hκ : 0 ≤ κ) (h : α ^ 2 + β ^ 2 ≤ κ ^ 2) (hy : 0 ≤ y) : α * (y * Real.cos φ) + β * (y * Real.sin φ) ≤ κ * y := by
  have hcs := Real.sin_sq_add_cos_sq φ
  have h1 : α * Real.cos φ + β * Real.sin φ ≤ κ := by
    refine (le_abs_self _).trans (abs_le_of_sq_le_sq ?_ hκ)
    have : (α * Real.cos φ + β * Real.sin φ) ^ 2 = (α ^ 2 + β ^ 2) - (α * Real.sin φ - β * Real.cos φ) ^ 2 := by
      linear_combination (α ^ 2 + β ^ 2) * hcs
    rw [this]; nlinarith [sq_nonneg (α * Real.sin φ - β * Real.cos φ)]
  have := mul_le_mul_of_nonneg_right h1 hy
  linarith

theorem within_wing_centre {D : ℝ → ℝ → Prop} {a : Wing.Args} {ht hb : ℝ → ℝ → ℝ} {W g : ℝ} (p q r s : V) (hp : WithinWing D a ht hb W g p)
    (hq : WithinWing D a ht hb W g q) (hr : WithinWing D a ht hb W g r) (hs : WithinWing D a ht hb W g s) :
    WithinWing D a ht hb W g (cellCentre MeshArith.real p q r s) := by
  intro α β γ δ κ h0 h1 h2
  have := aff_centre α β γ 0 p q r s
  simp only [aff] at this
  linarith [hp α β γ δ κ h0 h1 h2, hq α β γ δ κ h0 h1 h2, hr α β γ δ κ h0 h1 h2, hs α β γ δ κ h0 h1 h2]

/-- A panel of which only the grid points matter. -/
def bare (P : ℕ → ℕ → V) : Panel := ⟨P, fun _ => ⟨0, 0, 0⟩, fun _ => ⟨0, 0, 0⟩, fun _ => ⟨0, 0, 0⟩, fun _ => ⟨0, 0, 0⟩⟩

/-- The extents of a wing that is regular at the parameters at which the mesh evaluates the leading edge. -/
theorem wing_size_on {ptan : ℝ → ℝ} {D : ℝ → ℝ → Prop} {S : Set ℝ} {w : Wing.State} {s : WingShape} {t2 g : ℝ} (h : WingOn ptan D S w s t2 g)
    (n : ℕ) (hn : 1 ≤ n) (hg : SampledIn S n w.t_B1 t2) (W : ℝ) (hf : FlatPlanform w.args s.L s.wd W)
    (name : Option String) (H : Heap) (id : ℕ) (hid : H id = Wing.comp ptan w n name) :
    ∃ h' M c', generatePatches H id = (.ok (), h') ∧ (h' id).mesh = (.ok M, c') ∧
      WingSized D w.args s.ht s.hb (s.wd 0) (s.wd 1) W g n M.tris := by
  have z0 : (0 : ℝ) ∈ Set.Icc (0 : ℝ) 1 := ⟨le_rfl, zero_le_one⟩
  have z1 : (1 : ℝ) ∈ Set.Icc (0 : ℝ) 1 := ⟨zero_le_one, le_rfl⟩
  have hn0 : (n : ℝ) ≠ 0 := by positivity
  have hgap := h.shape.gap_nonneg
  have hmem : ∀ i ≤ n, (i : ℝ) / n ∈ Set.Icc (0 : ℝ) 1 := fun i hi => ⟨by positivity, (div_le_one (by positivity)).2 (by exact_mod_cast hi)⟩
  have hmem' : ∀ i ≤ n, 1 - (i : ℝ) / n ∈ Set.Icc (0 : ℝ) 1 := fun i hi => ⟨by linarith [(hmem i hi).2], by linarith [(hmem i hi).1]⟩
  have hW : 0 ≤ W := (h.shape.wpos 0 h.shape.zero).le.trans (hf.width 0 z0)
  have zB : w.args.B0.z = 0 := by rw [← h.L0]; exact hf.zL 0 z0
  have zT : w.args.TT.z = 0 := by rw [← h.L1]; exact hf.zL 1 z1
  obtain ⟨F0, F1, F2, F3, hs, vs⟩ := wing_skins_at h.toWingBase
  obtain ⟨G0, G1, hfl, vf⟩ := wing_flap_at h.toWingBase
  obtain ⟨T, hte, vt⟩ := wing_tele_at h
  obtain ⟨le, hle, fle⟩ := wing_leading_on h n hn hg
  set K := WithinWing D w.args s.ht s.hb W g with hK
  have tipA : flapTip w s w.args.A0 = flapEnd w.args s.ht s.hb w.args.A0 := by
    unfold flapTip flapEnd midH; rw [hf.z0, zero_add]
  have tipB : flapTip w s w.args.B0 = flapEnd w.args s.ht s.hb w.args.B0 := by
    unfold flapTip flapEnd midH; rw [zB, zero_add]
  -- points of the support
  have onT : ∀ p : V, p.z = 0 → D p.x p.y → OnWing D w.args s.ht s.hb (liftBy s.ht p) := by
    intro p hz hD
    refine .inl ⟨hD, .inl ?_⟩
    simp [liftBy, hz]
  have onB : ∀ p : V, p.z = 0 → D p.x p.y → OnWing D w.args s.ht s.hb (liftBy s.hb p) := by
    intro p hz hD
    refine .inl ⟨hD, .inr ?_⟩
    simp [liftBy, hz]
  have on : ∀ q, OnWing D w.args s.ht s.hb q → K q := by
    intro q hq α β γ δ κ hκ _ hδ
    have := hδ q hq
    have := mul_nonneg hκ hW
    have := mul_nonneg (abs_nonneg γ) hgap
    linarith
  have inner0 : ∀ u ∈ Set.Icc (0 : ℝ) 1, ∀ v ∈ Set.Icc (0 : ℝ) 1, (innerPt w.args.A0 w.args.A1 s.L w.t_B1 u v).z = 0 := by
    intro u hu v _
    have : (s.L (u * w.t_B1)).z = 0 := hf.zL _ ⟨mul_nonneg hu.1 h.t1mem.1, mul_le_one₀ hu.2 h.t1mem.1 h.t1mem.2⟩
    simp [bare, innerPt, lineAt, hf.z0, hf.z1, this]
  have outer0 : ∀ u ∈ Set.Icc (0 : ℝ) 1, ∀ v ∈ Set.Icc (0 : ℝ) 1, (outerPt w.args.A1 s.L w.t_B1 t2 u v).z = 0 := by
    intro u hu v hv
    have a1 : (s.L (w.t_B1 + u * (t2 - w.t_B1))).z = 0 := hf.zL _ ⟨by nlinarith [h.t1mem.1, h.t12, hu.1], by nlinarith [h.t2mem.2, h.t12, hu.2]⟩
    have a2 : (s.L (1 + v * (t2 - 1))).z = 0 := hf.zL _ ⟨by nlinarith [h.t2mem.1, h.t2mem.2, hv.2, hv.1], by nlinarith [h.t2mem.2, hv.1]⟩
    simp [outerPt, hf.z1, a1, a2, hf.zL t2 h.t2mem]
  have innerD : ∀ u ∈ Set.Icc (0 : ℝ) 1, ∀ v ∈ Set.Icc (0 : ℝ) 1, D (innerPt w.args.A0 w.args.A1 s.L w.t_B1 u v).x (innerPt w.args.A0 w.args.A1 s.L w.t_B1 u v).y :=
    fun u hu v hv => h.cov.inner _ h.t1mem u hu v hv
  have outerD : ∀ u ∈ Set.Icc (0 : ℝ) 1, ∀ v ∈ Set.Icc (0 : ℝ) 1, D (outerPt w.args.A1 s.L w.t_B1 t2 u v).x (outerPt w.args.A1 s.L w.t_B1 t2 u v).y :=
    fun u hu v hv => h.cov.outer _ h.t1mem t2 ⟨h.t12, h.t2mem.2⟩ u hu v hv
  -- the mean line
  have mean : ∀ t ∈ Set.Icc (0 : ℝ) 1, ∀ α β γ δ : ℝ, (∀ q, OnWing D w.args s.ht s.hb q → α * q.x + β * q.y + γ * q.z ≤ δ) →
      α * (s.M t).x + β * (s.M t).y + γ * (s.M t).z + |γ| * s.half t ≤ δ := by
    intro t ht α β γ δ hδ
    have hD := h.cov.le t ht
    have hz := hf.zL t ht
    have k1 := hδ _ (onT (s.L t) hz hD)
    have k2 := hδ _ (onB (s.L t) hz hD)
    simp only [liftBy] at k1 k2
    simp only [WingShape.M, WingShape.half, halfH, midH, liftBy]
    rcases abs_cases γ with ⟨e, -⟩ | ⟨e, -⟩ <;> rw [e] <;> linarith
  have rimIn : ∀ top, ∀ t ∈ S, ∀ r ∈ Set.Icc (0 : ℝ) 1, K (s.rim ptan top t r) := by
    intro top t ht r hr α β γ δ κ hκ h1 hδ
    have hfit := h.shape.fits t ht
    obtain ⟨y0, y1, zz⟩ := ellArc_quadrant h.shape.like (h.shape.thick t ht) (h.shape.wpos t ht) hfit.1.1 hfit.2 top hr
    have hm := mean t (h.sub ht) α β γ δ hδ
    have hsw := swing_le (φ := angAt s.M t) hκ h1 y0
    have hy := mul_le_mul_of_nonneg_left (y1.trans (hf.width t (h.sub ht))) hκ
    have hb := h.shape.thick t ht
    have hz : |(ellArc ptan (s.half t) (s.wd t) top r).z| ≤ s.half t := by
      rw [abs_le]
      cases top <;> simp only [if_true, Bool.false_eq_true, if_false] at zz <;> constructor <;> linarith [zz.1, zz.2]
    have hzz : γ * (ellArc ptan (s.half t) (s.wd t) top r).z ≤ |γ| * s.half t :=
      (le_abs_self _).trans (by rw [abs_mul]; exact mul_le_mul_of_nonneg_left hz (abs_nonneg _))
    have := mul_nonneg (abs_nonneg γ) hgap
    simp only [WingShape.rim, swing, Vec.add_x, Vec.add_y, Vec.add_z]
    linarith
  have conv : ∀ (u v : V) (t : ℝ), t ∈ Set.Icc (0 : ℝ) 1 → K u → K v → K (lineAt u v t) := by
    intro u v t ht hu hv α β γ δ κ hκ h1 hδ
    have a1 := mul_le_mul_of_nonneg_left (hu α β γ δ κ hκ h1 hδ) (sub_nonneg.2 ht.2)
    have a2 := mul_le_mul_of_nonneg_left (hv α β γ δ κ hκ h1 hδ) ht.1
    simp only [lineAt, Vec.add_x, Vec.add_y, Vec.add_z, Vec.mul_x, Vec.mul_y, Vec.mul_z]
    linarith
  have kA : K (flapTip w s w.args.A0) := on _ (.inr (.inl tipA))
  have kB : K (flapTip w s w.args.B0) := on _ (.inr (.inr tipB))
  have teD : ∀ t ∈ Set.Icc (0 : ℝ) 1, D (lineAt w.args.A0 w.args.B0 t).x (lineAt w.args.A0 w.args.B0 t).y := by
    intro t ht
    have := h.cov.te t ht
    rwa [h.L0] at this
  have teZ : ∀ t : ℝ, (lineAt w.args.A0 w.args.B0 t).z = 0 := fun t => by simp [lineAt, hf.z0, zB]
  have teleIn : ∀ u ∈ Set.Icc (0 : ℝ) 1, ∀ v ∈ Set.Icc (0 : ℝ) 1, ∀ q, T u v = .ok q → K q := by
    intro u hu v hv q hq α β γ δ κ hκ h1 hδ
    obtain ⟨y, z, d, e, hy, hz, hd⟩ := vt u hu v hv
    rw [hq] at e
    cases e
    have hm := mean 0 z0 α β γ δ hδ
    have ht := hδ _ (.inr (.inr tipB))
    have m0 : 0 ≤ u * (1 - v) := mul_nonneg hu.1 (sub_nonneg.2 hv.2)
    have m1 : 0 ≤ 1 - u * (1 - v) := by
      have := mul_le_one₀ hu.2 (sub_nonneg.2 hv.2) (by linarith [hv.1])
      linarith
    have hβ : |β| ≤ κ := abs_le_of_sq_le_sq (by nlinarith [sq_nonneg α]) hκ
    have b1 : β * y ≤ κ * W := (le_abs_self _).trans (by
      rw [abs_mul]
      exact mul_le_mul hβ (hy.trans (hf.width 0 z0)) (abs_nonneg _) hκ)
    have b2 : γ * z ≤ |γ| * ((1 - u * (1 - v)) * s.half 0) := (le_abs_self _).trans (by
      rw [abs_mul]
      exact mul_le_mul_of_nonneg_left hz (abs_nonneg _))
    have b3 : γ * d ≤ |γ| * g := (le_abs_self _).trans (by
      rw [abs_mul]
      exact mul_le_mul_of_nonneg_left hd (abs_nonneg _))
    have a1 := mul_le_mul_of_nonneg_left hm m1
    have a2 := mul_le_mul_of_nonneg_left ht m0
    simp only [Vec.add_x, Vec.add_y, Vec.add_z, Vec.mul_x, Vec.mul_y, Vec.mul_z]
    linarith
  -- the panels
  have htele : ∃ PT : ℕ → ℕ → V, ∀ i ≤ n, ∀ j ≤ n, T ((i : ℝ) / n) ((j : ℝ) / n) = .ok (PT i j) := by
    choose f hf using fun (i : ℕ) (j : ℕ) => (show ∃ q, i ≤ n → j ≤ n → T ((i : ℝ) / n) ((j : ℝ) / n) = .ok q by
      by_cases hi : i ≤ n
      · by_cases hj : j ≤ n
        · obtain ⟨y, z, d, e, -⟩ := vt _ (hmem i hi) _ (hmem j hj)
          exact ⟨_, fun _ _ => e⟩
        · exact ⟨⟨0, 0, 0⟩, fun _ k => absurd k hj⟩
      · exact ⟨⟨0, 0, 0⟩, fun k => absurd k hi⟩)
    exact ⟨f, fun i hi j hj => hf i j hi hj⟩
  obtain ⟨PT, hPT⟩ := htele
  have fs : Grids n [("top_patch_0", F0), ("top_patch_1", F1), ("bot_patch_0", F2), ("bot_patch_1", F3)]
      [bare fun i j => liftBy s.ht (innerPt w.args.A0 w.args.A1 s.L w.t_B1 (1 - (i : ℝ) / n) ((j : ℝ) / n)),
        bare fun i j => liftBy s.ht (outerPt w.args.A1 s.L w.t_B1 t2 (1 - (i : ℝ) / n) ((j : ℝ) / n)),
        bare fun i j => liftBy s.hb (innerPt w.args.A0 w.args.A1 s.L w.t_B1 ((i : ℝ) / n) ((j : ℝ) / n)),
        bare fun i j => liftBy s.hb (outerPt w.args.A1 s.L w.t_B1 t2 ((i : ℝ) / n) ((j : ℝ) / n))] :=
    .cons (fun i hi j hj => (vs _ (hmem i hi) _ (hmem j hj)).1) (.cons (fun i hi j hj => (vs _ (hmem i hi) _ (hmem j hj)).2.1)
      (.cons (fun i hi j hj => (vs _ (hmem i hi) _ (hmem j hj)).2.2.1) (.cons (fun i hi j hj => (vs _ (hmem i hi) _ (hmem j hj)).2.2.2) .nil)))
  have ff : Grids n [("TE_top_patch", G0), ("TE_bot_patch", G1)]
      [bare fun i j => lineAt (lineAt (flapTip w s w.args.A0) (flapTip w s w.args.B0) ((i : ℝ) / n)) (liftBy s.ht (lineAt w.args.A0 w.args.B0 ((i : ℝ) / n))) ((j : ℝ) / n),
        bare fun i j => lineAt (liftBy s.hb (lineAt w.args.A0 w.args.B0 ((i : ℝ) / n))) (lineAt (flapTip w s w.args.A0) (flapTip w s w.args.B0) ((i : ℝ) / n)) ((j : ℝ) / n)] :=
    .cons (fun i hi j hj => (vf _ (hmem i hi) _ (hmem j hj)).1) (.cons (fun i hi j hj => (vf _ (hmem i hi) _ (hmem j hj)).2) .nil)
  have ft : Grids n [("TELE_patch", T)] [bare PT] := .cons hPT .nil
  -- the panels that close the root, if it is closed
  have mids : ∀ p : V, liftBy (midH s.ht s.hb) p = lineAt (liftBy s.ht p) (liftBy s.hb p) 0.5 := by
    intro p; ext <;> simp [liftBy, midH, lineAt] <;> ring
  have h05 : (0.5 : ℝ) ∈ Set.Icc (0 : ℝ) 1 := by constructor <;> norm_num
  have D0 : D w.args.A0.x w.args.A0.y := by have := teD 0 z0; rwa [lineAt_zero] at this
  have D1 : D w.args.A1.x w.args.A1.y := by
    have := innerD 1 z1 0 z0
    simpa [innerPt, lineAt_zero, lineAt_one] using this
  have t0 : K (liftBy s.ht w.args.A0) := on _ (onT _ hf.z0 D0)
  have b0 : K (liftBy s.hb w.args.A0) := on _ (onB _ hf.z0 D0)
  have t1 : K (liftBy s.ht w.args.A1) := on _ (onT _ hf.z1 D1)
  have b1 : K (liftBy s.hb w.args.A1) := on _ (onB _ hf.z1 D1)
  have tT : K (s.T 1) := on _ (onT _ (hf.zL 1 z1) (h.cov.le 1 z1))
  have bT : K (s.B 1) := on _ (onB _ (hf.zL 1 z1) (h.cov.le 1 z1))
  have m0 : K (liftBy (midH s.ht s.hb) w.args.A0) := by rw [mids]; exact conv _ _ _ h05 t0 b0
  have m1 : K (liftBy (midH s.ht s.hb) w.args.A1) := by rw [mids]; exact conv _ _ _ h05 t1 b1
  have mT : K (s.M 1) := by rw [WingShape.M, mids]; exact conv _ _ _ h05 tT bT
  have kbil : ∀ (a b c d : V), K a → K b → K c → K d → ∀ i ≤ n, ∀ j ≤ n, K (bil a b c d ((i : ℝ) / n) ((j : ℝ) / n)) :=
    fun a b c d ka kb kc kd i hi j hj => conv _ _ _ (hmem j hj) (conv _ _ _ (hmem i hi) ka kb) (conv _ _ _ (hmem i hi) kd kc)
  have hF0 : F0 0 0 = .ok (liftBy s.ht w.args.A1) := by
    have := (vs 0 z0 0 z0).1
    simpa [innerPt, lineAt_zero, lineAt_one] using this
  have hF2 : F2 1 0 = .ok (liftBy s.hb w.args.A1) := by
    have := (vs 1 z1 0 z0).2.2.1
    simpa [innerPt, lineAt_zero, lineAt_one] using this
  obtain ⟨xs, ps, hxs, fx, kx⟩ : ∃ (xs : List (List (String × Surf))) (ps : List Panel),
      List.Forall₂ (fun st l => st = .ok l) (if w.args.close_wing then [Wing.closeFrom ptan w, Wing.closeFlap w] else []) xs ∧
      Grids n xs.flatten ps ∧ ∀ P ∈ ps, ∀ i ≤ n, ∀ j ≤ n, K (P.P i j) := by
    by_cases hc : w.args.close_wing = true
    · rw [if_pos hc]
      obtain ⟨q1, q2, q3, q4, E, hcl, v1, v2, v3, v4, vE⟩ := wing_close_at h F0 F2 hF0 hF2
      obtain ⟨q5, hcf, v5⟩ := wing_closeFlap_at h
      have hfrom : Wing.closeFrom ptan w = Wing.closeWing ptan w F0 F2 := by
        unfold Wing.closeFrom
        rw [hs, ok_bind]
        rfl
      rw [hcl] at hfrom
      have hell : ∃ PE : ℕ → ℕ → V, ∀ i ≤ n, ∀ j ≤ n, E ((i : ℝ) / n) ((j : ℝ) / n) = .ok (PE i j) := by
        choose f hf using fun (i : ℕ) (j : ℕ) => (show ∃ q, i ≤ n → j ≤ n → E ((i : ℝ) / n) ((j : ℝ) / n) = .ok q by
          by_cases hi : i ≤ n
          · by_cases hj : j ≤ n
            · obtain ⟨y, z, d, e, -⟩ := vE _ (hmem i hi) _ (hmem j hj)
              exact ⟨_, fun _ _ => e⟩
            · exact ⟨⟨0, 0, 0⟩, fun _ k => absurd k hj⟩
          · exact ⟨⟨0, 0, 0⟩, fun k => absurd k hi⟩)
        exact ⟨f, fun i hi j hj => hf i j hi hj⟩
      obtain ⟨PE, hPE⟩ := hell
      refine ⟨_, [
        quad n (liftBy s.ht w.args.A0) (liftBy s.ht w.args.A1) (liftBy (midH s.ht s.hb) w.args.A1) (liftBy (midH s.ht s.hb) w.args.A0),
        quad n (liftBy s.ht w.args.A1) (s.T 1) (s.M 1) (liftBy (midH s.ht s.hb) w.args.A1),
        quad n (liftBy (midH s.ht s.hb) w.args.A0) (liftBy (midH s.ht s.hb) w.args.A1) (liftBy s.hb w.args.A1) (liftBy s.hb w.args.A0),
        quad n (liftBy (midH s.ht s.hb) w.args.A1) (s.M 1) (s.B 1) (liftBy s.hb w.args.A1), bare PE,
        quad n (liftBy (midH s.ht s.hb) w.args.A0) (liftBy s.hb w.args.A0) (flapTip w s w.args.A0) (liftBy s.ht w.args.A0)], .cons hfrom (.cons hcf .nil),
        .cons (fun i _ j _ => v1 _ _) (.cons (fun i _ j _ => v2 _ _) (.cons (fun i _ j _ => v3 _ _) (.cons (fun i _ j _ => v4 _ _)
          (.cons hPE (.cons (fun i _ j _ => v5 _ _) .nil))))), ?_⟩
      intro P hP
      simp only [List.mem_cons, List.not_mem_nil, or_false] at hP
      rcases hP with rfl | rfl | rfl | rfl | rfl | rfl
      · exact kbil _ _ _ _ t0 t1 m1 m0
      · exact kbil _ _ _ _ t1 tT mT m1
      · exact kbil _ _ _ _ m0 m1 b1 b0
      · exact kbil _ _ _ _ m1 mT bT b1
      · intro i hi j hj α β γ δ κ hκ h1 hδ
        obtain ⟨y, z, d, e, hy, hz, hd⟩ := vE _ (hmem i hi) _ (hmem j hj)
        rw [hPE i hi j hj] at e
        have e := Except.ok.inj e
        have hm := mean 1 z1 α β γ δ hδ
        have hα : |α| ≤ κ := abs_le_of_sq_le_sq (by nlinarith [sq_nonneg β]) hκ
        have b1 : α * y ≤ κ * W := (le_abs_self _).trans (by
          rw [abs_mul]
          exact mul_le_mul hα (hy.trans (hf.width 1 z1)) (abs_nonneg _) hκ)
        have b2 : γ * z ≤ |γ| * s.half 1 := (le_abs_self _).trans (by
          rw [abs_mul]
          exact mul_le_mul_of_nonneg_left hz (abs_nonneg _))
        have b3 : γ * d ≤ |γ| * g := (le_abs_self _).trans (by
          rw [abs_mul]
          exact mul_le_mul_of_nonneg_left hd (abs_nonneg _))
        simp only [bare, e, Vec.add_x, Vec.add_y, Vec.add_z]
        linarith
      · exact kbil _ _ _ _ m0 b0 kA t0
    · rw [if_neg hc]
      exact ⟨[], [], .nil, .nil, fun P hP => absurd hP List.not_mem_nil⟩
  obtain ⟨h', M, c', g1, g2, g3⟩ := wing_staged n hn name H id hid
    ([("top_patch_0", F0), ("top_patch_1", F1), ("bot_patch_0", F2), ("bot_patch_1", F3)] :: le :: [("TE_top_patch", G0), ("TE_bot_patch", G1)] ::
      [("TELE_patch", T)] :: xs) (by
      unfold Wing.stages
      exact .cons hs (.cons hle (.cons hfl (.cons hte hxs)))) _ (by
      rw [List.flatten_cons, List.flatten_cons, List.flatten_cons, List.flatten_cons]
      exact List.rel_append fs (List.rel_append fle (List.rel_append ff (List.rel_append ft fx))))
  have mk : ∀ i ≤ n, ∀ j ≤ n, ∀ (l : List Panel) (P : Panel) (q : V), P ∈ l → P.P i j = q →
      IsVertex q (l.map fun p => gridMesh MeshArith.real false n n p.P).flatten := by
    rintro i hi j hj l P _ hP rfl
    rw [isVertex_flatten]
    exact ⟨_, List.mem_map.2 ⟨P, hP, rfl⟩, gridMesh_vertex n n P.P i j hn hn hi hj⟩
  have o0 : (0 : ℕ) ≤ n := by omega
  have d1 : (n : ℝ) / n = 1 := div_self hn0
  refine ⟨h', M, c', g1, g2, ?_, ?_, ?_, ?_, ?_, ?_⟩
  · intro v hv
    rw [g3, isVertex_flatten] at hv
    obtain ⟨m, hm, hv⟩ := hv
    obtain ⟨P, hP, rfl⟩ := List.mem_map.1 hm
    refine grid_keeps n _ K within_wing_centre (fun i hi j hj => ?_) v hv
    rw [List.mem_append, List.mem_append, List.mem_append, List.mem_append] at hP
    simp only [List.mem_cons, List.not_mem_nil, or_false] at hP
    rcases hP with (rfl | rfl | rfl | rfl) | (rfl | rfl | rfl | rfl | rfl | rfl) | (rfl | rfl) | rfl | hP
    · exact on _ (onT _ (inner0 _ (hmem' i hi) _ (hmem j hj)) (innerD _ (hmem' i hi) _ (hmem j hj)))
    · exact on _ (onT _ (outer0 _ (hmem' i hi) _ (hmem j hj)) (outerD _ (hmem' i hi) _ (hmem j hj)))
    · exact on _ (onB _ (inner0 _ (hmem i hi) _ (hmem j hj)) (innerD _ (hmem i hi) _ (hmem j hj)))
    · exact on _ (onB _ (outer0 _ (hmem i hi) _ (hmem j hj)) (outerD _ (hmem i hi) _ (hmem j hj)))
    · exact rimIn _ _ (hg.root i hi) _ (hmem j hj)
    · exact rimIn _ _ (hg.middle i hi) _ (hmem j hj)
    · exact rimIn _ _ (hg.front i hi) _ (hmem j hj)
    · exact rimIn _ _ (hg.root i hi) _ (hmem j hj)
    · exact rimIn _ _ (hg.middle i hi) _ (hmem j hj)
    · exact rimIn _ _ (hg.front i hi) _ (hmem j hj)
    · exact conv _ _ _ (hmem j hj) (conv _ _ _ (hmem i hi) kA kB) (on _ (onT _ (teZ _) (teD _ (hmem i hi))))
    · exact conv _ _ _ (hmem j hj) (on _ (onB _ (teZ _) (teD _ (hmem i hi)))) (conv _ _ _ (hmem i hi) kA kB)
    · exact teleIn _ (hmem i hi) _ (hmem j hj) _ (hPT i hi j hj)
    · exact kx P hP i hi j hj
  · intro p hp
    rw [g3]
    have lz : ∀ (f : ℝ → ℝ → ℝ) (p : V), p.z = 0 → (⟨p.x, p.y, f p.x p.y⟩ : V) = liftBy f p := by
      intro f p hz
      simp [liftBy, hz]
    simp only [List.mem_cons, List.not_mem_nil, or_false] at hp
    rcases hp with rfl | rfl | rfl | rfl
    · rw [lz _ _ hf.z0, lz _ _ hf.z0]
      constructor
      · refine mk n le_rfl 0 o0 _ _ _ (List.mem_append_left _ List.mem_cons_self) ?_
        simp [bare, innerPt, lineAt_zero, d1]
      · refine mk 0 o0 0 o0 _ _ _ (List.mem_append_left _ (List.mem_cons_of_mem _ (List.mem_cons_of_mem _ List.mem_cons_self))) ?_
        simp [bare, innerPt, lineAt_zero]
    · rw [lz _ _ hf.z1, lz _ _ hf.z1]
      constructor
      · refine mk 0 o0 0 o0 _ _ _ (List.mem_append_left _ List.mem_cons_self) ?_
        simp [bare, innerPt, lineAt_zero, lineAt_one]
      · refine mk n le_rfl 0 o0 _ _ _ (List.mem_append_left _ (List.mem_cons_of_mem _ (List.mem_cons_of_mem _ List.mem_cons_self))) ?_
        simp [bare, innerPt, lineAt_zero, lineAt_one, d1]
    · rw [lz _ _ zB, lz _ _ zB]
      constructor
      · refine mk n le_rfl n le_rfl _ _ _ (List.mem_append_left _ List.mem_cons_self) ?_
        simp [bare, innerPt, lineAt_one, d1, h.L0]
      · refine mk 0 o0 n le_rfl _ _ _ (List.mem_append_left _ (List.mem_cons_of_mem _ (List.mem_cons_of_mem _ List.mem_cons_self))) ?_
        simp [bare, innerPt, lineAt_one, d1, h.L0]
    · rw [lz _ _ zT, lz _ _ zT]
      have e : outerPt w.args.A1 s.L w.t_B1 t2 1 0 = w.args.TT := by
        rw [← h.L1]; ext <;> simp [outerPt]
      constructor
      · refine mk 0 o0 0 o0 _ _ _ (List.mem_append_left _ (List.mem_cons_of_mem _ List.mem_cons_self)) ?_
        simp [bare, e]
      · refine mk n le_rfl 0 o0 _ _ _ (List.mem_append_left _ (List.mem_cons_of_mem _ (List.mem_cons_of_mem _ (List.mem_cons_of_mem _ List.mem_cons_self)))) ?_
        simp [bare, e, d1]
  · intro i hi x y hx hy
    rw [g3]
    have e : innerPt w.args.A0 w.args.A1 s.L w.t_B1 ((i : ℝ) / n) 0 = ⟨x, y, 0⟩ := by
      rw [innerPt, lineAt_zero]
      ext <;> simp only [lineAt, Vec.add_x, Vec.add_y, Vec.add_z, Vec.mul_x, Vec.mul_y, Vec.mul_z, hx, hy, hf.z0, hf.z1] <;> ring
    constructor
    · refine mk (n - i) (by omega) 0 o0 _ _ _ (List.mem_append_left _ List.mem_cons_self) ?_
      have e' : 1 - ((n - i : ℕ) : ℝ) / n = (i : ℝ) / n := by
        rw [Nat.cast_sub hi]; field_simp; ring
      simp only [bare, Nat.cast_zero, zero_div, e', e]
      simp [liftBy]
    · refine mk i hi 0 o0 _ _ _ (List.mem_append_left _ (List.mem_cons_of_mem _ (List.mem_cons_of_mem _ List.mem_cons_self))) ?_
      simp only [bare, Nat.cast_zero, zero_div, e]
      simp [liftBy]
  · intro p hp
    rw [g3]
    simp only [List.mem_cons, List.not_mem_nil, or_false] at hp
    rcases hp with rfl | rfl
    · rw [← tipA]
      refine mk 0 o0 0 o0 _ _ _ (List.mem_append_right _ (List.mem_append_right _ (List.mem_append_left _ List.mem_cons_self))) ?_
      simp [bare, lineAt_zero]
    · rw [← tipB]
      refine mk n le_rfl 0 o0 _ _ _ (List.mem_append_right _ (List.mem_append_right _ (List.mem_append_left _ List.mem_cons_self))) ?_
      simp [bare, lineAt_zero, lineAt_one, d1]
  · rw [g3]
    refine mk n le_rfl n le_rfl _ (s.leTop ptan n 0 w.t_B1) _ (List.mem_append_right _ (List.mem_append_left _ List.mem_cons_self)) ?_
    simp only [WingShape.leTop, d1, show w.t_B1 - 1 * (w.t_B1 - 0) = 0 by ring, (h.shape.rim_nose h.shape.zero).1, WingShape.nose]
    rw [show angAt s.M 0 = Real.pi / 2 by simp [angAt], swing_right _ rfl]
    ext <;> simp [WingShape.M, liftBy, h.L0, zB, midH]
  · rw [g3]
    refine mk 0 o0 n le_rfl _ (s.leTop ptan n t2 1) _ (List.mem_append_right _ (List.mem_append_left _ (List.mem_cons_of_mem _
      (List.mem_cons_of_mem _ List.mem_cons_self)))) ?_
    simp only [WingShape.leTop, d1, Nat.cast_zero, zero_div, zero_mul, sub_zero, (h.shape.rim_nose h.shape.one).1, WingShape.nose]
    rw [show angAt s.M 1 = 0 by simp [angAt], swing_zero]
    ext <;> simp [WingShape.M, liftBy, h.L1, zT, midH]

theorem WingOk.on {ptan : ℝ → ℝ} {D : ℝ → ℝ → Prop} {w : Wing.State} {s : WingShape} {t2 g : ℝ} (h : WingOk ptan D w s t2 g) :
    WingOn ptan D (Set.Icc 0 1) w s t2 g :=
  ⟨h.toWingBase, ⟨⟨le_rfl, zero_le_one⟩, ⟨zero_le_one, le_rfl⟩, h.shape.like, h.shape.thick, h.shape.wpos, h.shape.fits, h.shape.gap⟩, subset_rfl, h.le, h.width⟩

theorem sampled_all (n : ℕ) (hn : 1 ≤ n) {t1 t2 : ℝ} (h1 : t1 ∈ Set.Icc (0 : ℝ) 1) (h2 : t2 ∈ Set.Icc (0 : ℝ) 1) (h12 : t1 ≤ t2) :
    SampledIn (Set.Icc 0 1) n t1 t2 := by
  have hf : ∀ i ≤ n, 0 ≤ (i : ℝ) / n ∧ (i : ℝ) / n ≤ 1 := fun i hi => ⟨by positivity, (div_le_one (by positivity)).2 (by exact_mod_cast hi)⟩
  have key : ∀ a b : ℝ, a ∈ Set.Icc (0 : ℝ) 1 → b ∈ Set.Icc (0 : ℝ) 1 → a ≤ b → ∀ i ≤ n, b - (i : ℝ) / n * (b - a) ∈ Set.Icc (0 : ℝ) 1 := by
    intro a b ha hb hab i hi
    obtain ⟨f0, f1⟩ := hf i hi
    have k1 := mul_nonneg f0 (sub_nonneg.2 hab)
    have k2 := mul_le_mul_of_nonneg_right f1 (sub_nonneg.2 hab)
    exact ⟨by linarith [ha.1], by linarith [hb.2]⟩
  exact ⟨key 0 t1 ⟨le_rfl, zero_le_one⟩ h1 h1.1, key t1 t2 h1 h2 h12, key t2 1 h2 ⟨zero_le_one, le_rfl⟩ h2.2⟩

/-- C140: the mesh of a wing with a rounded leading edge has the dimensions of its arguments, at every resolution. -/
theorem C140_wing (find : (ℝ → Res ℝ) → Res ℝ) (ptan : ℝ → ℝ) (D : ℝ → ℝ → Prop) (a : Wing.Args) (w : Wing.State) (L : ℝ → V) (ht hb : ℝ → ℝ → ℝ)
    (wd : ℝ → ℝ) (W g : ℝ) (hw : Wing.init find a = .ok w) (h : SmoothWing ptan D a L ht hb wd g) (hf : FlatPlanform a L wd W)
    (h1 : w.t_B1 ∈ Set.Icc (0 : ℝ) 1) (n : ℕ) (hn : 1 ≤ n)
    (name : Option String) (H : Heap) (id : ℕ) (hid : H id = Wing.comp ptan w n name) :
    ∃ h' M c', generatePatches H id = (.ok (), h') ∧ (h' id).mesh = (.ok M, c') ∧ WingSized D a ht hb (wd 0) (wd 1) W g n M.tris := by
  obtain ⟨ha, t2, hk⟩ := smoothWing_ok hw h h1
  have := wing_size_on hk.on n hn (sampled_all n hn hk.t1mem hk.t2mem hk.t12) W (by rw [ha]; exact hf) name H id hid
  rwa [ha] at this

/-- The planform lies over any half plane that contains it and along whose direction the leading edge runs one way. -/
theorem liesOver_half {A0 A1 : V} {L : ℝ → V} (α β δ : ℝ) (h0 : α * A0.x + β * A0.y ≤ δ) (h1 : α * A1.x + β * A1.y ≤ δ)
    (hL : ∀ t ∈ Set.Icc (0 : ℝ) 1, α * (L t).x + β * (L t).y ≤ δ)
    (hm : (∀ t ∈ Set.Icc (0 : ℝ) 1, ∀ u ∈ Set.Icc (0 : ℝ) 1, t ≤ u → α * (L t).x + β * (L t).y ≤ α * (L u).x + β * (L u).y) ∨
      (∀ t ∈ Set.Icc (0 : ℝ) 1, ∀ u ∈ Set.Icc (0 : ℝ) 1, t ≤ u → α * (L u).x + β * (L u).y ≤ α * (L t).x + β * (L t).y)) :
    LiesOver (fun x y => α * x + β * y ≤ δ) A0 A1 L := by
  constructor
  · intro t1 ht1 r hr s hs
    have hm : r * t1 ∈ Set.Icc (0 : ℝ) 1 := ⟨mul_nonneg hr.1 ht1.1, mul_le_one₀ hr.2 ht1.1 ht1.2⟩
    have hr' : 0 ≤ 1 - r := by linarith [hr.2]
    have hs' : 0 ≤ 1 - s := by linarith [hs.2]
    have k := add_le_add (mul_le_mul_of_nonneg_left h0 hr') (mul_le_mul_of_nonneg_left h1 hr.1)
    have k2 := add_le_add (mul_le_mul_of_nonneg_left k hs') (mul_le_mul_of_nonneg_left (hL _ hm) hs.1)
    simp only [lineAt, Vec.add_x, Vec.mul_x, Vec.add_y, Vec.mul_y]
    linarith
  · intro t1 ht1 t2 ht2 r hr s hs
    have h2 : t2 ∈ Set.Icc (0 : ℝ) 1 := ⟨ht1.1.trans ht2.1, ht2.2⟩
    have hd : 0 ≤ t2 - t1 := by linarith [ht2.1]
    have hd' : 0 ≤ 1 - t2 := by linarith [ht2.2]
    have n2 : t1 + r * (t2 - t1) ≤ t2 := by nlinarith [mul_le_mul_of_nonneg_right hr.2 hd]
    have hN : t1 + r * (t2 - t1) ∈ Set.Icc (0 : ℝ) 1 := ⟨add_nonneg ht1.1 (mul_nonneg hr.1 hd), n2.trans h2.2⟩
    have e2 : t2 ≤ 1 + s * (t2 - 1) := by nlinarith [mul_le_mul_of_nonneg_right hs.2 hd']
    have hE : 1 + s * (t2 - 1) ∈ Set.Icc (0 : ℝ) 1 := ⟨h2.1.trans e2, by nlinarith [mul_nonneg hs.1 hd']⟩
    have p1 := hL _ hN
    have p2 := hL _ hE
    have p3 := hL _ h2
    have hr' : 0 ≤ 1 - r := by linarith [hr.2]
    have hs' : 0 ≤ 1 - s := by linarith [hs.2]
    have a1 := mul_le_mul_of_nonneg_left h1 (mul_nonneg hr' hs')
    rcases hm with hm | hm
    · have i1 := hm _ hN _ h2 n2
      generalize L (t1 + r * (t2 - t1)) = N at *
      generalize L (1 + s * (t2 - 1)) = E at *
      generalize L t2 = M at *
      have b1 := mul_le_mul_of_nonneg_left i1 hs.1
      have b2 := mul_le_mul_of_nonneg_left p3 (mul_nonneg hr' hs.1)
      have b3 := mul_le_mul_of_nonneg_left p2 hr.1
      linarith
    · have i1 := hm _ h2 _ hE e2
      generalize L (t1 + r * (t2 - t1)) = N at *
      generalize L (1 + s * (t2 - 1)) = E at *
      generalize L t2 = M at *
      have b1 := mul_le_mul_of_nonneg_left i1 hr.1
      have b2 := mul_le_mul_of_nonneg_left p3 (mul_nonneg hs' hr.1)
      have b3 := mul_le_mul_of_nonneg_left p1 hs.1
      linarith

/-- A wing over a region lies over any smaller region that contains its planform. -/
theorem Spec.SmoothWing.over' {ptan : ℝ → ℝ} {D E : ℝ → ℝ → Prop} {a : Wing.Args} {L : ℝ → V} {ht hb : ℝ → ℝ → ℝ} {wd : ℝ → ℝ} {g : ℝ}
    (h : SmoothWing ptan D a L ht hb wd g) (hE : ∀ x y, E x y → D x y) (k : LiesOver E a.A0 a.A1 L) : SmoothWing ptan E a L ht hb wd g :=
  { h with top := fun x y z e => h.top x y z (hE x y e), bot := fun x y z e => h.bot x y z (hE x y e), over := k }

/-- The box of a wing whose skins and flap lie in a box. -/
theorem Spec.WithinWing.box {D : ℝ → ℝ → Prop} {a : Wing.Args} {ht hb : ℝ → ℝ → ℝ} {W g : ℝ} {v : V} (h : WithinWing D a ht hb W g v) {x0 x1 y0 y1 z0 z1 : ℝ}
    (hq : ∀ q, OnWing D a ht hb q → x0 ≤ q.x ∧ q.x ≤ x1 ∧ y0 ≤ q.y ∧ q.y ≤ y1 ∧ z0 ≤ q.z ∧ q.z ≤ z1) :
    x0 - W ≤ v.x ∧ v.x ≤ x1 + W ∧ y0 - W ≤ v.y ∧ v.y ≤ y1 + W ∧ z0 - g ≤ v.z ∧ v.z ≤ z1 + g := by
  have a1 := h (-1) 0 0 (-x0) 1 zero_le_one (by norm_num) (fun q k => by linarith [(hq q k).1])
  have a2 := h 1 0 0 x1 1 zero_le_one (by norm_num) (fun q k => by linarith [(hq q k).2.1])
  have a3 := h 0 (-1) 0 (-y0) 1 zero_le_one (by norm_num) (fun q k => by linarith [(hq q k).2.2.1])
  have a4 := h 0 1 0 y1 1 zero_le_one (by norm_num) (fun q k => by linarith [(hq q k).2.2.2.1])
  have a5 := h 0 0 (-1) (-z0) 0 le_rfl (by norm_num) (fun q k => by linarith [(hq q k).2.2.2.2.1])
  have a6 := h 0 0 1 z1 0 le_rfl (by norm_num) (fun q k => by linarith [(hq q k).2.2.2.2.2])
  simp only [abs_zero, abs_one, abs_neg, zero_mul, one_mul] at a1 a2 a3 a4 a5 a6
  refine ⟨?_, ?_, ?_, ?_, ?_, ?_⟩ <;> linarith

/-- The delta wing, open or closed at the root, two long, one wide and 0.1 thick, with its triangular planform: the mesh at any resolution lies over the triangle and the flap, up to
the width of the leading edge. -/
example (find : (ℝ → Res ℝ) → Res ℝ) (c : Bool) (n : ℕ) (hn : 1 ≤ n) : ∃ w h' M c',
    Wing.init find { deltaWing "custom" (some 0.5) none with close_wing := c } = .ok w ∧
      generatePatches (fun _ => Wing.comp ieeeTan w n none) 0 = (.ok (), h') ∧ (h' 0).mesh = (.ok M, c') ∧
      WingSized (fun x y => (0 ≤ x ∧ 0 ≤ y) ∧ x + 2 * y ≤ 2) { deltaWing "custom" (some 0.5) none with close_wing := c } (fun _ _ => -0.05)
        (fun _ _ => 0.05) 0.01 0.01 0.055 1e-12 n M.tris := by
  obtain ⟨w, hw⟩ : ∃ w, Wing.init find { deltaWing "custom" (some 0.5) none with close_wing := c } = .ok w := ⟨_, rfl⟩
  have h1 := (Wing.init_ok hw).2.2.1 0.5 rfl
  have hx : ∀ t : ℝ, (lineAt (⟨0, 1, 0⟩ : V) ⟨2, 0, 0⟩ t).x = 2 * t := fun t => by simp [lineAt]
  have hy : ∀ t : ℝ, (lineAt (⟨0, 1, 0⟩ : V) ⟨2, 0, 0⟩ t).y = 1 - t := fun t => by simp [lineAt]
  have l1 := liesOver_half (A0 := ⟨0, 0, 0⟩) (A1 := ⟨1, 0, 0⟩) (L := lineAt (⟨0, 1, 0⟩ : V) ⟨2, 0, 0⟩) (-1) 0 0 (by simp) (by simp)
    (fun t ht => by rw [hx]; linarith [ht.1]) (.inr fun t _ u _ h => by rw [hx, hx]; linarith)
  have l2 := liesOver_half (A0 := ⟨0, 0, 0⟩) (A1 := ⟨1, 0, 0⟩) (L := lineAt (⟨0, 1, 0⟩ : V) ⟨2, 0, 0⟩) 0 (-1) 0 (by simp) (by simp)
    (fun t ht => by rw [hy]; linarith [ht.2]) (.inl fun t _ u _ h => by rw [hy, hy]; linarith)
  have l3 := liesOver_half (A0 := ⟨0, 0, 0⟩) (A1 := ⟨1, 0, 0⟩) (L := lineAt (⟨0, 1, 0⟩ : V) ⟨2, 0, 0⟩) 1 2 2 (by simp) (by simp)
    (fun t ht => by rw [hx, hy]; linarith) (.inl fun t _ u _ h => by rw [hx, hy, hx, hy]; linarith)
  have hl : LiesOver (fun x y => (0 ≤ x ∧ 0 ≤ y) ∧ x + 2 * y ≤ 2) ⟨0, 0, 0⟩ ⟨1, 0, 0⟩ (lineAt (⟨0, 1, 0⟩ : V) ⟨2, 0, 0⟩) := by
    convert (l1.and l2).and l3 using 3 with x y
    constructor
    · rintro ⟨⟨k1, k2⟩, k3⟩; exact ⟨⟨by linarith, by linarith⟩, by linarith⟩
    · rintro ⟨⟨k1, k2⟩, k3⟩; exact ⟨⟨by linarith, by linarith⟩, by linarith⟩
  obtain ⟨h', M, c', g1, g2, g3⟩ := C140_wing find ieeeTan _ _ w (lineAt ⟨0, 1, 0⟩ ⟨2, 0, 0⟩) _ _ (fun t => 0.01 + 0.18 * t * (1 - t)) 0.055 _ hw ((delta_smooth c).over' (fun _ _ _ => trivial) hl)
    ⟨rfl, rfl, fun t _ => by simp [lineAt], fun t _ => by nlinarith [sq_nonneg (t - 0.5)]⟩ (by rw [h1]; norm_num) n hn none
    (fun _ => Wing.comp ieeeTan w n none) 0 rfl
  refine ⟨w, h', M, c', hw, g1, g2, ?_⟩
  simp only [mul_zero, zero_mul, add_zero, sub_self] at g3
  exact g3

end HV
