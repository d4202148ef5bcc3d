import Verif.Lemmas.WingParts
import Verif.Props.FinRect

/-!
# C106: wings are watertight up to a small gap
-/

namespace HV
open Spec

/-- The patches have the grid points of the panels. -/
def Grids (n : ℕ) (l : List (String × Surf)) (ps : List Panel) : Prop :=
  List.Forall₂ (fun (e : String × Surf) (p : Panel) => ∀ i ≤ n, ∀ j ≤ n, e.2 ((i : ℝ) / n) ((j : ℝ) / n) = .ok (p.P i j)) l ps

theorem crv_sub (n : ℕ) (F : V → V) (L : ℝ → V) (a b : ℝ) : crv n (F ∘ fun r => L (a + r * (b - a))) 0 1 = crv n (F ∘ L) a b := by
  funext i; simp [crv]

/-- The planform with root `A0`, `A1` and leading edge `L` lies over the region `D`: the part between the trailing edge and the
chord that ends at the break parameter `t1` consists of straight lines from the root to the leading edge, the part in front of it is
blended from the leading edge on both sides of the parameter `t2`. -/
structure Spec.LiesOver (D : ℝ → ℝ → Prop) (A0 A1 : V) (L : ℝ → V) : Prop where
  inner : ∀ t1 ∈ Set.Icc (0 : ℝ) 1, ∀ r ∈ Set.Icc (0 : ℝ) 1, ∀ s ∈ Set.Icc (0 : ℝ) 1,
    D (lineAt (lineAt A0 A1 r) (L (r * t1)) s).x (lineAt (lineAt A0 A1 r) (L (r * t1)) s).y
  outer : ∀ t1 ∈ Set.Icc (0 : ℝ) 1, ∀ t2 ∈ Set.Icc t1 1, ∀ r ∈ Set.Icc (0 : ℝ) 1, ∀ s ∈ Set.Icc (0 : ℝ) 1,
    D ((1 - r) * (1 - s) * A1.x + s * (L (t1 + r * (t2 - t1))).x + r * (L (1 + s * (t2 - 1))).x - r * s * (L t2).x)
      ((1 - r) * (1 - s) * A1.y + s * (L (t1 + r * (t2 - t1))).y + r * (L (1 + s * (t2 - 1))).y - r * s * (L t2).y)

theorem Spec.LiesOver.te {D : ℝ → ℝ → Prop} {A0 A1 : V} {L : ℝ → V} (h : LiesOver D A0 A1 L) (t : ℝ) (ht : t ∈ Set.Icc (0 : ℝ) 1) :
    D (lineAt A0 (L 0) t).x (lineAt A0 (L 0) t).y := by
  have z0 : (0 : ℝ) ∈ Set.Icc (0 : ℝ) 1 := ⟨le_rfl, zero_le_one⟩
  have := h.inner 0 z0 0 z0 t ht
  rwa [lineAt_zero, mul_zero] at this

theorem Spec.LiesOver.le {D : ℝ → ℝ → Prop} {A0 A1 : V} {L : ℝ → V} (h : LiesOver D A0 A1 L) (t : ℝ) (ht : t ∈ Set.Icc (0 : ℝ) 1) :
    D (L t).x (L t).y := by
  have z1 : (1 : ℝ) ∈ Set.Icc (0 : ℝ) 1 := ⟨zero_le_one, le_rfl⟩
  have := h.inner t ht 1 z1 1 z1
  rwa [lineAt_one, one_mul] at this

/-- A thickness function that is defined everywhere covers every planform. -/
theorem liesOver_univ (A0 A1 : V) (L : ℝ → V) : LiesOver (fun _ _ => True) A0 A1 L := ⟨fun _ _ _ _ _ _ => trivial, fun _ _ _ _ _ _ _ _ => trivial⟩

/-- A wing with skins of shape `s` over the region `D`. -/
structure WingBase (D : ℝ → ℝ → Prop) (w : Wing.State) (s : WingShape) (t2 : ℝ) : Prop where
  ty : w.args.lineType.toLower = "bezier"
  tail : w.args.tail_option = "FLAP"
  t1mem : w.t_B1 ∈ Set.Icc (0 : ℝ) 1
  t2eq : w.t_B2 = some t2
  t2mem : t2 ∈ Set.Icc (0 : ℝ) 1
  t12 : w.t_B1 ≤ t2
  line : ∀ t, w.args.line.call t = .ok (s.L t)
  L0 : s.L 0 = w.args.B0
  L1 : s.L 1 = w.args.TT
  top : HeightFn D w.args.top_tf s.ht
  bot : HeightFn D w.args.bot_tf s.hb
  cov : LiesOver D w.args.A0 w.args.A1 s.L

/-- A wing with an elliptical leading edge. -/
structure WingOk (ptan : ℝ → ℝ) (D : ℝ → ℝ → Prop) (w : Wing.State) (s : WingShape) (t2 g : ℝ) : Prop extends WingBase D w s t2 where
  shape : s.Ok ptan g
  le : w.LE_TYPE ≠ "FLAT"
  width : ∀ t ∈ Set.Icc (0 : ℝ) 1, widthFn w.LE_wf t = .ok (s.wd t)

section
variable {D : ℝ → ℝ → Prop} {w : Wing.State} {s : WingShape} {t2 : ℝ} (h : WingBase D w s t2) (n : ℕ) (hn : 1 ≤ n) (g : ℝ) (hg : 0 ≤ g)
include h hn hg

/-- The four skins. -/
theorem wing_skins : ∃ F0 F1 F2 F3 P0 P1 P2 P3, Wing.skins w = .ok [("top_patch_0", F0), ("top_patch_1", F1), ("bot_patch_0", F2), ("bot_patch_1", F3)] ∧
    F0 0 0 = .ok (liftBy s.ht w.args.A1) ∧ F2 1 0 = .ok (liftBy s.hb w.args.A1) ∧
    Grids n [("top_patch_0", F0), ("top_patch_1", F1), ("bot_patch_0", F2), ("bot_patch_1", F3)]
      [⟨P0, crv n (liftBy s.ht ∘ lineAt w.args.A1 w.args.A0) 0 1, crv n s.T w.t_B1 0, crv n (liftBy s.ht ∘ lineAt w.args.A1 (s.L w.t_B1)) 0 1,
          crv n (liftBy s.ht ∘ lineAt w.args.A0 w.args.B0) 0 1⟩,
       ⟨P1, crv n (liftBy s.ht ∘ lineAt w.args.TT w.args.A1) 0 1, crv n s.T t2 w.t_B1, crv n s.T 1 t2,
          crv n (liftBy s.ht ∘ lineAt w.args.A1 (s.L w.t_B1)) 0 1⟩,
       ⟨P2, crv n (liftBy s.hb ∘ lineAt w.args.A0 w.args.A1) 0 1, crv n s.B 0 w.t_B1, crv n (liftBy s.hb ∘ lineAt w.args.A0 w.args.B0) 0 1,
          crv n (liftBy s.hb ∘ lineAt w.args.A1 (s.L w.t_B1)) 0 1⟩,
       ⟨P3, crv n (liftBy s.hb ∘ lineAt w.args.A1 w.args.TT) 0 1, crv n s.B w.t_B1 t2, crv n (liftBy s.hb ∘ lineAt w.args.A1 (s.L w.t_B1)) 0 1,
          crv n s.B 1 t2⟩] ∧
    ∀ p ∈ ([⟨P0, crv n (liftBy s.ht ∘ lineAt w.args.A1 w.args.A0) 0 1, crv n s.T w.t_B1 0, crv n (liftBy s.ht ∘ lineAt w.args.A1 (s.L w.t_B1)) 0 1,
          crv n (liftBy s.ht ∘ lineAt w.args.A0 w.args.B0) 0 1⟩,
       ⟨P1, crv n (liftBy s.ht ∘ lineAt w.args.TT w.args.A1) 0 1, crv n s.T t2 w.t_B1, crv n s.T 1 t2,
          crv n (liftBy s.ht ∘ lineAt w.args.A1 (s.L w.t_B1)) 0 1⟩,
       ⟨P2, crv n (liftBy s.hb ∘ lineAt w.args.A0 w.args.A1) 0 1, crv n s.B 0 w.t_B1, crv n (liftBy s.hb ∘ lineAt w.args.A0 w.args.B0) 0 1,
          crv n (liftBy s.hb ∘ lineAt w.args.A1 (s.L w.t_B1)) 0 1⟩,
       ⟨P3, crv n (liftBy s.hb ∘ lineAt w.args.A1 w.args.TT) 0 1, crv n s.B w.t_B1 t2, crv n (liftBy s.hb ∘ lineAt w.args.A1 (s.L w.t_B1)) 0 1,
          crv n s.B 1 t2⟩] : List Panel), p.Good n g := by
  have sub : ∀ a b r, (SubRangedPath w.args.line a b).call r = .ok (s.L (a + r * (b - a))) := fun a b r => h.line _
  have sub2 : ∀ a b r, (SubRangedPath (SubRangedPath w.args.line a b) 1 0).call r = .ok (s.L (b + r * (a - b))) := by
    intro a b r
    rw [show b + r * (a - b) = a + (1 + r * (0 - 1)) * (b - a) by ring]
    exact h.line _
  have q0 : ∀ u ∈ Set.Icc (0 : ℝ) 1, ∀ v ∈ Set.Icc (0 : ℝ) 1,
      D (lineAt (lineAt w.args.A0 w.args.A1 u) (s.L (u * w.t_B1)) v).x (lineAt (lineAt w.args.A0 w.args.A1 u) (s.L (u * w.t_B1)) v).y :=
    fun u hu v hv => h.cov.inner _ h.t1mem u hu v hv
  have q1 := fun u hu v hv => h.cov.outer _ h.t1mem t2 ⟨h.t12, h.t2mem.2⟩ u hu v hv
  have flip : ∀ u ∈ Set.Icc (0 : ℝ) 1, 1 - u ∈ Set.Icc (0 : ℝ) 1 := fun u hu => ⟨by linarith [hu.2], by linarith [hu.1]⟩
  obtain ⟨p0, P2, c2, v2, -, e2, g2⟩ := lifted_panel n hn g hg D _ _ h.bot (SubRangedPath w.args.line 0 w.t_B1) (Line w.args.A1 (s.L w.t_B1))
    (Line w.args.A0 w.args.A1) (Line w.args.A0 w.args.B0) _ _ _ _ (fun t _ => sub _ _ t) (fun _ _ => rfl) (fun _ _ => rfl) (fun _ _ => rfl)
    (by rw [lineAt_zero, lineAt_zero]) (by rw [lineAt_zero, lineAt_one]) (by rw [lineAt_one, ← h.L0]; congr 1; ring)
    (by rw [lineAt_one]; congr 1; ring) (by
      intro u hu v hv
      convert q0 u hu v hv using 1 <;>
      · rw [← h.L0]
        simp only [blendAt, Coons.blend, sub_zero, zero_add, one_mul, zero_mul, lineAt_zero, lineAt_one]
        simp [lineAt]
        ring)
  obtain ⟨p1, P3, c3, v3, -, -, g3⟩ := lifted_panel n hn g hg D _ _ h.bot (SubRangedPath w.args.line w.t_B1 t2) (SubRangedPath w.args.line 1 t2)
    (Line w.args.A1 w.args.TT) (Line w.args.A1 (s.L w.t_B1)) _ _ _ _ (fun t _ => sub _ _ t) (fun t _ => sub _ _ t) (fun _ _ => rfl) (fun _ _ => rfl)
    (by rw [lineAt_zero, lineAt_zero]) (by rw [lineAt_one, ← h.L1]; congr 1; ring) (by rw [lineAt_one]; congr 1; ring)
    (by congr 1; ring) (by
      intro u hu v hv
      convert q1 u hu v hv using 1 <;>
      · simp only [blendAt, Coons.blend, zero_mul, add_zero, one_mul, lineAt_zero, lineAt_one, show w.t_B1 + (t2 - w.t_B1) = t2 by ring]
        simp [lineAt]
        ring)
  obtain ⟨f0, P0, c0, v0, e0, -, g0⟩ := lifted_panel n hn g hg D _ _ h.top (SubRangedPath (SubRangedPath w.args.line 0 w.t_B1) 1 0)
    (Line w.args.A0 w.args.B0) (Line w.args.A1 w.args.A0) (Line w.args.A1 (s.L w.t_B1)) _ _ _ _ (fun t _ => sub2 _ _ t) (fun _ _ => rfl) (fun _ _ => rfl)
    (fun _ _ => rfl) (by rw [lineAt_zero, lineAt_zero]) (by rw [lineAt_zero, lineAt_one]) (by rw [lineAt_one]; congr 1; ring)
    (by rw [lineAt_one, ← h.L0]; congr 1; ring) (by
      intro u hu v hv
      convert q0 (1 - u) (flip u hu) v hv using 1 <;>
      · rw [← h.L0]
        simp only [blendAt, Coons.blend, zero_mul, add_zero, one_mul, lineAt_zero, lineAt_one, show w.t_B1 + (0 - w.t_B1) = 0 by ring,
          show w.t_B1 + u * (0 - w.t_B1) = (1 - u) * w.t_B1 by ring]
        simp [lineAt]
        ring)
  obtain ⟨f1, P1, c1, v1, -, -, g1⟩ := lifted_panel n hn g hg D _ _ h.top (SubRangedPath (SubRangedPath w.args.line w.t_B1 t2) 1 0)
    (Line w.args.A1 (s.L w.t_B1)) (Line w.args.TT w.args.A1) (SubRangedPath w.args.line 1 t2) _ _ _ _ (fun t _ => sub2 _ _ t) (fun _ _ => rfl) (fun _ _ => rfl)
    (fun t _ => sub _ _ t) (by rw [lineAt_zero, ← h.L1]; congr 1; ring) (by rw [lineAt_zero, lineAt_one]) (by congr 1; ring)
    (by rw [lineAt_one]; congr 1; ring) (by
      intro u hu v hv
      convert q1 (1 - u) (flip u hu) v hv using 1 <;>
      · simp only [blendAt, Coons.blend, zero_mul, add_zero, one_mul, lineAt_zero, lineAt_one, show t2 + (w.t_B1 - t2) = w.t_B1 by ring,
          show t2 + u * (w.t_B1 - t2) = w.t_B1 + (1 - u) * (t2 - w.t_B1) by ring]
        simp [lineAt]
        ring)
  rw [lineAt_one] at e2
  rw [lineAt_zero] at e0
  rw [crv_sub] at g0 g2
  rw [crv_sub, crv_sub] at g1 g3
  refine ⟨OffsetPatchFunction f0 w.args.top_tf, OffsetPatchFunction f1 w.args.top_tf, OffsetPatchFunction p0 w.args.bot_tf,
    OffsetPatchFunction p1 w.args.bot_tf, P0, P1, P2, P3, ?_, e0, e2, .cons v0 (.cons v1 (.cons v2 (.cons v3 .nil))), ?_⟩
  · unfold Wing.skins Wing.planform
    simp only [h.ty, ne_eq, not_true_eq_false, if_false, h.line, ok_bind, pure_eq, c2, h.t2eq, Wing.num, c3, c0, c1]
  · intro p hp
    simp only [List.mem_cons, List.not_mem_nil, or_false] at hp
    rcases hp with rfl | rfl | rfl | rfl
    · exact g0
    · exact g1
    · exact g2
    · exact g3

omit hn hg in
theorem wing_edges (t : ℝ) (ht : t ∈ Set.Icc (0 : ℝ) 1) : (Wing.topEdge w).call t = .ok (s.T t) ∧ (Wing.botEdge w).call t = .ok (s.B t) ∧
    (GeometricMeanPathFunction (Wing.topEdge w) (Wing.botEdge w)).call t = .ok (s.M t) := by
  have e1 : (Wing.topEdge w).call t = .ok (s.T t) := by
    simp only [Wing.topEdge, OffsetPathFunction, offsetPathAt, h.line, ok_bind, h.top _ _ _ (h.cov.le t ht), pure_eq]
    rw [liftBy_eq]; rfl
  have e2 : (Wing.botEdge w).call t = .ok (s.B t) := by
    simp only [Wing.botEdge, OffsetPathFunction, offsetPathAt, h.line, ok_bind, h.bot _ _ _ (h.cov.le t ht), pure_eq]
    rw [liftBy_eq]; rfl
  refine ⟨e1, e2, ?_⟩
  simp only [GeometricMeanPathFunction, meanPathAt, e1, e2, ok_bind, pure_eq]
  congr 1
  ext <;> simp [WingShape.T, WingShape.B, WingShape.M, liftBy, midH] <;> ring

omit hn hg in
theorem wing_te (t : ℝ) (ht : t ∈ Set.Icc (0 : ℝ) 1) : (Wing.teTop w).call t = .ok (liftBy s.ht (lineAt w.args.A0 w.args.B0 t)) ∧
    (Wing.teBot w).call t = .ok (liftBy s.hb (lineAt w.args.A0 w.args.B0 t)) ∧
    (Wing.teMean w).call t = .ok (liftBy (midH s.ht s.hb) (lineAt w.args.A0 w.args.B0 t)) := by
  have hD := h.cov.te t ht
  rw [h.L0] at hD
  have e1 : (Wing.teTop w).call t = .ok (liftBy s.ht (lineAt w.args.A0 w.args.B0 t)) := by
    simp only [Wing.teTop, TrailingEdgePath, offsetPathAt, Line, ok_bind, h.top _ _ _ hD, pure_eq]
    rw [liftBy_eq]
  have e2 : (Wing.teBot w).call t = .ok (liftBy s.hb (lineAt w.args.A0 w.args.B0 t)) := by
    simp only [Wing.teBot, TrailingEdgePath, offsetPathAt, Line, ok_bind, h.bot _ _ _ hD, pure_eq]
    rw [liftBy_eq]
  refine ⟨e1, e2, ?_⟩
  simp only [Wing.teMean, GeometricMeanPathFunction, meanPathAt, e1, e2, ok_bind, pure_eq]
  congr 1
  ext <;> simp [liftBy, midH] <;> ring

end

section
variable {ptan : ℝ → ℝ} {D : ℝ → ℝ → Prop} {w : Wing.State} {s : WingShape} {t2 g : ℝ} (h : WingOk ptan D w s t2 g) (n : ℕ) (hn : 1 ≤ n)
include h hn

/-- The leading edge. -/
theorem wing_leading : ∃ l, Wing.leadingEdge ptan w = .ok l ∧
    Grids n l [s.leTop ptan n 0 w.t_B1, s.leTop ptan n w.t_B1 t2, s.leTop ptan n t2 1,
      s.leBot ptan n 0 w.t_B1, s.leBot ptan n w.t_B1 t2, s.leBot ptan n t2 1] := by
  have z0 : (0 : ℝ) ∈ Set.Icc (0 : ℝ) 1 := ⟨le_rfl, zero_le_one⟩
  have z1 : (1 : ℝ) ∈ Set.Icc (0 : ℝ) 1 := ⟨zero_le_one, le_rfl⟩
  have hm : ∀ a ∈ Set.Icc (0 : ℝ) 1, ∀ b ∈ Set.Icc (0 : ℝ) 1, ∀ i ≤ n, b - (i : ℝ) / n * (b - a) ∈ Set.Icc (0 : ℝ) 1 := by
    intro a m0 b m1 i hi
    have u0 : (0 : ℝ) ≤ (i : ℝ) / n := by positivity
    have u1 : (i : ℝ) / n ≤ 1 := (div_le_one (by positivity)).2 (by exact_mod_cast hi)
    constructor
    · nlinarith [m0.1, m1.1]
    · nlinarith [m0.2, m1.2]
  have top : ∀ a ∈ Set.Icc (0 : ℝ) 1, ∀ b ∈ Set.Icc (0 : ℝ) 1, ∀ i ≤ n, ∀ j ≤ n,
      MeanLeadingEdgePatchFunction ptan (GeometricMeanPathFunction (Wing.topEdge w) (Wing.botEdge w)) (Wing.topEdge w) (widthFn w.LE_wf) a b "top"
        ((i : ℝ) / n) ((j : ℝ) / n) = .ok ((s.leTop ptan n a b).P i j) := by
    intro a m0 b m1 i hi j _
    have hb := h.shape.thick _ (hm a m0 b m1 i hi)
    refine le_value_at ptan _ s.M _ _ true (fun t ht => (wing_edges h.toWingBase t ht).2.2) a b _ _ _ rfl (hm a m0 b m1 i hi) _ _ _ hb
      (wing_edges h.toWingBase _ (hm a m0 b m1 i hi)).1 ?_
      (h.width _ (hm a m0 b m1 i hi))
    rw [show (s.M (b - (i : ℝ) / n * (b - a))).z - (s.T (b - (i : ℝ) / n * (b - a))).z = s.half (b - (i : ℝ) / n * (b - a)) by
      simp only [WingShape.M, WingShape.T, WingShape.half, liftBy, midH, halfH]; ring]
    exact abs_of_pos hb
  have bot : ∀ a ∈ Set.Icc (0 : ℝ) 1, ∀ b ∈ Set.Icc (0 : ℝ) 1, ∀ i ≤ n, ∀ j ≤ n,
      MeanLeadingEdgePatchFunction ptan (GeometricMeanPathFunction (Wing.topEdge w) (Wing.botEdge w)) (Wing.botEdge w) (widthFn w.LE_wf) a b "bot"
        ((i : ℝ) / n) ((j : ℝ) / n) = .ok ((s.leBot ptan n a b).P i j) := by
    intro a m0 b m1 i hi j _
    have hb := h.shape.thick _ (hm a m0 b m1 i hi)
    refine le_value_at ptan _ s.M _ _ false (fun t ht => (wing_edges h.toWingBase t ht).2.2) a b _ _ _ rfl (hm a m0 b m1 i hi) _ _ _ hb
      (wing_edges h.toWingBase _ (hm a m0 b m1 i hi)).2.1 ?_
      (h.width _ (hm a m0 b m1 i hi))
    rw [show (s.M (b - (i : ℝ) / n * (b - a))).z - (s.B (b - (i : ℝ) / n * (b - a))).z = -s.half (b - (i : ℝ) / n * (b - a)) by
      simp only [WingShape.M, WingShape.B, WingShape.half, liftBy, midH, halfH]; ring, abs_neg]
    exact abs_of_pos hb
  refine ⟨_, by unfold Wing.leadingEdge; simp only [h.t2eq, Wing.num, ok_bind, h.le, if_false, pure_eq]; rfl, ?_⟩
  exact .cons (top _ z0 _ h.t1mem) (.cons (top _ h.t1mem _ h.t2mem) (.cons (top _ h.t2mem _ z1)
    (.cons (bot _ z0 _ h.t1mem) (.cons (bot _ h.t1mem _ h.t2mem) (.cons (bot _ h.t2mem _ z1) .nil)))))

end

/-- The tip of the flap behind the mean point above `p`. -/
noncomputable def flapTip (w : Wing.State) (s : WingShape) (p : V) : V :=
  ⟨p.x - w.args.flap_length * Real.cos w.args.flap_angle, p.y,
    p.z + midH s.ht s.hb p.x p.y + w.args.flap_length * Real.sin w.args.flap_angle⟩

section
variable {D : ℝ → ℝ → Prop} {w : Wing.State} {s : WingShape} {t2 : ℝ} (h : WingBase D w s t2) (n : ℕ) (hn : 1 ≤ n) (g : ℝ) (hg : 0 ≤ g)
include h hn hg

omit h in
/-- A Coons patch whose edges meet, as a panel. -/
theorem exact_panel (n' e s' w' : PathObj) (N E S W : ℝ → V) (hn' : ∀ t ∈ Set.Icc (0 : ℝ) 1, n'.call t = .ok (N t))
    (he : ∀ t ∈ Set.Icc (0 : ℝ) 1, e.call t = .ok (E t)) (hs : ∀ t ∈ Set.Icc (0 : ℝ) 1, s'.call t = .ok (S t))
    (hw : ∀ t ∈ Set.Icc (0 : ℝ) 1, w'.call t = .ok (W t)) (k00 : S 0 = W 0) (k10 : S 1 = E 0) (k01 : N 0 = W 1)
    (k11 : N 1 = E 1) :
    ∃ (F : Surf) (P : ℕ → ℕ → V), CoonsPatch n' e s' w' = .ok F ∧ (∀ i ≤ n, ∀ j ≤ n, F ((i : ℝ) / n) ((j : ℝ) / n) = .ok (P i j)) ∧
      (⟨P, crv n S 0 1, crv n N 0 1, crv n W 0 1, crv n E 0 1⟩ : Panel).Good n g := by
  have hl : ∀ p : V, liftBy (fun _ _ => 0) p = p := fun p => by ext <;> simp [liftBy]
  have hl' : ∀ F : ℝ → V, liftBy (fun _ _ => 0) ∘ F = F := fun F => by funext t; exact hl _
  obtain ⟨F, P, h1, h2, -, -, h3⟩ := lifted_panel n hn g hg (fun _ _ => True) (fun _ _ _ => .ok ⟨0, 0, 0⟩) (fun _ _ => 0)
    (fun _ _ _ _ => rfl) n' e s' w' N E S W hn' he hs hw k00 k10 k01 k11 (fun _ _ _ _ => trivial)
  refine ⟨F, P, h1, ?_, by simpa only [hl'] using h3⟩
  intro i hi j hj
  obtain ⟨q, o, k1, k2, k3⟩ := offsetPatch_ok.1 (h2 i hi j hj)
  cases k2
  rw [k1, k3]
  congr 1
  ext <;> simp

/-- The flap. -/
theorem wing_flap : ∃ l P0 P1, Wing.flap w = .ok l ∧
    Grids n l [⟨P0, seg n (flapTip w s w.args.A0) (flapTip w s w.args.B0), crv n (liftBy s.ht ∘ lineAt w.args.A0 w.args.B0) 0 1,
        seg n (flapTip w s w.args.A0) (liftBy s.ht w.args.A0), seg n (flapTip w s w.args.B0) (liftBy s.ht w.args.B0)⟩,
      ⟨P1, crv n (liftBy s.hb ∘ lineAt w.args.A0 w.args.B0) 0 1, seg n (flapTip w s w.args.A0) (flapTip w s w.args.B0),
        seg n (liftBy s.hb w.args.A0) (flapTip w s w.args.A0), seg n (liftBy s.hb w.args.B0) (flapTip w s w.args.B0)⟩] ∧
    (⟨P0, seg n (flapTip w s w.args.A0) (flapTip w s w.args.B0), crv n (liftBy s.ht ∘ lineAt w.args.A0 w.args.B0) 0 1,
        seg n (flapTip w s w.args.A0) (liftBy s.ht w.args.A0), seg n (flapTip w s w.args.B0) (liftBy s.ht w.args.B0)⟩ : Panel).Good n g ∧
    (⟨P1, crv n (liftBy s.hb ∘ lineAt w.args.A0 w.args.B0) 0 1, seg n (flapTip w s w.args.A0) (flapTip w s w.args.B0),
        seg n (liftBy s.hb w.args.A0) (flapTip w s w.args.A0), seg n (liftBy s.hb w.args.B0) (flapTip w s w.args.B0)⟩ : Panel).Good n g := by
  obtain ⟨F, P0, c0, v0, g0⟩ := exact_panel n hn g hg (Wing.teTop w) (Line (flapTip w s w.args.B0) (liftBy s.ht w.args.B0))
    (Line (flapTip w s w.args.A0) (flapTip w s w.args.B0)) (Line (flapTip w s w.args.A0) (liftBy s.ht w.args.A0)) _ _ _ _
    (fun t ht => (wing_te h t ht).1) (fun _ _ => rfl) (fun _ _ => rfl) (fun _ _ => rfl) (by rw [lineAt_zero, lineAt_zero]) (by rw [lineAt_zero, lineAt_one])
    (by rw [lineAt_zero, lineAt_one]) (by rw [lineAt_one, lineAt_one])
  obtain ⟨G, P1, c1, v1, g1⟩ := exact_panel n hn g hg (Line (flapTip w s w.args.A0) (flapTip w s w.args.B0))
    (Line (liftBy s.hb w.args.B0) (flapTip w s w.args.B0)) (Wing.teBot w) (Line (liftBy s.hb w.args.A0) (flapTip w s w.args.A0)) _ _ _ _
    (fun _ _ => rfl) (fun _ _ => rfl) (fun t ht => (wing_te h t ht).2.1) (fun _ _ => rfl) (by rw [lineAt_zero, lineAt_zero]) (by rw [lineAt_one, lineAt_zero])
    (by rw [lineAt_zero, lineAt_one]) (by rw [lineAt_one, lineAt_one])
  have e0 := wing_te h 0 ⟨le_rfl, zero_le_one⟩
  have e1 := wing_te h 1 ⟨zero_le_one, le_rfl⟩
  simp only [lineAt_zero, lineAt_one] at e0 e1
  have tip : ∀ p : V, (⟨(liftBy (midH s.ht s.hb) p).x - w.args.flap_length * Real.cos w.args.flap_angle, (liftBy (midH s.ht s.hb) p).y,
      (liftBy (midH s.ht s.hb) p).z + w.args.flap_length * Real.sin w.args.flap_angle⟩ : V) = flapTip w s p := fun p => rfl
  refine ⟨[("TE_top_patch", F), ("TE_bot_patch", G)], P0, P1, ?_, .cons v0 (.cons v1 .nil), ?_, ?_⟩
  · unfold Wing.flap MeanTrailingEdgePatch
    simp only [h.tail, ne_eq, not_true_eq_false, if_false, true_or, or_true, if_true, e0, e1, ok_bind, pure_eq, tip, line_zero, line_one, c0, c1,
      show ("bot" = "top") = False by decide]
  · simpa only [crv_lineAt, Function.comp_def] using g0
  · simpa only [crv_lineAt, Function.comp_def] using g1

end

section
variable {ptan : ℝ → ℝ} {D : ℝ → ℝ → Prop} {w : Wing.State} {s : WingShape} {t2 g : ℝ} (h : WingOk ptan D w s t2 g) (n : ℕ) (hn : 1 ≤ n)
include h hn

/-- The patch at the tip of the flap. -/
theorem wing_tele : ∃ l P, Wing.tele ptan w = .ok l ∧
    Grids n l [⟨P, seg n (liftBy s.ht w.args.B0) (flapTip w s w.args.B0), s.rimBot ptan n 0, s.rimTop ptan n 0,
      seg n (flapTip w s w.args.B0) (liftBy s.hb w.args.B0)⟩] ∧
    (⟨P, seg n (liftBy s.ht w.args.B0) (flapTip w s w.args.B0), s.rimBot ptan n 0, s.rimTop ptan n 0,
      seg n (flapTip w s w.args.B0) (liftBy s.hb w.args.B0)⟩ : Panel).Good n g := by
  have z0 : (0 : ℝ) ∈ Set.Icc (0 : ℝ) 1 := ⟨le_rfl, zero_le_one⟩
  have hn0 : (n : ℝ) ≠ 0 := by positivity
  have hnn : n ≠ 0 := by omega
  have hg := h.shape.gap_nonneg
  have hgap := h.shape.gap 0 z0
  have hb := h.shape.thick 0 z0
  have hT : liftBy s.ht w.args.B0 = s.M 0 + upBy (-s.half 0) := by rw [← h.L0, liftBy_top s.ht s.hb]; rfl
  have hB : liftBy s.hb w.args.B0 = s.M 0 + upBy (s.half 0) := by rw [← h.L0, liftBy_bot s.ht s.hb]; rfl
  have hM : liftBy (midH s.ht s.hb) w.args.B0 = s.M 0 := by rw [← h.L0]; rfl
  have d1 : (s.M 0).z - (liftBy s.ht w.args.B0).z = s.half 0 := by rw [hT]; simp [upBy]
  have d2 : (s.M 0).z - (liftBy s.hb w.args.B0).z = -s.half 0 := by rw [hB]; simp [upBy]
  obtain ⟨et, eb, e1, e2, v1, v2, n1, n2, c1, c2, c3, c4, g1, g2⟩ := ellipse_tips ptan h.shape.like (s.M 0) (s.half 0) (-s.half 0) (s.half 0) (s.wd 0)
    hb (abs_of_pos hb) (by rw [abs_neg, abs_of_pos hb]) (h.shape.wpos 0 z0) (h.shape.fits 0 z0)
  have p1 := (g1 (Real.pi / 2)).trans hgap
  have p2 := (g2 (Real.pi / 2)).trans hgap
  rw [swing_right _ rfl] at p1 p2
  have k : s.M 0 + ellArc ptan (s.half 0) (s.wd 0) true 1 = s.M 0 + ellArc ptan (s.half 0) (s.wd 0) false 0 := by rw [n1, n2]
  have z : ∀ {u v : V}, u = v → vdist u v ≤ g := fun h => by rw [h, vdist_self]; exact hg
  have ha0 : angAt s.M 0 = Real.pi / 2 := by simp [angAt]
  have hrim : ∀ top r, s.rim ptan top 0 r = s.M 0 + ellArc ptan (s.half 0) (s.wd 0) top r := by
    intro top r
    rw [WingShape.rim, ha0, swing_right _ rfl]
  have hT0 : s.T 0 = liftBy s.ht w.args.B0 := by rw [← h.L0]; rfl
  have hB0 : s.B 0 = liftBy s.hb w.args.B0 := by rw [← h.L0]; rfl
  obtain ⟨F, G, hF, vF, hG⟩ := coons_panel n hn eb (Line (flapTip w s w.args.B0) (liftBy s.hb w.args.B0))
    (Line (liftBy s.ht w.args.B0) (flapTip w s w.args.B0)) et _ _ _ _ v2 (fun _ => rfl) (fun _ => rfl) v1
    (by rw [lineAt_zero, hT]; exact c2) (by rw [lineAt_zero, lineAt_one]; exact cornerClose_refl _)
    (by rw [k]; exact cornerClose_refl _) (by rw [lineAt_one, hB]; exact c3) g
    (by rw [lineAt_zero, hT, vdist_comm, vdist_add_left]; exact p1) (z (by rw [lineAt_zero, lineAt_one])) (z k.symm)
    (by rw [lineAt_one, hB, vdist_add_left]; exact p2)
    (seg n (liftBy s.ht w.args.B0) (flapTip w s w.args.B0)) (s.rimBot ptan n 0) (s.rimTop ptan n 0)
    (seg n (flapTip w s w.args.B0) (liftBy s.hb w.args.B0))
    (by simp [WingShape.rimTop, seg_zero, hT0]) (by rw [seg_zero, seg_last n hn])
    (by simp only [WingShape.rimBot, WingShape.rimTop, hnn, hnn.symm, if_false, hrim, Nat.cast_zero, zero_div, div_self hn0, k])
    (by simp [WingShape.rimBot, seg_last n hn, hB0])
    (by
      intro j hj
      by_cases h0 : j = 0
      · subst h0
        simp only [WingShape.rimTop, if_true, Nat.cast_zero, zero_div, hT0, hT, vdist_add_left]
        exact p1
      · apply z
        simp only [WingShape.rimTop, h0, if_false, hrim])
    (fun j _ => z rfl)
    (by intro i _ _; rfl)
    (by
      intro i hi hlt
      simp only [WingShape.rimBot, hlt.ne, if_false, hrim])
  have q := wing_te h.toWingBase 1 ⟨zero_le_one, le_rfl⟩
  simp only [lineAt_one] at q
  have tip : (⟨(s.M 0).x - w.args.flap_length * Real.cos w.args.flap_angle, (s.M 0).y,
      (s.M 0).z + w.args.flap_length * Real.sin w.args.flap_angle⟩ : V) = flapTip w s w.args.B0 := by rw [← hM]; rfl
  have q1 : (⟨(s.M 0).x, (s.M 0).y, (liftBy s.ht w.args.B0).z⟩ : V) = liftBy s.ht w.args.B0 := by rw [← hM]; rfl
  have q2 : (⟨(s.M 0).x, (s.M 0).y, (liftBy s.hb w.args.B0).z⟩ : V) = liftBy s.hb w.args.B0 := by rw [← hM]; rfl
  refine ⟨[("TELE_patch", F)], fun i j => G ((i : ℝ) / n) ((j : ℝ) / n), ?_, .cons (fun i _ j _ => vF _ _) .nil, hG⟩
  unfold Wing.tele Wing.tipEdges
  simp only [q, hM, ok_bind, h.le, if_false, d1, d2, neg_eq_zero, hb.ne', or_self, h.width 0 z0, pure_eq, e1, e2, q1, q2, tip, hF]

/-- The closing patches. -/
theorem wing_close (F0 F2 : Surf) (hF0 : F0 0 0 = .ok (liftBy s.ht w.args.A1)) (hF2 : F2 1 0 = .ok (liftBy s.hb w.args.A1)) :
    ∃ l P, Wing.closeWing ptan w F0 F2 = .ok l ∧
      Grids n l [quad n (liftBy s.ht w.args.A0) (liftBy s.ht w.args.A1) (liftBy (midH s.ht s.hb) w.args.A1) (liftBy (midH s.ht s.hb) w.args.A0),
        quad n (liftBy s.ht w.args.A1) (s.T 1) (s.M 1) (liftBy (midH s.ht s.hb) w.args.A1),
        quad n (liftBy (midH s.ht s.hb) w.args.A0) (liftBy (midH s.ht s.hb) w.args.A1) (liftBy s.hb w.args.A1) (liftBy s.hb w.args.A0),
        quad n (liftBy (midH s.ht s.hb) w.args.A1) (s.M 1) (s.B 1) (liftBy s.hb w.args.A1),
        ⟨P, seg n (s.M 1) (s.T 1), fun i => s.rimBot ptan n 1 (n - i), seg n (s.M 1) (s.B 1), s.rimTop ptan n 1⟩] ∧
      (⟨P, seg n (s.M 1) (s.T 1), fun i => s.rimBot ptan n 1 (n - i), seg n (s.M 1) (s.B 1), s.rimTop ptan n 1⟩ : Panel).Good n g := by
  have z1 : (1 : ℝ) ∈ Set.Icc (0 : ℝ) 1 := ⟨zero_le_one, le_rfl⟩
  have hn0 : (n : ℝ) ≠ 0 := by positivity
  have hnn : n ≠ 0 := by omega
  have hg := h.shape.gap_nonneg
  have hgap := h.shape.gap 1 z1
  have hb := h.shape.thick 1 z1
  have hT : s.T 1 = s.M 1 + upBy (-s.half 1) := by rw [WingShape.T, liftBy_top s.ht s.hb]; rfl
  have hB : s.B 1 = s.M 1 + upBy (s.half 1) := by rw [WingShape.B, liftBy_bot s.ht s.hb]; rfl
  have d1 : (s.M 1).z - (s.T 1).z = s.half 1 := by rw [hT]; simp [upBy]
  have d2 : (s.M 1).z - (s.B 1).z = -s.half 1 := by rw [hB]; simp [upBy]
  obtain ⟨et, eb, e1, e2, v1, v2, n1, n2, c1, c2, c3, c4, g1, g2⟩ := ellipse_tips ptan h.shape.like (s.M 1) (s.half 1) (-s.half 1) (s.half 1) (s.wd 1)
    hb (abs_of_pos hb) (by rw [abs_neg, abs_of_pos hb]) (h.shape.wpos 1 z1) (h.shape.fits 1 z1)
  have p1 := (g1 (Real.pi / 2)).trans hgap
  have p2 := (g2 (Real.pi / 2)).trans hgap
  rw [swing_right _ rfl] at p1 p2
  have k : s.M 1 + ellArc ptan (s.half 1) (s.wd 1) true 1 = s.M 1 + ellArc ptan (s.half 1) (s.wd 1) false 0 := by rw [n1, n2]
  have z : ∀ {u v : V}, u = v → vdist u v ≤ g := fun h => by rw [h, vdist_self]; exact hg
  have sub : ∀ (p : PathObj) (f : ℝ → V), (∀ r, p.call r = .ok (f r)) → ∀ r, (SubRangedPath p 1 0).call r = .ok (f (1 - r)) := by
    intro p f hf r
    simp only [SubRangedPath]
    rw [← hf]
    congr 1; ring
  let Nd : ℕ → V := fun i => if i = 0 then s.B 1 else s.M 1 + ellArc ptan (s.half 1) (s.wd 1) false (1 - (i : ℝ) / n)
  let Ed : ℕ → V := fun j => if j = 0 then s.T 1 else s.M 1 + ellArc ptan (s.half 1) (s.wd 1) true ((j : ℝ) / n)
  obtain ⟨F, G, hF, vF, hG⟩ := coons_panel n hn (SubRangedPath eb 1 0) et (Line (s.M 1) (s.T 1)) (Line (s.M 1) (s.B 1)) _ _ _ _
    (sub _ _ v2) v1 (fun _ => rfl) (fun _ => rfl) (by rw [lineAt_zero, lineAt_zero]; exact cornerClose_refl _)
    (by rw [lineAt_one, hT]; exact c2) (by rw [lineAt_one, sub_zero, hB]; exact c3) (by rw [sub_self, k]; exact cornerClose_refl _) g
    (z (by rw [lineAt_zero, lineAt_zero])) (by rw [lineAt_one, hT, vdist_comm, vdist_add_left]; exact p1)
    (by rw [lineAt_one, sub_zero, hB, vdist_add_left]; exact p2) (z (by rw [sub_self, k]))
    (seg n (s.M 1) (s.T 1)) Nd (seg n (s.M 1) (s.B 1)) Ed (by rw [seg_zero, seg_zero]) (by simp [Ed, seg_last n hn])
    (by simp [Nd, seg_last n hn]) (by simp only [Nd, Ed, hnn, if_false, div_self hn0, sub_self, k])
    (fun j _ => z rfl)
    (by
      intro j hj
      by_cases h0 : j = 0
      · subst h0
        simp only [Ed, if_true, Nat.cast_zero, zero_div, hT, vdist_add_left]
        exact p1
      · apply z
        simp only [Ed, h0, if_false])
    (by intro i _ _; rfl)
    (by intro i hi _; simp only [Nd, hi.ne', if_false])
  let ρ : V → V := fun v => rotAbout .z (-90 * Real.pi / 180) (v - s.M 1) + s.M 1
  have hρ : ∀ u v, vdist (ρ u) (ρ v) = vdist u v := by
    intro u v; simp only [ρ]; rw [vdist_add_right, rot_isometry, vdist_sub_right]
  have hρ' : ∀ v : V, v.x = 0 → ρ (s.M 1 + v) = s.M 1 + swing 0 v := by
    intro v hv
    have ang : -90 * Real.pi / 180 = -(Real.pi / 2) := by ring
    simp only [ρ, rotAbout, swing_zero, ang, Real.cos_neg, Real.sin_neg, Real.cos_pi_div_two, Real.sin_pi_div_two]
    ext <;> simp [hv, add_comm]
  have up : ∀ u : ℝ, ρ (s.M 1 + upBy u) = s.M 1 + upBy u := by
    intro u
    rw [hρ' _ rfl]
    ext <;> simp [swing, upBy]
  have hl : ∀ u t : ℝ, lineAt (s.M 1) (s.M 1 + upBy u) t = s.M 1 + upBy (t * u) := by
    intro u t; ext <;> simp [lineAt, upBy] <;> ring
  have ha1 : angAt s.M 1 = 0 := by simp [angAt]
  have hrim : ∀ top r, ρ (s.M 1 + ellArc ptan (s.half 1) (s.wd 1) top r) = s.rim ptan top 1 r := by
    intro top r
    rw [WingShape.rim, ha1, hρ' _ rfl]
  have hS : ρ ∘ seg n (s.M 1) (s.T 1) = seg n (s.M 1) (s.T 1) := by
    funext i; simp only [Function.comp, seg, hT, hl, up]
  have hW : ρ ∘ seg n (s.M 1) (s.B 1) = seg n (s.M 1) (s.B 1) := by
    funext i; simp only [Function.comp, seg, hB, hl, up]
  have hE : ρ ∘ Ed = s.rimTop ptan n 1 := by
    funext i
    simp only [Function.comp, Ed, WingShape.rimTop]
    split_ifs
    · rw [hT, up]
    · rw [hrim]
  have hgood := Panel.map_good ρ hρ n _ _ hG
  unfold Panel.map at hgood
  simp only [hS, hE, hW] at hgood
  have hN : ∀ i ≤ n, (ρ ∘ Nd) i = s.rimBot ptan n 1 (n - i) := by
    intro i hi
    simp only [Function.comp, Nd, WingShape.rimBot]
    by_cases h0 : i = 0
    · subst h0; simp only [if_true, Nat.sub_zero, hB, up]
    · have : n - i ≠ n := by omega
      simp only [h0, this, if_false, hrim, div_flip hn hi]
  have hgood' : (⟨fun i j => ρ (G ((i : ℝ) / n) ((j : ℝ) / n)), seg n (s.M 1) (s.T 1), fun i => s.rimBot ptan n 1 (n - i),
      seg n (s.M 1) (s.B 1), s.rimTop ptan n 1⟩ : Panel).Good n g :=
    ⟨hgood.sw, hgood.se, (hN 0 (by omega)).symm.trans hgood.nw, (hN n le_rfl).symm.trans hgood.ne, hgood.south,
      fun i hi => by have := hgood.north i hi; simp only [hN i hi] at this; exact this, hgood.west, hgood.east⟩
  have q := wing_te h.toWingBase 0 ⟨le_rfl, zero_le_one⟩
  simp only [lineAt_zero] at q
  have o1 : w.args.TT + ⟨0, 0, s.ht w.args.TT.x w.args.TT.y⟩ = s.T 1 := by rw [liftBy_eq, ← h.L1]; rfl
  have o2 : w.args.TT + ⟨0, 0, s.hb w.args.TT.x w.args.TT.y⟩ = s.B 1 := by rw [liftBy_eq, ← h.L1]; rfl
  have o3 : (s.T 1 + s.B 1) * (0.5 : ℝ) = s.M 1 := by
    ext <;> simp [WingShape.T, WingShape.B, WingShape.M, liftBy, midH] <;> ring
  have o4 : (⟨(liftBy s.hb w.args.A1).x, (liftBy s.hb w.args.A1).y, ((liftBy s.hb w.args.A1).z + (liftBy s.ht w.args.A1).z) / 2⟩ : V) =
      liftBy (midH s.ht s.hb) w.args.A1 := by
    ext <;> simp [liftBy, midH] <;> ring
  obtain ⟨q1, hq1, vq1⟩ := coons_quad (Line (liftBy (midH s.ht s.hb) w.args.A0) (liftBy (midH s.ht s.hb) w.args.A1))
    (Line (liftBy s.ht w.args.A1) (liftBy (midH s.ht s.hb) w.args.A1)) (Line (liftBy s.ht w.args.A0) (liftBy s.ht w.args.A1))
    (Line (liftBy s.ht w.args.A0) (liftBy (midH s.ht s.hb) w.args.A0)) _ _ _ _ (fun _ => rfl) (fun _ => rfl) (fun _ => rfl) (fun _ => rfl)
  obtain ⟨q2, hq2, vq2⟩ := coons_quad (Line (liftBy (midH s.ht s.hb) w.args.A1) (s.M 1)) (Line (s.T 1) (s.M 1))
    (Line (liftBy s.ht w.args.A1) (s.T 1)) (Line (liftBy s.ht w.args.A1) (liftBy (midH s.ht s.hb) w.args.A1)) _ _ _ _
    (fun _ => rfl) (fun _ => rfl) (fun _ => rfl) (fun _ => rfl)
  obtain ⟨q3, hq3, vq3⟩ := coons_quad (Line (liftBy s.hb w.args.A0) (liftBy s.hb w.args.A1))
    (Line (liftBy (midH s.ht s.hb) w.args.A1) (liftBy s.hb w.args.A1))
    (Line (liftBy (midH s.ht s.hb) w.args.A0) (liftBy (midH s.ht s.hb) w.args.A1))
    (Line (liftBy (midH s.ht s.hb) w.args.A0) (liftBy s.hb w.args.A0)) _ _ _ _ (fun _ => rfl) (fun _ => rfl) (fun _ => rfl) (fun _ => rfl)
  obtain ⟨q4, hq4, vq4⟩ := coons_quad (Line (liftBy s.hb w.args.A1) (s.B 1)) (Line (s.M 1) (s.B 1))
    (Line (liftBy (midH s.ht s.hb) w.args.A1) (s.M 1)) (Line (liftBy (midH s.ht s.hb) w.args.A1) (liftBy s.hb w.args.A1)) _ _ _ _
    (fun _ => rfl) (fun _ => rfl) (fun _ => rfl) (fun _ => rfl)
  refine ⟨[("wing_close_top_patch0", q1), ("wing_close_top_patch1", q2), ("wing_close_bot_patch0", q3), ("wing_close_bot_patch1", q4),
    ("interior_ellip", RotatedPatch F (-90 * Real.pi / 180) "z" (s.M 1))], _, ?_, ?_, hgood'⟩
  · have hD := h.cov.le 1 z1
    rw [h.L1] at hD
    unfold Wing.closeWing
    simp only [h.top _ _ _ hD, h.bot _ _ _ hD, ok_bind, o1, o2, o3, q, hF0, hF2, o4, hq1, hq2, hq3, hq4, h.width 1 z1, d1, d2, e1, e2, hF, pure_eq]
  · refine .cons (fun i _ j _ => vq1 _ _) (.cons (fun i _ j _ => vq2 _ _) (.cons (fun i _ j _ => vq3 _ _) (.cons (fun i _ j _ => vq4 _ _)
      (.cons ?_ .nil))))
    intro i _ j _
    exact RotatedPatch_eq F _ "z" .z (s.M 1) ((namesAxis_iff _ 2).1 (.inl rfl)) _ _ _ (vF _ _)

omit hn in
/-- The patch that closes the flap at the root. -/
theorem wing_closeFlap : ∃ l, Wing.closeFlap w = .ok l ∧
    Grids n l [quad n (liftBy (midH s.ht s.hb) w.args.A0) (liftBy s.hb w.args.A0) (flapTip w s w.args.A0) (liftBy s.ht w.args.A0)] := by
  have q := wing_te h.toWingBase 0 ⟨le_rfl, zero_le_one⟩
  simp only [lineAt_zero] at q
  have tip : (⟨(liftBy (midH s.ht s.hb) w.args.A0).x - w.args.flap_length * Real.cos w.args.flap_angle, (liftBy (midH s.ht s.hb) w.args.A0).y,
      (liftBy (midH s.ht s.hb) w.args.A0).z + w.args.flap_length * Real.sin w.args.flap_angle⟩ : V) = flapTip w s w.args.A0 := rfl
  obtain ⟨F, hF, vF⟩ := coons_quad (Line (liftBy s.ht w.args.A0) (flapTip w s w.args.A0)) (Line (liftBy s.hb w.args.A0) (flapTip w s w.args.A0))
    (Line (liftBy (midH s.ht s.hb) w.args.A0) (liftBy s.hb w.args.A0)) (Line (liftBy (midH s.ht s.hb) w.args.A0) (liftBy s.ht w.args.A0)) _ _ _ _
    (fun _ => rfl) (fun _ => rfl) (fun _ => rfl) (fun _ => rfl)
  refine ⟨[("interior_flap_patch", F)], ?_, .cons (fun i _ j _ => vF _ _) .nil⟩
  unfold Wing.closeFlap
  simp only [q, ok_bind, tip, hF, pure_eq]

end

/-- Generating and meshing a new component of the assigning kind. -/
theorem into_mesh (h : Heap) (id : ℕ) (out : Reso → GenOut) (hgen : (h id).gen = .into out) (n : ℕ) (hn : 1 ≤ n)
    (hres : (h id).stl_resolution = .int n) (hm : (h id).mesh_ = none) (hs : (h id).surfaces = none) (hp : (h id).patches = [])
    (hc : (h id).clustering = {}) (herr : (out (.int n)).err = none) (hk : ((out (.int n)).items.map Prod.fst).Nodup)
    (hne : (out (.int n)).items ≠ []) (ps : List Panel) (hP : Grids n (out (.int n)).items ps) :
    ∃ h' M c', generatePatches h id = (.ok (), h') ∧ (h' id).mesh = (.ok M, c') ∧
      M.tris = (ps.map fun p => gridMesh MeshArith.real false n n p.P).flatten := by
  have hg : generatePatches h id = (.ok (), h.upd id ((h id).genInto (out (.int n))).2) := by
    simp only [generatePatches, Composite.genLeaf, hgen, Comp.genInto, hres, herr]
  have hpat : (((h id).genInto (out (.int n))).2).patches = (out (.int n)).items := by
    simp only [Comp.genInto, hp]
    exact Dict.setAll_nil_nodup _ hk
  obtain ⟨M, c', h1, h2, _⟩ := (C52_mesh ((h id).genInto (out (.int n))).2 n hn hres hm hs (by rw [hpat]; exact hk)
    (by rw [hpat]; exact hne)).1 ((ps.map fun p => gridMesh MeshArith.real false n n p.P).flatten) (by
      rw [hpat, show ((h id).genInto (out (.int n))).2.clustering = {} from hc]
      have := meshOf_grids n hn (out (.int n)).items (ps.map Panel.P) (by
        rw [List.forall₂_map_right_iff]; exact hP)
      rw [List.map_map] at this
      exact this)
  exact ⟨_, M, c', hg, by rw [upd_self]; exact h1, h2⟩

/-- Replacing the southern curve of a panel by a nearby one. -/
theorem Panel.Good.resouth {n : ℕ} {g δ : ℝ} (hδ : 0 ≤ δ) {p : Panel} (hp : p.Good n g) (S' : ℕ → V) (h0 : S' 0 = p.S 0) (h1 : S' n = p.S n)
    (hd : ∀ i ≤ n, vdist (p.S i) (S' i) ≤ δ) : (⟨p.P, S', p.N, p.W, p.E⟩ : Panel).Good n (g + δ) where
  sw := h0.trans hp.sw
  se := h1.trans hp.se
  nw := hp.nw
  ne := hp.ne
  south i hi := (vdist_triangle _ _ _).trans (add_le_add (hp.south i hi) (hd i hi))
  north i hi := (hp.north i hi).trans (by linarith)
  west i hi := (hp.west i hi).trans (by linarith)
  east i hi := (hp.east i hi).trans (by linarith)

theorem Panel.Good.mono {n : ℕ} {g g' : ℝ} (hle : g ≤ g') {p : Panel} (hp : p.Good n g) : p.Good n g' where
  sw := hp.sw
  se := hp.se
  nw := hp.nw
  ne := hp.ne
  south i hi := (hp.south i hi).trans hle
  north i hi := (hp.north i hi).trans hle
  west i hi := (hp.west i hi).trans hle
  east i hi := (hp.east i hi).trans hle

/-- The mesh of a wing from the patches of its stages. -/
theorem wing_staged {ptan : ℝ → ℝ} {w : Wing.State} (n : ℕ) (hn : 1 ≤ n) (name : Option String) (H : Heap) (id : ℕ)
    (hid : H id = Wing.comp ptan w n name) (ls : List (List (String × Surf)))
    (hst : List.Forall₂ (fun (r : Res (List (String × Surf))) l => r = .ok l) (Wing.stages ptan w) ls) (ps : List Panel)
    (hps : Grids n ls.flatten ps) :
    ∃ h' M c', generatePatches H id = (.ok (), h') ∧ (h' id).mesh = (.ok M, c') ∧
      M.tris = (ps.map fun p => gridMesh MeshArith.real false n n p.P).flatten := by
  have herr : (runStages (Wing.stages ptan w)).err = none ∧ (runStages (Wing.stages ptan w)).items = ls.flatten := by
    have : ∀ L (ls : List (List (String × Surf))), List.Forall₂ (fun (r : Res (List (String × Surf))) l => r = .ok l) L ls →
        (runStages L).err = none ∧ (runStages L).items = ls.flatten := by
      intro L ls h
      induction h with
      | nil => exact ⟨rfl, rfl⟩
      | @cons r l L ls hd _ ih => subst hd; exact ⟨ih.1, by simp [runStages, ih.2]⟩
    exact this _ _ hst
  have hnames := Wing.names_of_stages hst
  have hnd := Wing.stageNames_nodup w
  have hnn : (Wing.stageNames w).flatten ≠ [] := by simp [Wing.stageNames]
  rw [← hnames, ← List.map_flatten] at hnd hnn
  exact into_mesh H id (fun _ => runStages (Wing.stages ptan w)) (by rw [hid]; rfl) n hn (by rw [hid]; rfl) (by rw [hid]; rfl)
    (by rw [hid]; rfl) (by rw [hid]; rfl) (by rw [hid]; rfl) herr.1 (by simp only [herr.2]; exact hnd)
    (by simp only [herr.2]; intro h0; rw [h0] at hnn; exact hnn rfl) _ (by simp only [herr.2]; exact hps)

section
variable {ptan : ℝ → ℝ} {D : ℝ → ℝ → Prop} {w : Wing.State} {s : WingShape} {t2 g : ℝ} (h : WingOk ptan D w s t2 g) (n : ℕ) (hn : 1 ≤ n)
include h hn

/-- The mesh of a wing, as the mesh of panels with their boundary. -/
theorem wing_panels (hc : w.args.close_wing = false) (name : Option String) (H : Heap) (id : ℕ) (hid : H id = Wing.comp ptan w n name) :
    ∃ h' M c', ∃ ps : List Panel, generatePatches H id = (.ok (), h') ∧ (h' id).mesh = (.ok M, c') ∧
      M.tris = (ps.map fun p => gridMesh MeshArith.real false n n p.P).flatten ∧ (∀ p ∈ ps, p.Good n g) ∧
      ∀ φ : V → V → ℤ, Anti φ → (ps.map (Panel.turn φ n)).sum =
        pathSum φ (crv n (liftBy s.ht ∘ lineAt w.args.A1 w.args.A0) 0 1) n + pathSum φ (crv n (liftBy s.ht ∘ lineAt w.args.TT w.args.A1) 0 1) n
        + pathSum φ (crv n (liftBy s.hb ∘ lineAt w.args.A0 w.args.A1) 0 1) n + pathSum φ (crv n (liftBy s.hb ∘ lineAt w.args.A1 w.args.TT) 0 1) n
        - pathSum φ (s.rimTop ptan n 1) n - pathSum φ (s.rimBot ptan n 1) n
        - pathSum φ (seg n (flapTip w s w.args.A0) (liftBy s.ht w.args.A0)) n - pathSum φ (seg n (liftBy s.hb w.args.A0) (flapTip w s w.args.A0)) n := by
  obtain ⟨F0, F1, F2, F3, P0, P1, P2, P3, hs, -, -, fs, gs⟩ := wing_skins h.toWingBase n hn g h.shape.gap_nonneg
  obtain ⟨le, hle, fle⟩ := wing_leading h n hn
  obtain ⟨fl, Q0, Q1, hfl, ffl, gf0, gf1⟩ := wing_flap h.toWingBase n hn g h.shape.gap_nonneg
  obtain ⟨te, R, hte, fte, gte⟩ := wing_tele h n hn
  have z0 : (0 : ℝ) ∈ Set.Icc (0 : ℝ) 1 := ⟨le_rfl, zero_le_one⟩
  have z1 : (1 : ℝ) ∈ Set.Icc (0 : ℝ) 1 := ⟨zero_le_one, le_rfl⟩
  obtain ⟨h', M, c', g1, g2, g3⟩ := wing_staged n hn name H id hid
    [[("top_patch_0", F0), ("top_patch_1", F1), ("bot_patch_0", F2), ("bot_patch_1", F3)], le, fl, te] (by
      unfold Wing.stages
      simp only [hc, Bool.false_eq_true, if_false, List.append_nil]
      exact .cons hs (.cons hle (.cons hfl (.cons hte .nil)))) _ (by
      rw [List.flatten_cons, List.flatten_cons, List.flatten_cons, List.flatten_cons, List.flatten_nil, List.append_nil]
      exact List.rel_append fs (List.rel_append fle (List.rel_append ffl fte)))
  refine ⟨h', M, c', _, g1, g2, g3, ?_, ?_⟩
  · intro p hp
    rw [List.mem_append, List.mem_append, List.mem_append] at hp
    rcases hp with hp | hp | hp | hp
    · exact gs p hp
    · simp only [List.mem_cons, List.not_mem_nil, or_false] at hp
      rcases hp with rfl | rfl | rfl | rfl | rfl | rfl
      · exact h.shape.leTop_good hn z0 h.t1mem
      · exact h.shape.leTop_good hn h.t1mem h.t2mem
      · exact h.shape.leTop_good hn h.t2mem z1
      · exact h.shape.leBot_good hn z0 h.t1mem
      · exact h.shape.leBot_good hn h.t1mem h.t2mem
      · exact h.shape.leBot_good hn h.t2mem z1
    · simp only [List.mem_cons, List.not_mem_nil, or_false] at hp
      rcases hp with rfl | rfl
      · exact gf0
      · exact gf1
    · simp only [List.mem_cons, List.not_mem_nil, or_false] at hp
      subst hp
      exact gte
  · intro φ hφ
    have r := pathSum_seg φ hφ n hn
    have q := pathSum_crv φ hφ n hn
    simp only [List.cons_append, List.nil_append, List.map_cons, List.map_nil, List.sum_cons, List.sum_nil, Panel.turn, WingShape.leTop,
      WingShape.leBot]
    linear_combination r (liftBy s.ht w.args.B0) (flapTip w s w.args.B0) + r (liftBy s.hb w.args.B0) (flapTip w s w.args.B0)
      - q s.B 0 w.t_B1 - q s.B w.t_B1 t2

/-- The panels of a closed wing cancel, up to the bend of the root. -/
theorem wing_closed (hc : w.args.close_wing = true) (δ : ℝ)
    (bt : ∀ t ∈ Set.Icc (0 : ℝ) 1, vdist (liftBy s.ht (lineAt w.args.A0 w.args.A1 t)) (lineAt (liftBy s.ht w.args.A0) (liftBy s.ht w.args.A1) t) ≤ δ ∧
      vdist (liftBy s.ht (lineAt w.args.A1 w.args.TT t)) (lineAt (liftBy s.ht w.args.A1) (liftBy s.ht w.args.TT) t) ≤ δ)
    (bb : ∀ t ∈ Set.Icc (0 : ℝ) 1, vdist (liftBy s.hb (lineAt w.args.A0 w.args.A1 t)) (lineAt (liftBy s.hb w.args.A0) (liftBy s.hb w.args.A1) t) ≤ δ ∧
      vdist (liftBy s.hb (lineAt w.args.A1 w.args.TT t)) (lineAt (liftBy s.hb w.args.A1) (liftBy s.hb w.args.TT) t) ≤ δ)
    (name : Option String) (H : Heap) (id : ℕ) (hid : H id = Wing.comp ptan w n name) :
    ∃ h' M c', generatePatches H id = (.ok (), h') ∧ (h' id).mesh = (.ok M, c') ∧ ClosedUpTo (g + δ) M.tris := by
  obtain ⟨F0, F1, F2, F3, P0, P1, P2, P3, hs, hF0, hF2, fs, gs⟩ := wing_skins h.toWingBase n hn g h.shape.gap_nonneg
  obtain ⟨le, hle, fle⟩ := wing_leading h n hn
  obtain ⟨fl, Q0, Q1, hfl, ffl, gf0, gf1⟩ := wing_flap h.toWingBase n hn g h.shape.gap_nonneg
  obtain ⟨te, R, hte, fte, gte⟩ := wing_tele h n hn
  obtain ⟨cl, C, hcl, fcl, gcl⟩ := wing_close h n hn F0 F2 hF0 hF2
  obtain ⟨cf, hcf, fcf⟩ := wing_closeFlap h n
  have z0 : (0 : ℝ) ∈ Set.Icc (0 : ℝ) 1 := ⟨le_rfl, zero_le_one⟩
  have z1 : (1 : ℝ) ∈ Set.Icc (0 : ℝ) 1 := ⟨zero_le_one, le_rfl⟩
  have hδ : 0 ≤ δ := (vdist_nonneg _ _).trans (bt 0 z0).1
  have hg := h.shape.gap_nonneg
  have hT1 : liftBy s.ht w.args.TT = s.T 1 := by rw [← h.L1]; rfl
  have hB1 : liftBy s.hb w.args.TT = s.B 1 := by rw [← h.L1]; rfl
  have hfrom : Wing.closeFrom ptan w = .ok cl := by
    unfold Wing.closeFrom
    rw [hs, ok_bind]
    exact hcl
  obtain ⟨h', M, c', g1, g2, g3⟩ := wing_staged n hn name H id hid
    [[("top_patch_0", F0), ("top_patch_1", F1), ("bot_patch_0", F2), ("bot_patch_1", F3)], le, fl, te, cl, cf] (by
      unfold Wing.stages
      simp only [hc, if_true, List.cons_append, List.nil_append]
      exact .cons hs (.cons hle (.cons hfl (.cons hte (.cons hfrom (.cons hcf .nil)))))) (
      [⟨P0, seg n (liftBy s.ht w.args.A1) (liftBy s.ht w.args.A0), crv n s.T w.t_B1 0, crv n (liftBy s.ht ∘ lineAt w.args.A1 (s.L w.t_B1)) 0 1,
          crv n (liftBy s.ht ∘ lineAt w.args.A0 w.args.B0) 0 1⟩,
       ⟨P1, seg n (s.T 1) (liftBy s.ht w.args.A1), crv n s.T t2 w.t_B1, crv n s.T 1 t2,
          crv n (liftBy s.ht ∘ lineAt w.args.A1 (s.L w.t_B1)) 0 1⟩,
       ⟨P2, seg n (liftBy s.hb w.args.A0) (liftBy s.hb w.args.A1), crv n s.B 0 w.t_B1, crv n (liftBy s.hb ∘ lineAt w.args.A0 w.args.B0) 0 1,
          crv n (liftBy s.hb ∘ lineAt w.args.A1 (s.L w.t_B1)) 0 1⟩,
       ⟨P3, seg n (liftBy s.hb w.args.A1) (s.B 1), crv n s.B w.t_B1 t2, crv n (liftBy s.hb ∘ lineAt w.args.A1 (s.L w.t_B1)) 0 1,
          crv n s.B 1 t2⟩] ++ _) (by
      rw [List.flatten_cons, List.flatten_cons, List.flatten_cons, List.flatten_cons, List.flatten_cons, List.flatten_cons, List.flatten_nil,
        List.append_nil]
      refine List.rel_append ?_ (List.rel_append fle (List.rel_append ffl (List.rel_append fte (List.rel_append fcl fcf))))
      rcases fs with _ | ⟨a0, _ | ⟨a1, _ | ⟨a2, _ | ⟨a3, _⟩⟩⟩⟩
      exact .cons a0 (.cons a1 (.cons a2 (.cons a3 .nil))))
  refine ⟨h', M, c', g1, g2, ?_⟩
  rw [g3]
  have mono : ∀ p : Panel, p.Good n g → p.Good n (g + δ) := fun p hp => hp.mono (by linarith)
  have hquad := quad_good n hn (g + δ) (by linarith)
  have hmem : ∀ i ≤ n, (i : ℝ) / n ∈ Set.Icc (0 : ℝ) 1 := fun i hi =>
    ⟨by positivity, (div_le_one (by positivity)).2 (by exact_mod_cast hi)⟩
  have hflip : ∀ i ≤ n, 1 - (i : ℝ) / n ∈ Set.Icc (0 : ℝ) 1 := fun i hi => ⟨by linarith [(hmem i hi).2], by linarith [(hmem i hi).1]⟩
  have hcr : ∀ (F : ℝ → V) (i : ℕ), crv n F 0 1 i = F ((i : ℝ) / n) := fun F i => by simp [crv]
  apply closedUpTo_panels n hn _ (by linarith)
  · intro p hp
    rw [List.mem_append, List.mem_append, List.mem_append, List.mem_append, List.mem_append] at hp
    rcases hp with hp | hp | hp | hp | hp | hp
    · have s0 := gs _ (List.mem_cons_self)
      have s1 := gs _ (List.mem_cons_of_mem _ List.mem_cons_self)
      have s2 := gs _ (List.mem_cons_of_mem _ (List.mem_cons_of_mem _ List.mem_cons_self))
      have s3 := gs _ (List.mem_cons_of_mem _ (List.mem_cons_of_mem _ (List.mem_cons_of_mem _ List.mem_cons_self)))
      simp only [List.mem_cons, List.not_mem_nil, or_false] at hp
      rcases hp with rfl | rfl | rfl | rfl
      · refine s0.resouth hδ _ (by simp only [seg_zero, crv_zero, Function.comp, lineAt_zero]) (by simp only [seg_last n hn, crv_last n hn, Function.comp, lineAt_one]) ?_
        intro i hi
        simp only [hcr, Function.comp, seg]
        rw [lineAt_flip, lineAt_flip (liftBy s.ht w.args.A0)]
        exact (bt _ (hflip i hi)).1
      · refine s1.resouth hδ _ (by simp only [seg_zero, crv_zero, Function.comp, lineAt_zero, hT1])
          (by simp only [seg_last n hn, crv_last n hn, Function.comp, lineAt_one]) ?_
        intro i hi
        simp only [hcr, Function.comp, seg]
        rw [lineAt_flip, lineAt_flip (liftBy s.ht w.args.A1), ← hT1]
        exact (bt _ (hflip i hi)).2
      · refine s2.resouth hδ _ (by simp only [seg_zero, crv_zero, Function.comp, lineAt_zero]) (by simp only [seg_last n hn, crv_last n hn, Function.comp, lineAt_one]) ?_
        intro i hi
        simp only [hcr, Function.comp, seg]
        exact (bb _ (hmem i hi)).1
      · refine s3.resouth hδ _ (by simp only [seg_zero, crv_zero, Function.comp, lineAt_zero])
          (by simp only [seg_last n hn, crv_last n hn, Function.comp, lineAt_one, hB1]) ?_
        intro i hi
        simp only [hcr, Function.comp, seg]
        rw [← hB1]
        exact (bb _ (hmem i hi)).2
    · simp only [List.mem_cons, List.not_mem_nil, or_false] at hp
      apply mono
      rcases hp with rfl | rfl | rfl | rfl | rfl | rfl
      · exact h.shape.leTop_good hn z0 h.t1mem
      · exact h.shape.leTop_good hn h.t1mem h.t2mem
      · exact h.shape.leTop_good hn h.t2mem z1
      · exact h.shape.leBot_good hn z0 h.t1mem
      · exact h.shape.leBot_good hn h.t1mem h.t2mem
      · exact h.shape.leBot_good hn h.t2mem z1
    · simp only [List.mem_cons, List.not_mem_nil, or_false] at hp
      rcases hp with rfl | rfl
      · exact mono _ gf0
      · exact mono _ gf1
    · simp only [List.mem_cons, List.not_mem_nil, or_false] at hp
      subst hp
      exact mono _ gte
    · simp only [List.mem_cons, List.not_mem_nil, or_false] at hp
      rcases hp with rfl | rfl | rfl | rfl | rfl
      · exact hquad _ _ _ _
      · exact hquad _ _ _ _
      · exact hquad _ _ _ _
      · exact hquad _ _ _ _
      · exact mono _ gcl
    · simp only [List.mem_cons, List.not_mem_nil, or_false] at hp
      subst hp
      exact hquad _ _ _ _
  · intro φ hφ
    have r := pathSum_seg φ hφ n hn
    have q := pathSum_crv φ hφ n hn
    simp only [List.cons_append, List.nil_append, List.map_cons, List.map_nil, List.sum_cons, List.sum_nil, Panel.turn, WingShape.leTop,
      WingShape.leBot, quad]
    rw [pathSum_reverse φ hφ]
    linear_combination r (liftBy s.ht w.args.B0) (flapTip w s w.args.B0) + r (liftBy s.hb w.args.B0) (flapTip w s w.args.B0)
      - q s.B 0 w.t_B1 - q s.B w.t_B1 t2 + r (liftBy s.ht w.args.A0) (liftBy s.ht w.args.A1) + r (liftBy s.ht w.args.A1) (s.T 1)
      - r (liftBy s.ht w.args.A0) (flapTip w s w.args.A0) - r (liftBy s.ht w.args.A0) (liftBy (midH s.ht s.hb) w.args.A0) + r (s.T 1) (s.M 1)

end

/-! ## The statement -/

namespace Spec

/-- A wing with an elliptical leading edge along the curve `L`, skins at the heights `ht < hb` above the planform, and leading edge
width `wd`; the thickness functions need to be defined over the region `D` of the planform only; `g` bounds the numerical gap at the poles of the ellipses. -/
structure SmoothWing (ptan : ℝ → ℝ) (D : ℝ → ℝ → Prop) (a : Wing.Args) (L : ℝ → V) (ht hb : ℝ → ℝ → ℝ) (wd : ℝ → ℝ) (g : ℝ) : Prop where
  like : TanLike ptan
  ty : a.lineType.toLower = "bezier"
  le : a.LE_type.toUpper ≠ "FLAT"
  tail : a.tail_option = "FLAP"
  breaks : a.t_B2 = none ∨ a.t_B1.isSome
  line : ∀ t, a.line.call t = .ok (L t)
  L0 : L 0 = a.B0
  L1 : L 1 = a.TT
  top : HeightFn D a.top_tf ht
  bot : HeightFn D a.bot_tf hb
  over : LiesOver D a.A0 a.A1 L
  given : a.LE_wf.isSome ∨ a.LE_type = "custom"
  width : ∀ t ∈ Set.Icc (0 : ℝ) 1, (a.LE_wf.getD leadingEdgeWidth) t = .ok (wd t)
  thick : ∀ t ∈ Set.Icc (0 : ℝ) 1, ht (L t).x (L t).y < hb (L t).x (L t).y
  wpos : ∀ t ∈ Set.Icc (0 : ℝ) 1, 0 < wd t
  fits : ∀ t ∈ Set.Icc (0 : ℝ) 1, PoleFits ptan ((hb (L t).x (L t).y - ht (L t).x (L t).y) / 2) (wd t)
  gap : ∀ t ∈ Set.Icc (0 : ℝ) 1, poleGap ptan ((hb (L t).x (L t).y - ht (L t).x (L t).y) / 2) (wd t) ≤ g

/-- Between `u` and `v` the surface at height `h` is within `δ` of the straight line that joins its ends. -/
def BendsBy (δ : ℝ) (h : ℝ → ℝ → ℝ) (u v : V) : Prop :=
  ∀ t ∈ Set.Icc (0 : ℝ) 1, vdist (liftBy h (lineAt u v t)) (lineAt (liftBy h u) (liftBy h v) t) ≤ δ

/-- The mirror image in the plane `y = 0`. -/
def mirrorY (v : V) : V := ⟨v.x, -v.y, v.z⟩

/-- The mirror image of a mesh, with the triangles turned over. -/
def mirrorMesh (m : TriMesh ℝ) : TriMesh ℝ := m.map fun t => ⟨mirrorY t.v0, mirrorY t.v2, mirrorY t.v1⟩

end Spec

theorem smoothWing_ok {find : (ℝ → Res ℝ) → Res ℝ} {ptan : ℝ → ℝ} {D : ℝ → ℝ → Prop} {a : Wing.Args} {w : Wing.State} {L : ℝ → V} {ht hb : ℝ → ℝ → ℝ} {wd : ℝ → ℝ} {g : ℝ}
    (hw : Wing.init find a = .ok w) (h : SmoothWing ptan D a L ht hb wd g) (h1 : w.t_B1 ∈ Set.Icc (0 : ℝ) 1) :
    w.args = a ∧ ∃ t2, WingOk ptan D w ⟨L, ht, hb, wd⟩ t2 g := by
  obtain ⟨ha, hT, i1, i2, i3⟩ := Wing.init_ok hw
  have hwf : widthFn w.LE_wf = a.LE_wf.getD leadingEdgeWidth := by
    unfold Wing.init at hw
    obtain ⟨t, -, hw⟩ := bind_ok.1 hw
    rw [← pure_ok.1 hw]
    simp only
    cases hl : a.LE_wf with
    | some f => simp [widthFn]
    | none =>
      have := h.given
      rw [hl] at this
      simp only [Option.isSome_none, Bool.false_eq_true, false_or] at this
      simp [this, widthFn]
  have ht2 : ∃ t2, w.t_B2 = some t2 ∧ t2 ∈ Set.Icc (0 : ℝ) 1 ∧ w.t_B1 ≤ t2 := by
    cases hb2 : a.t_B2 with
    | none =>
      refine ⟨_, i2 hb2, ⟨?_, ?_⟩, ?_⟩
      · linarith [h1.1]
      · linarith [h1.2]
      · linarith [h1.2]
    | some t =>
      have hs := i3 ⟨t, hb2⟩
      have := h.breaks
      rw [hb2] at this
      simp only [reduceCtorEq, false_or] at this
      obtain ⟨t1, e1⟩ := Option.isSome_iff_exists.1 this
      rw [e1] at hs
      exact ⟨t1, hs, (i1 t1 e1) ▸ h1, (i1 t1 e1).le⟩
  obtain ⟨t2, e2, m2, m3⟩ := ht2
  refine ⟨ha, t2, ⟨⟨by rw [ha]; exact h.ty, by rw [ha]; exact h.tail, h1, e2, m2, m3,
    by rw [ha]; exact h.line, by rw [ha]; exact h.L0, by rw [ha]; exact h.L1, by rw [ha]; exact h.top, by rw [ha]; exact h.bot,
    by rw [ha]; exact h.over⟩, ⟨h.like, ?_, h.wpos, h.fits, h.gap⟩, by rw [hT]; exact h.le, by rw [hwf]; exact h.width⟩⟩
  intro t ht'
  have := h.thick t ht'
  simp only [WingShape.half, halfH]
  linarith

/-- C106: every closed wing with an elliptical leading edge and skins at given heights generates, and at every resolution its mesh is
closed after moving vertices by no more than the numerical gap at the poles of the leading edge ellipses plus the bend of the skins
along the root.  In particular, if the root is straight only the numerical gap remains.
Missing: flat leading edges (see `C106_flat_violated`). -/
theorem C106_closed_wing_partial (find : (ℝ → Res ℝ) → Res ℝ) (ptan : ℝ → ℝ) (D : ℝ → ℝ → Prop) (a : Wing.Args) (w : Wing.State) (L : ℝ → V)
    (ht hb : ℝ → ℝ → ℝ) (wd : ℝ → ℝ) (g δ : ℝ) (hw : Wing.init find a = .ok w) (h : SmoothWing ptan D a L ht hb wd g)
    (h1 : w.t_B1 ∈ Set.Icc (0 : ℝ) 1) (hc : a.close_wing = true) (t01 : BendsBy δ ht a.A0 a.A1) (t1T : BendsBy δ ht a.A1 a.TT)
    (b01 : BendsBy δ hb a.A0 a.A1) (b1T : BendsBy δ hb a.A1 a.TT) (n : ℕ) (hn : 1 ≤ n) (name : Option String) (H : Heap) (id : ℕ)
    (hid : H id = Wing.comp ptan w n name) :
    ∃ h' M c', generatePatches H id = (.ok (), h') ∧ (h' id).mesh = (.ok M, c') ∧ ClosedUpTo (g + δ) M.tris := by
  obtain ⟨ha, t2, hok⟩ := smoothWing_ok hw h h1
  subst ha
  exact wing_closed hok n hn hc δ (fun t ht => ⟨t01 t ht, t1T t ht⟩) (fun t ht => ⟨b01 t ht, b1T t ht⟩) name H id hid

theorem edgeSum_mirror {A : Type} [AddCommGroup A] (φ : V → V → A) (hφ : Anti φ) (m : TriMesh ℝ) :
    edgeSum φ (edges (mirrorMesh m)) = -edgeSum (fun u v => φ (mirrorY u) (mirrorY v)) (edges m) := by
  induction m with
  | nil => simp [mirrorMesh, edges, edgeSum]
  | cons t m ih =>
    have e : ∀ (ψ : V → V → A) (t : Tri ℝ) (m : TriMesh ℝ), edgeSum ψ (edges (t :: m)) = ψ t.v0 t.v1 + ψ t.v1 t.v2 + ψ t.v2 t.v0 + edgeSum ψ (edges m) := by
      intro ψ t m
      simp only [edges, List.flatMap_cons, triEdges, edgeSum, List.cons_append, List.nil_append, List.map_cons, List.sum_cons]
      abel
    rw [show mirrorMesh (t :: m) = ⟨mirrorY t.v0, mirrorY t.v2, mirrorY t.v1⟩ :: mirrorMesh m from rfl, e, e, ih]
    simp only
    rw [hφ (mirrorY t.v2) (mirrorY t.v0), hφ (mirrorY t.v1) (mirrorY t.v2), hφ (mirrorY t.v0) (mirrorY t.v1)]
    abel

theorem pathSum_anti_plane {φ ψ : V → V → ℤ} {p : ℕ → V} {n : ℕ} {y0 : ℝ} (h : ∀ i ≤ n, (p i).y = y0)
    (hφ : ∀ u v : V, u.y = y0 → v.y = y0 → φ u v = ψ u v) : pathSum φ p n = pathSum ψ p n := by
  unfold pathSum
  apply Finset.sum_congr rfl
  intro i hi
  have := Finset.mem_range.1 hi
  exact hφ _ _ (h _ (by omega)) (h _ (by omega))

/-- A wing without closing patches whose root lies in the plane `y = y0`: what a sum over its edges says of the flow across it is decided
in that plane. -/
theorem wing_root (find : (ℝ → Res ℝ) → Res ℝ) (ptan : ℝ → ℝ) (D : ℝ → ℝ → Prop) (a : Wing.Args) (w : Wing.State) (L : ℝ → V)
    (ht hb : ℝ → ℝ → ℝ) (wd : ℝ → ℝ) (g y0 : ℝ) (hw : Wing.init find a = .ok w) (h : SmoothWing ptan D a L ht hb wd g)
    (h1 : w.t_B1 ∈ Set.Icc (0 : ℝ) 1) (hc : a.close_wing = false) (r0 : a.A0.y = y0) (r1 : a.A1.y = y0) (rT : a.TT.y = y0) (n : ℕ) (hn : 1 ≤ n)
    (name : Option String) (H : Heap) (id : ℕ) (hid : H id = Wing.comp ptan w n name) :
    ∃ h' M c' m', generatePatches H id = (.ok (), h') ∧ (h' id).mesh = (.ok M, c') ∧ VertsWithin g M.tris m' ∧
      ∀ φ ψ : V → V → ℤ, Anti φ → Anti ψ → (∀ u v : V, u.y = y0 → v.y = y0 → φ u v = ψ u v) →
        edgeSum φ (edges m') = edgeSum ψ (edges m') := by
  obtain ⟨ha, t2, hok⟩ := smoothWing_ok hw h h1
  subst ha
  obtain ⟨h', M, c', ps, g1, g2, g3, gp, sum⟩ := wing_panels hok n hn hc name H id hid
  obtain ⟨m', hwi, hsum⟩ := panels_snapped n hn g hok.shape.gap_nonneg ps gp
  have y1 : ∀ (f : ℝ → ℝ → ℝ) (u v : V), u.y = y0 → v.y = y0 → ∀ i ≤ n, (crv n (liftBy f ∘ lineAt u v) 0 1 i).y = y0 := by
    intro f u v hu hv i _
    simp only [crv, Function.comp, liftBy, lineAt, Vec.add_y, Vec.mul_y, hu, hv]; ring
  have y2 : ∀ (u v : V), u.y = y0 → v.y = y0 → ∀ i ≤ n, (seg n u v i).y = y0 := by
    intro u v hu hv i _
    simp only [seg, lineAt, Vec.add_y, Vec.mul_y, hu, hv]; ring
  have yl : ∀ (f : ℝ → ℝ → ℝ) (u : V), u.y = y0 → (liftBy f u).y = y0 := fun f u hu => hu
  have yt : (flapTip w ⟨L, ht, hb, wd⟩ w.args.A0).y = y0 := r0
  have hL1 : (L 1).y = y0 := by rw [h.L1]; exact rT
  have ha1 : angAt (WingShape.M ⟨L, ht, hb, wd⟩) 1 = 0 := by simp [angAt]
  have yr : ∀ top r, (WingShape.rim ptan ⟨L, ht, hb, wd⟩ top 1 r).y = y0 := by
    intro top r
    simp only [WingShape.rim, ha1, swing_zero]
    simp [WingShape.M, liftBy, hL1]
  have y3 : ∀ i ≤ n, (WingShape.rimTop ptan ⟨L, ht, hb, wd⟩ n 1 i).y = y0 := by
    intro i _
    simp only [WingShape.rimTop]
    split_ifs
    · exact hL1
    · exact yr _ _
  have y4 : ∀ i ≤ n, (WingShape.rimBot ptan ⟨L, ht, hb, wd⟩ n 1 i).y = y0 := by
    intro i _
    simp only [WingShape.rimBot]
    split_ifs
    · exact hL1
    · exact yr _ _
  refine ⟨h', M, c', m', g1, g2, by rw [g3]; exact hwi, ?_⟩
  intro φ ψ hφ hψ he
  rw [hsum φ hφ, hsum ψ hψ, sum φ hφ, sum ψ hψ]
  rw [pathSum_anti_plane (y1 ht _ _ r1 r0) he, pathSum_anti_plane (y1 ht _ _ rT r1) he, pathSum_anti_plane (y1 hb _ _ r0 r1) he,
    pathSum_anti_plane (y1 hb _ _ r1 rT) he, pathSum_anti_plane y3 he, pathSum_anti_plane y4 he, pathSum_anti_plane (y2 _ _ yt (yl ht _ r0)) he,
    pathSum_anti_plane (y2 _ _ (yl hb _ r0) yt) he]

theorem open_in_plane {m' : TriMesh ℝ} {y0 : ℝ} (key : ∀ φ ψ : V → V → ℤ, Anti φ → Anti ψ → (∀ u v : V, u.y = y0 → v.y = y0 → φ u v = ψ u v) →
    edgeSum φ (edges m') = edgeSum ψ (edges m')) (u v : V) (hne : edgeCount (edges m') u v ≠ edgeCount (edges m') v u) :
    u.y = y0 ∧ v.y = y0 := by
  classical
  by_contra hcon
  have h0 := key (detect u v) (fun _ _ => 0) (detect_anti u v) (fun _ _ => by simp) (by
    intro p q hp hq
    unfold detect
    rw [if_neg, if_neg]
    · rfl
    · rintro ⟨rfl, rfl⟩; exact hcon ⟨hq, hp⟩
    · rintro ⟨rfl, rfl⟩; exact hcon ⟨hp, hq⟩)
  rw [edgeSum_detect] at h0
  have h00 : edgeSum (fun _ _ : V => (0 : ℤ)) (edges m') = 0 := by simp [edgeSum]
  rw [h00] at h0
  omega

/-- C106, wings that are not closed: if the root `A0`, `A1`, `TT` lies in a plane `y = y0`, then after moving vertices by no more than
the numerical gap every edge without a partner lies in that plane. -/
theorem C106_root_partial (find : (ℝ → Res ℝ) → Res ℝ) (ptan : ℝ → ℝ) (D : ℝ → ℝ → Prop) (a : Wing.Args) (w : Wing.State) (L : ℝ → V)
    (ht hb : ℝ → ℝ → ℝ) (wd : ℝ → ℝ) (g y0 : ℝ) (hw : Wing.init find a = .ok w) (h : SmoothWing ptan D a L ht hb wd g)
    (h1 : w.t_B1 ∈ Set.Icc (0 : ℝ) 1) (hc : a.close_wing = false) (r0 : a.A0.y = y0) (r1 : a.A1.y = y0) (rT : a.TT.y = y0) (n : ℕ) (hn : 1 ≤ n)
    (name : Option String) (H : Heap) (id : ℕ) (hid : H id = Wing.comp ptan w n name) :
    ∃ h' M c' m', generatePatches H id = (.ok (), h') ∧ (h' id).mesh = (.ok M, c') ∧ VertsWithin g M.tris m' ∧
      ∀ u v, edgeCount (edges m') u v ≠ edgeCount (edges m') v u → u.y = y0 ∧ v.y = y0 := by
  classical
  obtain ⟨h', M, c', m', g1, g2, g3, key⟩ := wing_root find ptan D a w L ht hb wd g y0 hw h h1 hc r0 r1 rT n hn name H id hid
  exact ⟨h', M, c', m', g1, g2, g3, open_in_plane key⟩

/-- C106, wings that are not closed: if the root `A0`, `A1`, `TT` lies in the plane `y = 0`, then after moving vertices by no more than
the numerical gap every edge without a partner lies in that plane, and the wing together with its mirror image is closed. -/
theorem C106_open_wing_partial (find : (ℝ → Res ℝ) → Res ℝ) (ptan : ℝ → ℝ) (D : ℝ → ℝ → Prop) (a : Wing.Args) (w : Wing.State) (L : ℝ → V)
    (ht hb : ℝ → ℝ → ℝ) (wd : ℝ → ℝ) (g : ℝ) (hw : Wing.init find a = .ok w) (h : SmoothWing ptan D a L ht hb wd g)
    (h1 : w.t_B1 ∈ Set.Icc (0 : ℝ) 1) (hc : a.close_wing = false) (r0 : a.A0.y = 0) (r1 : a.A1.y = 0) (rT : a.TT.y = 0) (n : ℕ) (hn : 1 ≤ n)
    (name : Option String) (H : Heap) (id : ℕ) (hid : H id = Wing.comp ptan w n name) :
    ∃ h' M c' m', generatePatches H id = (.ok (), h') ∧ (h' id).mesh = (.ok M, c') ∧ VertsWithin g M.tris m' ∧
      (∀ u v, edgeCount (edges m') u v ≠ edgeCount (edges m') v u → u.y = 0 ∧ v.y = 0) ∧ Closed (m' ++ mirrorMesh m') := by
  obtain ⟨h', M, c', m', g1, g2, g3, key⟩ := wing_root find ptan D a w L ht hb wd g 0 hw h h1 hc r0 r1 rT n hn name H id hid
  refine ⟨h', M, c', m', g1, g2, g3, open_in_plane key, ?_⟩
  · rw [closed_iff_edgeSum]
    intro φ hφ
    rw [show edges (m' ++ mirrorMesh m') = edges m' ++ edges (mirrorMesh m') from List.flatMap_append, edgeSum_append, edgeSum_mirror φ hφ,
      key φ (fun u v => φ (mirrorY u) (mirrorY v)) hφ (fun u v => hφ _ _) (by
        intro u v hu hv
        have e : ∀ p : V, p.y = 0 → mirrorY p = p := fun p hp => by ext <;> simp [mirrorY, hp]
        rw [e u hu, e v hv])]
    ring

/-- C106 is violated: a closed wing with a flat leading edge and no leading edge width never generates. -/
theorem C106_flat_violated (find : (ℝ → Res ℝ) → Res ℝ) (ptan : ℝ → ℝ) (a : Wing.Args) (w : Wing.State) (hw : Wing.init find a = .ok w)
    (hF : a.LE_type ≠ "custom") (hn : a.LE_wf = none) (hc : a.close_wing = true) (res : ℕ) (name : Option String) (h : Heap) (id : ℕ)
    (hid : h id = Wing.comp ptan w res name) : (generatePatches h id).1 ≠ .ok () := by
  intro hok
  obtain ⟨ha, -⟩ := Wing.init_ok hw
  have hwf : w.LE_wf = none := by
    unfold Wing.init at hw
    obtain ⟨t, -, hw⟩ := bind_ok.1 hw
    rw [← pure_ok.1 hw]
    simp [hF, hn]
  obtain ⟨ls, h1, -⟩ := (Wing.generated hid).1 hok
  unfold Wing.stages at h1
  simp only [ha, hc, if_true, List.cons_append, List.nil_append] at h1
  obtain ⟨l1, u1, -, g1, rfl⟩ := List.forall₂_cons_left_iff.1 h1
  obtain ⟨l2, u2, -, g2, rfl⟩ := List.forall₂_cons_left_iff.1 g1
  obtain ⟨l3, u3, -, g3, rfl⟩ := List.forall₂_cons_left_iff.1 g2
  obtain ⟨l4, u4, -, g4, rfl⟩ := List.forall₂_cons_left_iff.1 g3
  obtain ⟨l5, u5, h5, -, rfl⟩ := List.forall₂_cons_left_iff.1 g4
  obtain ⟨sk, -, h5⟩ := bind_ok.1 h5
  obtain ⟨a0, -, h5⟩ := bind_ok.1 h5
  obtain ⟨b0, -, h5⟩ := bind_ok.1 h5
  unfold Wing.closeWing at h5
  simp only [hwf, widthFn, Option.getD_none] at h5
  iterate 11 (obtain ⟨_, -, h5⟩ := bind_ok.1 h5)
  obtain ⟨_, hbad, -⟩ := bind_ok.1 h5
  simp at hbad

theorem ieee_poleGap' (b w : ℝ) (hb : 0 ≤ b) (hb1 : b ≤ 1) (hw : 1 / 100 ≤ w) : poleGap ieeeTan b w ≤ 1e-12 := by
  refine le_trans ?_ (ieee_poleGap b hb hb1)
  unfold poleGap
  have e : ieeeTan (Real.pi / 2) = 10 ^ 16 := by norm_num [ieeeTan]
  rw [e]
  have := pow_nonneg hb 3
  gcongr

/-- The delta wing, closed or not. -/
theorem delta_smooth (c : Bool) : SmoothWing ieeeTan (fun _ _ => True) { deltaWing "custom" (some 0.5) none with close_wing := c } (lineAt ⟨0, 1, 0⟩ ⟨2, 0, 0⟩)
    (fun _ _ => -0.05) (fun _ _ => 0.05) (fun t => 0.01 + 0.18 * t * (1 - t)) 1e-12 where
  like := ieeeTan_like
  ty := lower_bezier
  le := by simp only [deltaWing]; rw [String.toUpper, ne_eq, ← String.toList_inj, String.toList_map]; decide
  tail := rfl
  breaks := .inl rfl
  line := fun _ => rfl
  L0 := by simp [lineAt, deltaWing]; ext <;> simp
  L1 := by simp [lineAt, deltaWing]; ext <;> simp
  top := by intro x y z _; simp [deltaWing, uniformThickness]; norm_num
  bot := by intro x y z _; simp [deltaWing, uniformThickness]; norm_num
  over := liesOver_univ _ _ _
  given := .inr rfl
  width := fun t _ => by simp [deltaWing, leadingEdgeWidth_eq]
  thick := fun t _ => by norm_num
  wpos := fun t ht => by nlinarith [mul_nonneg ht.1 (sub_nonneg.2 ht.2)]
  fits := fun t ht => ieeeTan_fits _ _ (by norm_num [abs_of_pos]) (by nlinarith [mul_nonneg ht.1 (sub_nonneg.2 ht.2)])
  gap := fun t ht => ieee_poleGap' _ _ (by norm_num) (by norm_num) (by nlinarith [mul_nonneg ht.1 (sub_nonneg.2 ht.2)])

theorem bends_uniform (h : ℝ) (u v : V) : BendsBy 0 (fun _ _ => h) u v := by
  intro t _
  rw [show liftBy (fun _ _ => h) (lineAt u v t) = lineAt (liftBy (fun _ _ => h) u) (liftBy (fun _ _ => h) v) t by
    ext <;> simp [liftBy, lineAt]; ring, vdist_self]

/-- The delta wing with `close_wing` is closed up to `10⁻¹²` at every resolution. -/
example (find : (ℝ → Res ℝ) → Res ℝ) (n : ℕ) (hn : 1 ≤ n) : ∃ w h' M c',
    Wing.init find { deltaWing "custom" (some 0.5) none with close_wing := true } = .ok w ∧
      generatePatches (fun _ => Wing.comp ieeeTan w n none) 0 = (.ok (), h') ∧ (h' 0).mesh = (.ok M, c') ∧ ClosedUpTo 1e-12 M.tris := by
  obtain ⟨w, hw⟩ : ∃ w, Wing.init find { deltaWing "custom" (some 0.5) none with close_wing := true } = .ok w := ⟨_, rfl⟩
  have h1 := (Wing.init_ok hw).2.2.1 0.5 rfl
  obtain ⟨h', M, c', g1, g2, g3⟩ := C106_closed_wing_partial find ieeeTan _ _ w _ _ _ _ _ 0 hw (delta_smooth true) (by rw [h1]; norm_num) rfl
    (bends_uniform _ _ _) (bends_uniform _ _ _) (bends_uniform _ _ _) (bends_uniform _ _ _) n hn none (fun _ => Wing.comp ieeeTan w n none) 0 rfl
  exact ⟨w, h', M, c', hw, g1, g2, closedUpTo_mono (by norm_num) g3⟩

/-- The hypotheses of `C106_open_wing_partial` are met by the delta wing. -/
example (find : (ℝ → Res ℝ) → Res ℝ) : ∃ w, Wing.init find { deltaWing "custom" (some 0.5) none with close_wing := false } = .ok w ∧
    w.t_B1 ∈ Set.Icc (0 : ℝ) 1 ∧ (deltaWing "custom" (some 0.5) none).TT.y = 0 := by
  obtain ⟨w, hw⟩ : ∃ w, Wing.init find { deltaWing "custom" (some 0.5) none with close_wing := false } = .ok w := ⟨_, rfl⟩
  exact ⟨w, hw, by rw [(Wing.init_ok hw).2.2.1 0.5 rfl]; norm_num, rfl⟩

/-- The flat delta wing, which generates without `close_wing` (`deltaWing_generates`), fails with it. -/
example (find : (ℝ → Res ℝ) → Res ℝ) (ptan : ℝ → ℝ) (n : ℕ) : ∃ w,
    Wing.init find { deltaWing "flat" (some 0.5) none with close_wing := true } = .ok w ∧
      (generatePatches (fun _ => Wing.comp ptan w n none) 0).1 ≠ .ok () := by
  obtain ⟨w, hw⟩ : ∃ w, Wing.init find { deltaWing "flat" (some 0.5) none with close_wing := true } = .ok w := ⟨_, rfl⟩
  exact ⟨w, hw, C106_flat_violated find ptan _ w hw (by simp [deltaWing]) rfl rfl n none _ 0 rfl⟩

end HV
