import Verif.Lemmas.Assembly

/-!
# Wings whose leading edge is only known where it is sampled

The same as `Lemmas/WingParts.lean` and the first half of `Props/WingClosed.lean`, but the thickness and the width of the leading edge are asked for only
at the parameters at which the mesh evaluates it.
-/

namespace HV
open Spec Veh

namespace WingShape
variable (ptan : ℝ → ℝ) (s : WingShape) (n : ℕ)

/-- What is needed of the numerical tangent, thickness and widths at the parameters `S` of the leading edge. -/
structure OkOn (ptan : ℝ → ℝ) (S : Set ℝ) (s : WingShape) (g : ℝ) : Prop where
  zero : 0 ∈ S
  one : 1 ∈ S
  like : TanLike ptan
  thick : ∀ t ∈ S, 0 < s.half t
  wpos : ∀ t ∈ S, 0 < s.wd t
  fits : ∀ t ∈ S, PoleFits ptan (s.half t) (s.wd t)
  gap : ∀ t ∈ S, poleGap ptan (s.half t) (s.wd t) ≤ g

variable {ptan s n} {S : Set ℝ} {g : ℝ} (h : s.OkOn ptan S g)
include h

theorem OkOn.rimOk {t : ℝ} (ht : t ∈ S) : RimOk ptan (s.half t) (s.wd t) (fun _ => .ok (s.wd t)) :=
  ⟨h.like, h.thick t ht, h.wpos t ht, h.fits t ht, fun _ _ => ⟨_, le_rfl, rfl⟩⟩

theorem OkOn.gap_nonneg : 0 ≤ g :=
  (h.rimOk h.zero).gap_nonneg.trans (h.gap 0 h.zero)

theorem OkOn.rim_nose {t : ℝ} (ht : t ∈ S) : s.rim ptan true t 1 = s.nose t ∧ s.rim ptan false t 0 = s.nose t := by
  have z0 : (0 : ℝ) ∈ Set.Icc (0 : ℝ) 1 := ⟨le_rfl, zero_le_one⟩
  have n1 := (h.rimOk ht).nose true z0
  have n2 := (h.rimOk ht).nose false z0
  simp only [if_true, Bool.false_eq_true, if_false, show widthAt (fun _ => .ok (s.wd t)) 0 = s.wd t from rfl] at n1 n2
  constructor
  · rw [rim, n1]; rfl
  · rw [rim, n2]; rfl

theorem OkOn.rim_pole {t : ℝ} (ht : t ∈ S) : vdist (s.rim ptan true t 0) (s.T t) ≤ g ∧ vdist (s.rim ptan false t 1) (s.B t) ≤ g := by
  have z0 : (0 : ℝ) ∈ Set.Icc (0 : ℝ) 1 := ⟨le_rfl, zero_le_one⟩
  have hp := (h.rimOk ht).pole (angAt s.M t) z0
  simp only [show widthAt (fun _ => .ok (s.wd t)) 0 = s.wd t from rfl] at hp
  have hg := h.gap t ht
  constructor
  · rw [rim, T, liftBy_top s.ht s.hb]
    exact (vdist_add_left _ _ _).trans_le (hp.2.trans hg)
  · rw [rim, B, liftBy_bot s.ht s.hb]
    exact (vdist_add_left _ _ _).trans_le (hp.1.trans hg)

theorem OkOn.leTop_good (hn : 1 ≤ n) {t0 t1 : ℝ} (hm : ∀ i ≤ n, t1 - (i : ℝ) / n * (t1 - t0) ∈ S) :
    (s.leTop ptan n t0 t1).Good n g := by
  have hn0 : (n : ℝ) ≠ 0 := by positivity
  have hnn : n ≠ 0 := by omega
  have hg := h.gap_nonneg
  have z : ∀ {u v : V}, u = v → vdist u v ≤ g := fun h => by rw [h, vdist_self]; exact hg
  have m1 : t1 ∈ S := by simpa using hm 0 (by omega)
  have m0 : t0 ∈ S := by simpa [div_self hn0] using hm n le_rfl
  have e : ∀ i : ℕ, t1 + (i : ℝ) / n * (t0 - t1) = t1 - (i : ℝ) / n * (t1 - t0) := fun i => by ring
  have e1 : t1 - 1 * (t1 - t0) = t0 := by ring
  constructor
  · simp [WingShape.leTop, crv_zero, WingShape.rimTop]
  · simp [WingShape.leTop, crv_last n hn, WingShape.rimTop]
  · simp only [WingShape.leTop, crv_zero, WingShape.rimTop, hnn, if_false, div_self hn0, (h.rim_nose m1).1]
  · simp only [WingShape.leTop, crv_last n hn, WingShape.rimTop, hnn, if_false, div_self hn0, (h.rim_nose m0).1]
  · intro i hi
    simp only [WingShape.leTop, crv, e, Nat.cast_zero, zero_div]
    exact (h.rim_pole (hm i hi)).1
  · intro i hi
    apply z
    simp only [WingShape.leTop, crv, e, div_self hn0, (h.rim_nose (hm i hi)).1]
  · intro j hj
    simp only [WingShape.leTop, WingShape.rimTop, Nat.cast_zero, zero_div, zero_mul, sub_zero]
    split_ifs with h0
    · subst h0; simp only [Nat.cast_zero, zero_div]; exact (h.rim_pole m1).1
    · exact z rfl
  · intro j hj
    simp only [WingShape.leTop, WingShape.rimTop, div_self hn0, e1]
    split_ifs with h0
    · subst h0; simp only [Nat.cast_zero, zero_div]; exact (h.rim_pole m0).1
    · exact z rfl

theorem OkOn.leBot_good (hn : 1 ≤ n) {t0 t1 : ℝ} (hm : ∀ i ≤ n, t1 - (i : ℝ) / n * (t1 - t0) ∈ S) :
    (s.leBot ptan n t0 t1).Good n g := by
  have hn0 : (n : ℝ) ≠ 0 := by positivity
  have hnn : (0 : ℕ) ≠ n := by omega
  have hg := h.gap_nonneg
  have z : ∀ {u v : V}, u = v → vdist u v ≤ g := fun h => by rw [h, vdist_self]; exact hg
  have m1 : t1 ∈ S := by simpa using hm 0 (by omega)
  have m0 : t0 ∈ S := by simpa [div_self hn0] using hm n le_rfl
  have e : ∀ i : ℕ, t1 + (i : ℝ) / n * (t0 - t1) = t1 - (i : ℝ) / n * (t1 - t0) := fun i => by ring
  have e1 : t1 - 1 * (t1 - t0) = t0 := by ring
  constructor
  · simp only [WingShape.leBot, crv_zero, WingShape.rimBot, hnn, if_false, Nat.cast_zero, zero_div, (h.rim_nose m1).2]
  · simp only [WingShape.leBot, crv_last n hn, WingShape.rimBot, hnn, if_false, Nat.cast_zero, zero_div, (h.rim_nose m0).2]
  · simp [WingShape.leBot, crv_zero, WingShape.rimBot]
  · simp [WingShape.leBot, crv_last n hn, WingShape.rimBot]
  · intro i hi
    apply z
    simp only [WingShape.leBot, crv, e, Nat.cast_zero, zero_div, (h.rim_nose (hm i hi)).2]
  · intro i hi
    simp only [WingShape.leBot, crv, e, div_self hn0]
    exact (h.rim_pole (hm i hi)).2
  · intro j hj
    simp only [WingShape.leBot, WingShape.rimBot, Nat.cast_zero, zero_div, zero_mul, sub_zero]
    split_ifs with h0
    · subst h0; simp only [div_self hn0]; exact (h.rim_pole m1).2
    · exact z rfl
  · intro j hj
    simp only [WingShape.leBot, WingShape.rimBot, div_self hn0, e1]
    split_ifs with h0
    · subst h0; simp only [div_self hn0]; exact (h.rim_pole m0).2
    · exact z rfl

end WingShape

/-- A wing with an elliptical leading edge that is regular at the parameters `S`. -/
structure WingOn (ptan : ℝ → ℝ) (D : ℝ → ℝ → Prop) (S : Set ℝ) (w : Wing.State) (s : WingShape) (t2 g : ℝ) : Prop extends WingBase D w s t2 where
  shape : s.OkOn ptan S g
  sub : S ⊆ Set.Icc 0 1
  le : w.LE_TYPE ≠ "FLAT"
  width : ∀ t ∈ Set.Icc (0 : ℝ) 1, widthFn w.LE_wf t = .ok (s.wd t)

/-- The parameters at which a mesh of resolution `n` evaluates the leading edge. -/
structure Spec.SampledIn (S : Set ℝ) (n : ℕ) (t1 t2 : ℝ) : Prop where
  root : ∀ i ≤ n, t1 - (i : ℝ) / n * (t1 - 0) ∈ S
  middle : ∀ i ≤ n, t2 - (i : ℝ) / n * (t2 - t1) ∈ S
  front : ∀ i ≤ n, 1 - (i : ℝ) / n * (1 - t2) ∈ S

section
variable {ptan : ℝ → ℝ} {D : ℝ → ℝ → Prop} {S : Set ℝ} {w : Wing.State} {s : WingShape} {t2 g : ℝ} (h : WingOn ptan D S w s t2 g) (n : ℕ) (hn : 1 ≤ n)
  (hg : SampledIn S n w.t_B1 t2)
include h hn

include hg in
/-- The leading edge. -/
theorem wing_leading_on : ∃ l, Wing.leadingEdge ptan w = .ok l ∧
    Grids n l [s.leTop ptan n 0 w.t_B1, s.leTop ptan n w.t_B1 t2, s.leTop ptan n t2 1,
      s.leBot ptan n 0 w.t_B1, s.leBot ptan n w.t_B1 t2, s.leBot ptan n t2 1] := by
  have top : ∀ a b : ℝ, (∀ i ≤ n, b - (i : ℝ) / n * (b - a) ∈ S) → ∀ i ≤ n, ∀ j ≤ n,
      MeanLeadingEdgePatchFunction ptan (GeometricMeanPathFunction (Wing.topEdge w) (Wing.botEdge w)) (Wing.topEdge w) (widthFn w.LE_wf) a b "top"
        ((i : ℝ) / n) ((j : ℝ) / n) = .ok ((s.leTop ptan n a b).P i j) := by
    intro a b hm i hi j _
    have hb := h.shape.thick _ (hm i hi)
    refine le_value_at ptan _ s.M _ _ true (fun t ht => (wing_edges h.toWingBase t ht).2.2) a b _ _ _ rfl (h.sub (hm i hi)) _ _ _ hb
      (wing_edges h.toWingBase _ (h.sub (hm i hi))).1 ?_
      (h.width _ (h.sub (hm i hi)))
    rw [show (s.M (b - (i : ℝ) / n * (b - a))).z - (s.T (b - (i : ℝ) / n * (b - a))).z = s.half (b - (i : ℝ) / n * (b - a)) by
      simp only [WingShape.M, WingShape.T, WingShape.half, liftBy, midH, halfH]; ring]
    exact abs_of_pos hb
  have bot : ∀ a b : ℝ, (∀ i ≤ n, b - (i : ℝ) / n * (b - a) ∈ S) → ∀ i ≤ n, ∀ j ≤ n,
      MeanLeadingEdgePatchFunction ptan (GeometricMeanPathFunction (Wing.topEdge w) (Wing.botEdge w)) (Wing.botEdge w) (widthFn w.LE_wf) a b "bot"
        ((i : ℝ) / n) ((j : ℝ) / n) = .ok ((s.leBot ptan n a b).P i j) := by
    intro a b hm i hi j _
    have hb := h.shape.thick _ (hm i hi)
    refine le_value_at ptan _ s.M _ _ false (fun t ht => (wing_edges h.toWingBase t ht).2.2) a b _ _ _ rfl (h.sub (hm i hi)) _ _ _ hb
      (wing_edges h.toWingBase _ (h.sub (hm i hi))).2.1 ?_
      (h.width _ (h.sub (hm i hi)))
    rw [show (s.M (b - (i : ℝ) / n * (b - a))).z - (s.B (b - (i : ℝ) / n * (b - a))).z = -s.half (b - (i : ℝ) / n * (b - a)) by
      simp only [WingShape.M, WingShape.B, WingShape.half, liftBy, midH, halfH]; ring, abs_neg]
    exact abs_of_pos hb
  refine ⟨_, by unfold Wing.leadingEdge; simp only [h.t2eq, Wing.num, ok_bind, h.le, if_false, pure_eq]; rfl, ?_⟩
  exact .cons (top _ _ hg.root) (.cons (top _ _ hg.middle) (.cons (top _ _ hg.front)
    (.cons (bot _ _ hg.root) (.cons (bot _ _ hg.middle) (.cons (bot _ _ hg.front) .nil)))))

/-- The patch at the tip of the flap. -/
theorem wing_tele_on : ∃ l P, Wing.tele ptan w = .ok l ∧
    Grids n l [⟨P, seg n (liftBy s.ht w.args.B0) (flapTip w s w.args.B0), s.rimBot ptan n 0, s.rimTop ptan n 0,
      seg n (flapTip w s w.args.B0) (liftBy s.hb w.args.B0)⟩] ∧
    (⟨P, seg n (liftBy s.ht w.args.B0) (flapTip w s w.args.B0), s.rimBot ptan n 0, s.rimTop ptan n 0,
      seg n (flapTip w s w.args.B0) (liftBy s.hb w.args.B0)⟩ : Panel).Good n g := by
  have z0 : (0 : ℝ) ∈ Set.Icc (0 : ℝ) 1 := ⟨le_rfl, zero_le_one⟩
  have hn0 : (n : ℝ) ≠ 0 := by positivity
  have hnn : n ≠ 0 := by omega
  have hg := h.shape.gap_nonneg
  have hgap := h.shape.gap 0 h.shape.zero
  have hb := h.shape.thick 0 h.shape.zero
  have hT : liftBy s.ht w.args.B0 = s.M 0 + upBy (-s.half 0) := by rw [← h.L0, liftBy_top s.ht s.hb]; rfl
  have hB : liftBy s.hb w.args.B0 = s.M 0 + upBy (s.half 0) := by rw [← h.L0, liftBy_bot s.ht s.hb]; rfl
  have hM : liftBy (midH s.ht s.hb) w.args.B0 = s.M 0 := by rw [← h.L0]; rfl
  have d1 : (s.M 0).z - (liftBy s.ht w.args.B0).z = s.half 0 := by rw [hT]; simp [upBy]
  have d2 : (s.M 0).z - (liftBy s.hb w.args.B0).z = -s.half 0 := by rw [hB]; simp [upBy]
  obtain ⟨et, eb, e1, e2, v1, v2, n1, n2, c1, c2, c3, c4, g1, g2⟩ := ellipse_tips ptan h.shape.like (s.M 0) (s.half 0) (-s.half 0) (s.half 0) (s.wd 0)
    hb (abs_of_pos hb) (by rw [abs_neg, abs_of_pos hb]) (h.shape.wpos 0 h.shape.zero) (h.shape.fits 0 h.shape.zero)
  have p1 := (g1 (Real.pi / 2)).trans hgap
  have p2 := (g2 (Real.pi / 2)).trans hgap
  rw [swing_right _ rfl] at p1 p2
  have k : s.M 0 + ellArc ptan (s.half 0) (s.wd 0) true 1 = s.M 0 + ellArc ptan (s.half 0) (s.wd 0) false 0 := by rw [n1, n2]
  have z : ∀ {u v : V}, u = v → vdist u v ≤ g := fun h => by rw [h, vdist_self]; exact hg
  have ha0 : angAt s.M 0 = Real.pi / 2 := by simp [angAt]
  have hrim : ∀ top r, s.rim ptan top 0 r = s.M 0 + ellArc ptan (s.half 0) (s.wd 0) top r := by
    intro top r
    rw [WingShape.rim, ha0, swing_right _ rfl]
  have hT0 : s.T 0 = liftBy s.ht w.args.B0 := by rw [← h.L0]; rfl
  have hB0 : s.B 0 = liftBy s.hb w.args.B0 := by rw [← h.L0]; rfl
  obtain ⟨F, G, hF, vF, hG⟩ := coons_panel n hn eb (Line (flapTip w s w.args.B0) (liftBy s.hb w.args.B0))
    (Line (liftBy s.ht w.args.B0) (flapTip w s w.args.B0)) et _ _ _ _ v2 (fun _ => rfl) (fun _ => rfl) v1
    (by rw [lineAt_zero, hT]; exact c2) (by rw [lineAt_zero, lineAt_one]; exact cornerClose_refl _)
    (by rw [k]; exact cornerClose_refl _) (by rw [lineAt_one, hB]; exact c3) g
    (by rw [lineAt_zero, hT, vdist_comm, vdist_add_left]; exact p1) (z (by rw [lineAt_zero, lineAt_one])) (z k.symm)
    (by rw [lineAt_one, hB, vdist_add_left]; exact p2)
    (seg n (liftBy s.ht w.args.B0) (flapTip w s w.args.B0)) (s.rimBot ptan n 0) (s.rimTop ptan n 0)
    (seg n (flapTip w s w.args.B0) (liftBy s.hb w.args.B0))
    (by simp [WingShape.rimTop, seg_zero, hT0]) (by rw [seg_zero, seg_last n hn])
    (by simp only [WingShape.rimBot, WingShape.rimTop, hnn, hnn.symm, if_false, hrim, Nat.cast_zero, zero_div, div_self hn0, k])
    (by simp [WingShape.rimBot, seg_last n hn, hB0])
    (by
      intro j hj
      by_cases h0 : j = 0
      · subst h0
        simp only [WingShape.rimTop, if_true, Nat.cast_zero, zero_div, hT0, hT, vdist_add_left]
        exact p1
      · apply z
        simp only [WingShape.rimTop, h0, if_false, hrim])
    (fun j _ => z rfl)
    (by intro i _ _; rfl)
    (by
      intro i hi hlt
      simp only [WingShape.rimBot, hlt.ne, if_false, hrim])
  have q := wing_te h.toWingBase 1 ⟨zero_le_one, le_rfl⟩
  simp only [lineAt_one] at q
  have tip : (⟨(s.M 0).x - w.args.flap_length * Real.cos w.args.flap_angle, (s.M 0).y,
      (s.M 0).z + w.args.flap_length * Real.sin w.args.flap_angle⟩ : V) = flapTip w s w.args.B0 := by rw [← hM]; rfl
  have q1 : (⟨(s.M 0).x, (s.M 0).y, (liftBy s.ht w.args.B0).z⟩ : V) = liftBy s.ht w.args.B0 := by rw [← hM]; rfl
  have q2 : (⟨(s.M 0).x, (s.M 0).y, (liftBy s.hb w.args.B0).z⟩ : V) = liftBy s.hb w.args.B0 := by rw [← hM]; rfl
  refine ⟨[("TELE_patch", F)], fun i j => G ((i : ℝ) / n) ((j : ℝ) / n), ?_, .cons (fun i _ j _ => vF _ _) .nil, hG⟩
  unfold Wing.tele Wing.tipEdges
  simp only [q, hM, ok_bind, h.le, if_false, d1, d2, neg_eq_zero, hb.ne', or_self, h.width 0 z0, pure_eq, e1, e2, q1, q2, tip, hF]

include hg in
/-- The mesh of a wing, as the mesh of panels with their boundary. -/
theorem wing_panels_on (hc : w.args.close_wing = false) (name : Option String) (H : Heap) (id : ℕ) (hid : H id = Wing.comp ptan w n name) :
    ∃ h' M c', ∃ ps : List Panel, generatePatches H id = (.ok (), h') ∧ (h' id).mesh = (.ok M, c') ∧
      M.tris = (ps.map fun p => gridMesh MeshArith.real false n n p.P).flatten ∧ (∀ p ∈ ps, p.Good n g) ∧
      ∀ φ : V → V → ℤ, Anti φ → (ps.map (Panel.turn φ n)).sum =
        pathSum φ (crv n (liftBy s.ht ∘ lineAt w.args.A1 w.args.A0) 0 1) n + pathSum φ (crv n (liftBy s.ht ∘ lineAt w.args.TT w.args.A1) 0 1) n
        + pathSum φ (crv n (liftBy s.hb ∘ lineAt w.args.A0 w.args.A1) 0 1) n + pathSum φ (crv n (liftBy s.hb ∘ lineAt w.args.A1 w.args.TT) 0 1) n
        - pathSum φ (s.rimTop ptan n 1) n - pathSum φ (s.rimBot ptan n 1) n
        - pathSum φ (seg n (flapTip w s w.args.A0) (liftBy s.ht w.args.A0)) n - pathSum φ (seg n (liftBy s.hb w.args.A0) (flapTip w s w.args.A0)) n := by
  obtain ⟨F0, F1, F2, F3, P0, P1, P2, P3, hs, -, -, fs, gs⟩ := wing_skins h.toWingBase n hn g h.shape.gap_nonneg
  obtain ⟨le, hle, fle⟩ := wing_leading_on h n hn hg
  obtain ⟨fl, Q0, Q1, hfl, ffl, gf0, gf1⟩ := wing_flap h.toWingBase n hn g h.shape.gap_nonneg
  obtain ⟨te, R, hte, fte, gte⟩ := wing_tele_on h n hn
  obtain ⟨h', M, c', g1, g2, g3⟩ := wing_staged n hn name H id hid
    [[("top_patch_0", F0), ("top_patch_1", F1), ("bot_patch_0", F2), ("bot_patch_1", F3)], le, fl, te] (by
      unfold Wing.stages
      simp only [hc, Bool.false_eq_true, if_false, List.append_nil]
      exact .cons hs (.cons hle (.cons hfl (.cons hte .nil)))) _ (by
      rw [List.flatten_cons, List.flatten_cons, List.flatten_cons, List.flatten_cons, List.flatten_nil, List.append_nil]
      exact List.rel_append fs (List.rel_append fle (List.rel_append ffl fte)))
  refine ⟨h', M, c', _, g1, g2, g3, ?_, ?_⟩
  · intro p hp
    rw [List.mem_append, List.mem_append, List.mem_append] at hp
    rcases hp with hp | hp | hp | hp
    · exact gs p hp
    · simp only [List.mem_cons, List.not_mem_nil, or_false] at hp
      rcases hp with rfl | rfl | rfl | rfl | rfl | rfl
      · exact h.shape.leTop_good hn hg.root
      · exact h.shape.leTop_good hn hg.middle
      · exact h.shape.leTop_good hn hg.front
      · exact h.shape.leBot_good hn hg.root
      · exact h.shape.leBot_good hn hg.middle
      · exact h.shape.leBot_good hn hg.front
    · simp only [List.mem_cons, List.not_mem_nil, or_false] at hp
      rcases hp with rfl | rfl
      · exact gf0
      · exact gf1
    · simp only [List.mem_cons, List.not_mem_nil, or_false] at hp
      subst hp
      exact gte
  · intro φ hφ
    have r := pathSum_seg φ hφ n hn
    have q := pathSum_crv φ hφ n hn
    simp only [List.cons_append, List.nil_append, List.map_cons, List.map_nil, List.sum_cons, List.sum_nil, Panel.turn, WingShape.leTop,
      WingShape.leBot]
    linear_combination r (liftBy s.ht w.args.B0) (flapTip w s w.args.B0) + r (liftBy s.hb w.args.B0) (flapTip w s w.args.B0)
      - q s.B 0 w.t_B1 - q s.B w.t_B1 t2

include hg in
/-- A wing without closing patches whose root lies in the plane `y = y0`. -/
theorem wing_root_on (hc : w.args.close_wing = false) (y0 : ℝ) (r0 : w.args.A0.y = y0) (r1 : w.args.A1.y = y0) (rT : w.args.TT.y = y0)
    (name : Option String) (H : Heap) (id : ℕ) (hid : H id = Wing.comp ptan w n name) :
    ∃ h' M c' m', generatePatches H id = (.ok (), h') ∧ (h' id).mesh = (.ok M, c') ∧ VertsWithin g M.tris m' ∧
      ∀ φ ψ : V → V → ℤ, Anti φ → Anti ψ → (∀ u v : V, u.y = y0 → v.y = y0 → φ u v = ψ u v) →
        edgeSum φ (edges m') = edgeSum ψ (edges m') := by
  obtain ⟨h', M, c', ps, g1, g2, g3, gp, sum⟩ := wing_panels_on h n hn hg hc name H id hid
  obtain ⟨m', hwi, hsum⟩ := panels_snapped n hn g h.shape.gap_nonneg ps gp
  have y1 : ∀ (f : ℝ → ℝ → ℝ) (u v : V), u.y = y0 → v.y = y0 → ∀ i ≤ n, (crv n (liftBy f ∘ lineAt u v) 0 1 i).y = y0 := by
    intro f u v hu hv i _
    simp only [crv, Function.comp, liftBy, lineAt, Vec.add_y, Vec.mul_y, hu, hv]; ring
  have y2 : ∀ (u v : V), u.y = y0 → v.y = y0 → ∀ i ≤ n, (seg n u v i).y = y0 := by
    intro u v hu hv i _
    simp only [seg, lineAt, Vec.add_y, Vec.mul_y, hu, hv]; ring
  have yl : ∀ (f : ℝ → ℝ → ℝ) (u : V), u.y = y0 → (liftBy f u).y = y0 := fun f u hu => hu
  have yt : (flapTip w s w.args.A0).y = y0 := r0
  have hL1 : (s.L 1).y = y0 := by rw [h.L1]; exact rT
  have ha1 : angAt (WingShape.M s) 1 = 0 := by simp [angAt]
  have yr : ∀ top r, (WingShape.rim ptan s top 1 r).y = y0 := by
    intro top r
    simp only [WingShape.rim, ha1, swing_zero]
    simp [WingShape.M, liftBy, hL1]
  have y3 : ∀ i ≤ n, (WingShape.rimTop ptan s n 1 i).y = y0 := by
    intro i _
    simp only [WingShape.rimTop]
    split_ifs
    · exact hL1
    · exact yr _ _
  have y4 : ∀ i ≤ n, (WingShape.rimBot ptan s n 1 i).y = y0 := by
    intro i _
    simp only [WingShape.rimBot]
    split_ifs
    · exact hL1
    · exact yr _ _
  refine ⟨h', M, c', m', g1, g2, by rw [g3]; exact hwi, ?_⟩
  intro φ ψ hφ hψ he
  rw [hsum φ hφ, hsum ψ hψ, sum φ hφ, sum ψ hψ]
  rw [pathSum_anti_plane (y1 s.ht _ _ r1 r0) he, pathSum_anti_plane (y1 s.ht _ _ rT r1) he, pathSum_anti_plane (y1 s.hb _ _ r0 r1) he,
    pathSum_anti_plane (y1 s.hb _ _ r1 rT) he, pathSum_anti_plane y3 he, pathSum_anti_plane y4 he, pathSum_anti_plane (y2 _ _ yt (yl s.ht _ r0)) he,
    pathSum_anti_plane (y2 _ _ (yl s.hb _ r0) yt) he]


end

/-- Half of a body with a root in the plane of symmetry, added with its reflection, as two copies of the half. -/
theorem half_doubled_on {ptan : ℝ → ℝ} {D : ℝ → ℝ → Prop} {S : Set ℝ} {w : Wing.State} {s : WingShape} {t2 ε : ℝ} (h : WingOn ptan D S w s t2 ε)
    (n : ℕ) (hn : 1 ≤ n) (hg : SampledIn S n w.t_B1 t2)
    (hc : w.args.close_wing = false) (r0 : w.args.A0.y = 0) (r1 : w.args.A1.y = 0) (rT : w.args.TT.y = 0) (H : Heap) (k : ℕ)
    (name : Option String) (hk : H k = wingOf ptan w n name (some "y")) :
    ∃ g c, generatePatches H k = (.ok (), g) ∧ pipeline 0 (g k) = (.ok (), c) ∧ ∃ M c' F, c.mesh = (.ok M, c') ∧ GapFree ε M.tris ∧
      M.tris = F ++ mapVerts (mirrorV 1) F := by
  obtain ⟨h', M, c', m', g1, g2, g3, key⟩ := wing_root_on h n hn hg hc 0 r0 r1 rT none (fun _ => Wing.comp ptan w n none) 0 rfl
  obtain ⟨g, c, M', c'', b1, b2, b3, b4⟩ := reflected_wing ptan w n hn h' M c' g1 g2 H k name hk
  refine ⟨g, c, b1, b2, M', c'', M.tris, b3, ?_, b4⟩
  rw [b4]
  refine halves_watertight g3 ?_
  rw [closed_iff_edgeSum]
  intro φ hφ
  rw [show edges (m' ++ mirrorMesh m') = edges m' ++ edges (mirrorMesh m') from List.flatMap_append, edgeSum_append, edgeSum_mirror φ hφ,
    key φ (fun u v => φ (mirrorY u) (mirrorY v)) hφ (fun u v => hφ _ _) (by
      intro u v hu hv
      have e : ∀ p : V, p.y = 0 → mirrorY p = p := fun p hp => by ext <;> simp [mirrorY, hp]
      rw [e u hu, e v hv])]
  ring

end HV
