import Verif.Props.WingClosed

/-!
# C110: wings with a flat leading edge
-/

namespace HV
open Spec

/-- The flat leading edge between the parameters `t0` and `t1`. -/
noncomputable def WingShape.flat (s : WingShape) (n : ℕ) (t0 t1 : ℝ) : Panel where
  P i j := ⟨(s.L (t1 - (i : ℝ) / n * (t1 - t0))).x, (s.L (t1 - (i : ℝ) / n * (t1 - t0))).y,
    (1 - (j : ℝ) / n) * (s.T (t1 - (i : ℝ) / n * (t1 - t0))).z + (j : ℝ) / n * (s.B (t1 - (i : ℝ) / n * (t1 - t0))).z⟩
  S := crv n s.T t1 t0
  N := crv n s.B t1 t0
  W := seg n (s.T t1) (s.B t1)
  E := seg n (s.T t0) (s.B t0)

theorem WingShape.flat_good (s : WingShape) (n : ℕ) (hn : 1 ≤ n) (t0 t1 : ℝ) : (s.flat n t0 t1).Good n 0 := by
  have hn0 : (n : ℝ) ≠ 0 := by positivity
  have e : ∀ i : ℕ, t1 - (i : ℝ) / n * (t1 - t0) = t1 + (i : ℝ) / n * (t0 - t1) := fun i => by ring
  have z : ∀ {u v : V}, u = v → vdist u v ≤ 0 := fun h => by rw [h, vdist_self]
  refine ⟨by simp [WingShape.flat, crv_zero, seg_zero], by simp [WingShape.flat, crv_last n hn, seg_zero],
    by simp [WingShape.flat, crv_zero, seg_last n hn], by simp [WingShape.flat, crv_last n hn, seg_last n hn], ?_, ?_, ?_, ?_⟩
  · intro i _
    apply z
    ext <;> simp [WingShape.flat, crv, e, WingShape.T, liftBy]
  · intro i _
    apply z
    ext <;> simp [WingShape.flat, crv, e, WingShape.B, liftBy, hn0]
  · intro j _
    apply z
    ext <;> simp [WingShape.flat, seg, lineAt, WingShape.B, WingShape.T, liftBy] <;> ring
  · intro j _
    apply z
    have e1 : t1 - (n : ℝ) / n * (t1 - t0) = t0 := by rw [div_self hn0]; ring
    ext <;> simp only [WingShape.flat, e1] <;> simp [seg, lineAt, WingShape.B, WingShape.T, liftBy] <;> ring

section
variable {D : ℝ → ℝ → Prop} {w : Wing.State} {s : WingShape} {t2 : ℝ} (h : WingBase D w s t2) (hF : w.LE_TYPE = "FLAT") (n : ℕ) (hn : 1 ≤ n)
include h hF hn

theorem flat_leading (ptan : ℝ → ℝ) : ∃ l, Wing.leadingEdge ptan w = .ok l ∧
    Grids n l [s.flat n 0 w.t_B1, s.flat n w.t_B1 t2, s.flat n w.t_B1 1] := by
  have z0 : (0 : ℝ) ∈ Set.Icc (0 : ℝ) 1 := ⟨le_rfl, zero_le_one⟩
  have z1 : (1 : ℝ) ∈ Set.Icc (0 : ℝ) 1 := ⟨zero_le_one, le_rfl⟩
  have hm : ∀ a ∈ Set.Icc (0 : ℝ) 1, ∀ b ∈ Set.Icc (0 : ℝ) 1, ∀ i ≤ n, b - (i : ℝ) / n * (b - a) ∈ Set.Icc (0 : ℝ) 1 := by
    intro a m0 b m1 i hi
    have u0 : (0 : ℝ) ≤ (i : ℝ) / n := by positivity
    have u1 : (i : ℝ) / n ≤ 1 := (div_le_one (by positivity)).2 (by exact_mod_cast hi)
    constructor
    · nlinarith [m0.1, m1.1]
    · nlinarith [m0.2, m1.2]
  have key : ∀ a ∈ Set.Icc (0 : ℝ) 1, ∀ b ∈ Set.Icc (0 : ℝ) 1, ∀ i ≤ n, ∀ j ≤ n,
      FlatLeadingEdgePatchFunction (Wing.topEdge w) (Wing.botEdge w) a b ((i : ℝ) / n) ((j : ℝ) / n) = .ok ((s.flat n a b).P i j) := by
    intro a m0 b m1 i hi j _
    obtain ⟨e1, e2, -⟩ := wing_edges h _ (hm a m0 b m1 i hi)
    simp only [FlatLeadingEdgePatchFunction, e1, e2, ok_bind, pure_eq]
    rfl
  refine ⟨_, by unfold Wing.leadingEdge; simp only [h.t2eq, Wing.num, ok_bind, hF, if_true, pure_eq]; rfl, ?_⟩
  exact .cons (key _ z0 _ h.t1mem) (.cons (key _ h.t1mem _ h.t2mem) (.cons (key _ h.t1mem _ z1) .nil))

theorem flat_tele (ptan : ℝ → ℝ) : ∃ l P, Wing.tele ptan w = .ok l ∧
    Grids n l [⟨P, seg n (s.T 0) (flapTip w s w.args.B0), seg n (s.M 0) (s.B 0), seg n (s.T 0) (s.M 0), seg n (flapTip w s w.args.B0) (s.B 0)⟩] ∧
    (⟨P, seg n (s.T 0) (flapTip w s w.args.B0), seg n (s.M 0) (s.B 0), seg n (s.T 0) (s.M 0), seg n (flapTip w s w.args.B0) (s.B 0)⟩ : Panel).Good n 0 := by
  have hM : liftBy (midH s.ht s.hb) w.args.B0 = s.M 0 := by rw [← h.L0]; rfl
  have hT : liftBy s.ht w.args.B0 = s.T 0 := by rw [← h.L0]; rfl
  have hB : liftBy s.hb w.args.B0 = s.B 0 := by rw [← h.L0]; rfl
  obtain ⟨F, P, c0, v0, g0⟩ := exact_panel n hn 0 le_rfl (Line (s.M 0) (s.B 0)) (Line (flapTip w s w.args.B0) (s.B 0))
    (Line (s.T 0) (flapTip w s w.args.B0)) (Line (s.T 0) (s.M 0)) _ _ _ _
    (fun _ _ => rfl) (fun _ _ => rfl) (fun _ _ => rfl) (fun _ _ => rfl) (by rw [lineAt_zero, lineAt_zero]) (by rw [lineAt_zero, lineAt_one])
    (by rw [lineAt_zero, lineAt_one]) (by rw [lineAt_one, lineAt_one])
  have q := wing_te h 1 ⟨zero_le_one, le_rfl⟩
  simp only [lineAt_one] at q
  have tip : (⟨(s.M 0).x - w.args.flap_length * Real.cos w.args.flap_angle, (s.M 0).y,
      (s.M 0).z + w.args.flap_length * Real.sin w.args.flap_angle⟩ : V) = flapTip w s w.args.B0 := by rw [← hM]; rfl
  have q1 : (⟨(s.M 0).x, (s.M 0).y, (s.T 0).z⟩ : V) = s.T 0 := by rw [← hM, ← hT]; rfl
  have q2 : (⟨(s.M 0).x, (s.M 0).y, (s.B 0).z⟩ : V) = s.B 0 := by rw [← hM, ← hB]; rfl
  refine ⟨[("TELE_patch", F)], P, ?_, .cons v0 .nil, by simpa only [crv_lineAt] using g0⟩
  unfold Wing.tele Wing.tipEdges
  simp only [q, hM, hT, hB, ok_bind, hF, if_true, pure_eq, q1, q2, tip, c0]

/-- The mesh of a wing with a flat leading edge, and what is left of the edges of its patches: the root, the edge at the tip of the flap,
and the edges of the part of the leading edge that is covered twice. -/
theorem flat_panels (ptan : ℝ → ℝ) (hc : w.args.close_wing = false) (name : Option String) (H : Heap) (id : ℕ) (hid : H id = Wing.comp ptan w n name) :
    ∃ h' M c', generatePatches H id = (.ok (), h') ∧ (h' id).mesh = (.ok M, c') ∧
      ∀ {A : Type} [AddCommGroup A] (φ : V → V → A), Anti φ → edgeSum φ (edges M.tris) =
        (pathSum φ (crv n (liftBy s.ht ∘ lineAt w.args.A1 w.args.A0) 0 1) n + pathSum φ (crv n (liftBy s.ht ∘ lineAt w.args.TT w.args.A1) 0 1) n
        + pathSum φ (crv n (liftBy s.hb ∘ lineAt w.args.A0 w.args.A1) 0 1) n + pathSum φ (crv n (liftBy s.hb ∘ lineAt w.args.A1 w.args.TT) 0 1) n
        - pathSum φ (seg n (s.T 1) (s.B 1)) n
        - pathSum φ (seg n (flapTip w s w.args.A0) (liftBy s.ht w.args.A0)) n - pathSum φ (seg n (liftBy s.hb w.args.A0) (flapTip w s w.args.A0)) n)
        + (pathSum φ (seg n (s.T 0) (s.B 0)) n - pathSum φ (seg n (s.T 0) (s.M 0)) n - pathSum φ (seg n (s.M 0) (s.B 0)) n)
        + ((pathSum φ (crv n s.T 1 w.t_B1) n + pathSum φ (seg n (s.T w.t_B1) (s.B w.t_B1)) n - pathSum φ (crv n s.B 1 w.t_B1) n)
          - (pathSum φ (crv n s.T 1 t2) n + pathSum φ (seg n (s.T t2) (s.B t2)) n - pathSum φ (crv n s.B 1 t2) n)) := by
  obtain ⟨F0, F1, F2, F3, P0, P1, P2, P3, hs, -, -, fs, gs⟩ := wing_skins h n hn 0 le_rfl
  obtain ⟨le, hle, fle⟩ := flat_leading h hF n hn ptan
  obtain ⟨fl, Q0, Q1, hfl, ffl, gf0, gf1⟩ := wing_flap h n hn 0 le_rfl
  obtain ⟨te, R, hte, fte, gte⟩ := flat_tele h hF n hn ptan
  have hT : liftBy s.ht w.args.B0 = s.T 0 := by rw [← h.L0]; rfl
  have hB : liftBy s.hb w.args.B0 = s.B 0 := by rw [← h.L0]; rfl
  obtain ⟨h', M, c', g1, g2, g3⟩ := wing_staged n hn name H id hid
    [[("top_patch_0", F0), ("top_patch_1", F1), ("bot_patch_0", F2), ("bot_patch_1", F3)], le, fl, te] (by
      unfold Wing.stages
      simp only [hc, Bool.false_eq_true, if_false, List.append_nil]
      exact .cons hs (.cons hle (.cons hfl (.cons hte .nil)))) _ (by
      rw [List.flatten_cons, List.flatten_cons, List.flatten_cons, List.flatten_cons, List.flatten_nil, List.append_nil]
      exact List.rel_append fs (List.rel_append fle (List.rel_append ffl fte)))
  have main : ∃ ps : List Panel, M.tris = (ps.map fun p => gridMesh MeshArith.real false n n p.P).flatten ∧ (∀ p ∈ ps, p.Good n 0) ∧
      ∀ {A : Type} [AddCommGroup A] (φ : V → V → A), Anti φ → (ps.map (Panel.turn φ n)).sum =
        (pathSum φ (crv n (liftBy s.ht ∘ lineAt w.args.A1 w.args.A0) 0 1) n + pathSum φ (crv n (liftBy s.ht ∘ lineAt w.args.TT w.args.A1) 0 1) n
        + pathSum φ (crv n (liftBy s.hb ∘ lineAt w.args.A0 w.args.A1) 0 1) n + pathSum φ (crv n (liftBy s.hb ∘ lineAt w.args.A1 w.args.TT) 0 1) n
        - pathSum φ (seg n (s.T 1) (s.B 1)) n
        - pathSum φ (seg n (flapTip w s w.args.A0) (liftBy s.ht w.args.A0)) n - pathSum φ (seg n (liftBy s.hb w.args.A0) (flapTip w s w.args.A0)) n)
        + (pathSum φ (seg n (s.T 0) (s.B 0)) n - pathSum φ (seg n (s.T 0) (s.M 0)) n - pathSum φ (seg n (s.M 0) (s.B 0)) n)
        + ((pathSum φ (crv n s.T 1 w.t_B1) n + pathSum φ (seg n (s.T w.t_B1) (s.B w.t_B1)) n - pathSum φ (crv n s.B 1 w.t_B1) n)
          - (pathSum φ (crv n s.T 1 t2) n + pathSum φ (seg n (s.T t2) (s.B t2)) n - pathSum φ (crv n s.B 1 t2) n)) := by
    refine ⟨_, g3, ?_, ?_⟩
    · intro p hp
      rw [List.mem_append, List.mem_append, List.mem_append] at hp
      rcases hp with hp | hp | hp | hp
      · exact gs p hp
      · simp only [List.mem_cons, List.not_mem_nil, or_false] at hp
        rcases hp with rfl | rfl | rfl
        · exact s.flat_good n hn 0 w.t_B1
        · exact s.flat_good n hn w.t_B1 t2
        · exact s.flat_good n hn w.t_B1 1
      · simp only [List.mem_cons, List.not_mem_nil, or_false] at hp
        rcases hp with rfl | rfl
        · exact gf0
        · exact gf1
      · simp only [List.mem_cons, List.not_mem_nil, or_false] at hp
        subst hp
        exact gte
    · intro A _ φ hφ
      have r := pathSum_seg φ hφ n hn
      have q := pathSum_crv φ hφ n hn
      simp only [List.cons_append, List.nil_append, List.map_cons, List.map_nil, List.sum_cons, List.sum_nil, Panel.turn, WingShape.flat, hT, hB]
      rw [q s.B 0 w.t_B1, q s.B w.t_B1 t2, r (s.T 0) (flapTip w s w.args.B0), r (s.B 0) (flapTip w s w.args.B0)]
      abel
  obtain ⟨ps, k1, k2, k3⟩ := main
  obtain ⟨m', hwi, hsum⟩ := panels_snapped n hn 0 le_rfl ps k2
  have hm : M.tris = m' := by
    rw [k1]
    refine List.forall₂_eq_eq_eq ▸ hwi.imp ?_
    rintro ⟨a, b, c⟩ ⟨a', b', c'⟩ ⟨h1, h2, h3⟩
    exact Tri.mk.injEq .. ▸ ⟨eq_of_vdist_nonpos h1, eq_of_vdist_nonpos h2, eq_of_vdist_nonpos h3⟩
  refine ⟨h', M, c', g1, g2, ?_⟩
  intro A _ φ hφ
  rw [hm, hsum φ hφ, k3 φ hφ]

end

/-! ## Sums along vertical lines -/

/-- The two points lie on one vertical line. -/
def Spec.Above (c u : V) : Prop := u.x = c.x ∧ u.y = c.y

open Classical in
/-- The height gained along the edges on the vertical line through `c` whose length satisfies `S`. -/
noncomputable def rise (c : V) (S : ℝ → Prop) (u v : V) : ℝ := if Above c u ∧ Above c v ∧ S |v.z - u.z| then v.z - u.z else 0

theorem rise_anti (c : V) (S : ℝ → Prop) : Anti (rise c S) := by
  intro u v
  unfold rise
  rw [abs_sub_comm u.z v.z]
  by_cases h : Above c u ∧ Above c v ∧ S |v.z - u.z|
  · rw [if_pos h, if_pos ⟨h.2.1, h.1, h.2.2⟩]; ring
  · rw [if_neg h, if_neg fun k => h ⟨k.2.1, k.1, k.2.2⟩]; simp

theorem pathSum_zero {A : Type} [AddCommGroup A] {φ : V → V → A} {p : ℕ → V} {n : ℕ} (h : ∀ i < n, φ (p i) (p (i + 1)) = 0) : pathSum φ p n = 0 :=
  Finset.sum_eq_zero fun i hi => h i (Finset.mem_range.1 hi)

theorem rise_off {c : V} {S : ℝ → Prop} {u v : V} (h : ¬ Above c u) : rise c S u v = 0 := if_neg fun k => h k.1

open Classical in
/-- The rise along a vertical segment in `n` equal steps. -/
theorem rise_seg (c : V) (S : ℝ → Prop) (n : ℕ) (hn : 1 ≤ n) (u v : V) (hv : v.x = u.x ∧ v.y = u.y) :
    pathSum (rise c S) (seg n u v) n = if Above c u ∧ S (|v.z - u.z| / n) then v.z - u.z else 0 := by
  have hn0 : (n : ℝ) ≠ 0 := by positivity
  have e : ∀ i : ℕ, (seg n u v (i + 1)).z - (seg n u v i).z = (v.z - u.z) / n := by
    intro i
    simp only [seg, lineAt, Vec.add_z, Vec.mul_z]
    push_cast
    field_simp
    ring
  have ea : |(v.z - u.z) / n| = |v.z - u.z| / n := by rw [abs_div, Nat.abs_cast]
  have hA : ∀ i, Above c (seg n u v i) ↔ Above c u := by
    intro i
    have ex : (seg n u v i).x = u.x := by simp only [seg, lineAt, Vec.add_x, Vec.mul_x, hv.1]; ring
    have ey : (seg n u v i).y = u.y := by simp only [seg, lineAt, Vec.add_y, Vec.mul_y, hv.2]; ring
    simp only [Above, ex, ey]
  unfold pathSum rise
  simp only [hA, e, ea]
  by_cases h : Above c u ∧ S (|v.z - u.z| / n)
  · rw [if_pos h]
    simp only [h.1, h.2, and_self, if_true, Finset.sum_const, Finset.card_range, nsmul_eq_mul]
    field_simp
  · rw [if_neg h]
    apply Finset.sum_eq_zero
    intro i _
    rw [if_neg fun k => h ⟨k.1, k.2.2⟩]

/-- An edge sum over edges of one kind does not vanish only if the edges of that kind are not balanced. -/
theorem unbalanced_of_sum {W : Type} {l : List (W × W)} {φ : W → W → ℝ} (hφ : Anti φ) (Q : W → Prop) (hQ : ∀ u v, ¬ (Q u ∧ Q v) → φ u v = 0)
    (h : edgeSum φ l ≠ 0) : ∃ u v, edgeCount l u v ≠ edgeCount l v u ∧ Q u ∧ Q v := by
  classical
  by_contra hcon
  push Not at hcon
  apply h
  have e : edgeSum φ l = edgeSum φ (l.filter fun e => Q e.1 ∧ Q e.2) := by
    clear h hcon
    induction l with
    | nil => rfl
    | cons a l ih =>
      rw [List.filter_cons]
      by_cases ha : Q a.1 ∧ Q a.2
      · simp only [ha, and_self, decide_true, if_true]
        simp only [edgeSum, List.map_cons, List.sum_cons] at ih ⊢
        rw [ih]
      · simp only [ha, decide_false, Bool.false_eq_true, if_false]
        rw [← ih]
        simp only [edgeSum, List.map_cons, List.sum_cons, hQ _ _ ha, zero_add]
  rw [e]
  apply edgeSum_eq_zero_of_balanced φ hφ (fun a ha => by linarith)
  intro u v
  unfold edgeCount
  by_cases hq : Q u ∧ Q v
  · rw [List.count_filter (by simpa using hq), List.count_filter (by simpa using hq.symm)]
    by_contra hne
    exact hcon u v hne hq.1 hq.2
  · rw [List.count_eq_zero.2, List.count_eq_zero.2]
    · simp only [List.mem_filter, decide_eq_true_eq, not_and]; intro _ h1 h2; exact hq ⟨h2, h1⟩
    · simp only [List.mem_filter, decide_eq_true_eq, not_and]; intro _ h1 h2; exact hq ⟨h1, h2⟩

section
variable {D : ℝ → ℝ → Prop} {w : Wing.State} {s : WingShape} {t2 : ℝ} (h : WingBase D w s t2) (hF : w.LE_TYPE = "FLAT") (n : ℕ) (hn : 1 ≤ n)
include h hF hn

open Classical in
/-- The rise along a vertical line away from the root. -/
theorem flat_rise (ptan : ℝ → ℝ) (hc : w.args.close_wing = false) (y0 : ℝ) (r0 : w.args.A0.y = y0) (r1 : w.args.A1.y = y0) (rT : w.args.TT.y = y0)
    (name : Option String) (H : Heap) (id : ℕ) (hid : H id = Wing.comp ptan w n name) :
    ∃ h' M c', generatePatches H id = (.ok (), h') ∧ (h' id).mesh = (.ok M, c') ∧
      ∀ (c : V) (S : ℝ → Prop), c.y ≠ y0 → (∀ t, w.t_B1 < t → t ≤ 1 → ¬ Above c (s.L t)) →
        edgeSum (rise c S) (edges M.tris) =
        ((if Above c (s.L 0) ∧ S (|(s.B 0).z - (s.T 0).z| / n) then (s.B 0).z - (s.T 0).z else 0)
          - (if Above c (s.L 0) ∧ S (|(s.M 0).z - (s.T 0).z| / n) then (s.M 0).z - (s.T 0).z else 0)
          - (if Above c (s.L 0) ∧ S (|(s.B 0).z - (s.M 0).z| / n) then (s.B 0).z - (s.M 0).z else 0))
        + (if w.t_B1 < t2 ∧ Above c (s.L w.t_B1) ∧ S (|(s.B w.t_B1).z - (s.T w.t_B1).z| / n) then (s.B w.t_B1).z - (s.T w.t_B1).z else 0) := by
  obtain ⟨h', M, c', g1, g2, hsum⟩ := flat_panels h hF n hn ptan hc name H id hid
  refine ⟨h', M, c', g1, g2, ?_⟩
  intro c S hcy hno
  have hn0 : (n : ℝ) ≠ 0 := by positivity
  have off : ∀ p : ℕ → V, (∀ i ≤ n, (p i).y = y0) → pathSum (rise c S) p n = 0 := fun p hp =>
    pathSum_zero fun i hi => rise_off fun k => hcy (k.2.symm.trans (hp i hi.le))
  have y1 : ∀ (f : ℝ → ℝ → ℝ) (u v : V), u.y = y0 → v.y = y0 → ∀ i ≤ n, (crv n (liftBy f ∘ lineAt u v) 0 1 i).y = y0 := by
    intro f u v hu hv i _
    simp only [crv, Function.comp, liftBy, lineAt, Vec.add_y, Vec.mul_y, hu, hv]; ring
  have y2 : ∀ (u v : V), u.y = y0 → v.y = y0 → ∀ i ≤ n, (seg n u v i).y = y0 := by
    intro u v hu hv i _
    simp only [seg, lineAt, Vec.add_y, Vec.mul_y, hu, hv]; ring
  have yl : ∀ (f : ℝ → ℝ → ℝ) (u : V), u.y = y0 → (liftBy f u).y = y0 := fun f u hu => hu
  have yt : (flapTip w s w.args.A0).y = y0 := r0
  have hL1 : (s.L 1).y = y0 := by rw [h.L1]; exact rT
  have hcrv : ∀ (F : ℝ → V), (∀ t, Above c (F t) ↔ Above c (s.L t)) → ∀ b, w.t_B1 ≤ b → b ≤ 1 → pathSum (rise c S) (crv n F 1 b) n = 0 := by
    intro F hF b hb hb1
    apply pathSum_zero
    intro i hi
    have u0 : (0 : ℝ) ≤ (i : ℝ) / n := by positivity
    have u1 : (i : ℝ) / n < 1 := (div_lt_one (by positivity)).2 (by exact_mod_cast hi)
    by_cases h1 : b = 1
    · subst h1
      by_cases h2 : w.t_B1 < 1
      · apply rise_off
        rw [crv, hF]
        exact hno _ (by simpa using h2) (by simp)
      · unfold rise crv
        simp
    · apply rise_off
      rw [crv, hF]
      have hb2 : b < 1 := lt_of_le_of_ne hb1 h1
      exact hno _ (by nlinarith) (by nlinarith)
  rw [hsum (rise c S) (rise_anti c S), off _ (y1 s.ht _ _ r1 r0), off _ (y1 s.ht _ _ rT r1), off _ (y1 s.hb _ _ r0 r1), off _ (y1 s.hb _ _ r1 rT),
    off _ (y2 (s.T 1) (s.B 1) hL1 hL1), off _ (y2 _ _ yt (yl s.ht _ r0)), off _ (y2 _ _ (yl s.hb _ r0) yt),
    hcrv s.T (fun _ => Iff.rfl) _ le_rfl h.t1mem.2, hcrv s.B (fun _ => Iff.rfl) _ le_rfl h.t1mem.2, hcrv s.T (fun _ => Iff.rfl) _ h.t12 h.t2mem.2,
    hcrv s.B (fun _ => Iff.rfl) _ h.t12 h.t2mem.2, rise_seg c S n hn (s.T 0) (s.B 0) ⟨rfl, rfl⟩, rise_seg c S n hn (s.T 0) (s.M 0) ⟨rfl, rfl⟩,
    rise_seg c S n hn (s.M 0) (s.B 0) ⟨rfl, rfl⟩, rise_seg c S n hn (s.T w.t_B1) (s.B w.t_B1) ⟨rfl, rfl⟩,
    rise_seg c S n hn (s.T t2) (s.B t2) ⟨rfl, rfl⟩]
  have a1 : ∀ t, Above c (s.T t) ↔ Above c (s.L t) := fun _ => Iff.rfl
  have a2 : ∀ t, Above c (s.M t) ↔ Above c (s.L t) := fun _ => Iff.rfl
  simp only [a1, a2]
  rcases h.t12.lt_or_eq with hlt | heq
  · simp only [hlt, true_and, hno t2 hlt h.t2mem.2, false_and, if_false]
    ring
  · rw [← heq]
    simp only [lt_irrefl, false_and, if_false]
    ring

end

/-! ## The statement -/

/-- A wing with a flat leading edge along the curve `L` and skins at the heights `ht` and `hb` above the planform, not closed at the root,
which lies in the plane `y = y0`. -/
structure Spec.FlatWing (D : ℝ → ℝ → Prop) (a : Wing.Args) (L : ℝ → V) (ht hb : ℝ → ℝ → ℝ) (y0 : ℝ) : Prop where
  ty : a.lineType.toLower = "bezier"
  le : a.LE_type.toUpper = "FLAT"
  tail : a.tail_option = "FLAP"
  line : ∀ t, a.line.call t = .ok (L t)
  L0 : L 0 = a.B0
  L1 : L 1 = a.TT
  top : HeightFn D a.top_tf ht
  bot : HeightFn D a.bot_tf hb
  over : LiesOver D a.A0 a.A1 L
  opened : a.close_wing = false
  rootA0 : a.A0.y = y0
  rootA1 : a.A1.y = y0
  rootTT : a.TT.y = y0

/-- The second break parameter: half way to the end, or, if given, the first one (`C62`). -/
theorem flatWing_base {find : (ℝ → Res ℝ) → Res ℝ} {D : ℝ → ℝ → Prop} {a : Wing.Args} {w : Wing.State} {L : ℝ → V} {ht hb : ℝ → ℝ → ℝ} {y0 : ℝ}
    (hw : Wing.init find a = .ok w) (h : FlatWing D a L ht hb y0) (hbr : a.t_B2 = none ∨ a.t_B1.isSome) (h1 : w.t_B1 ∈ Set.Icc (0 : ℝ) 1) :
    w.args = a ∧ w.LE_TYPE = "FLAT" ∧ ∃ t2, WingBase D w ⟨L, ht, hb, fun _ => 0⟩ t2 ∧ (a.t_B2 = none → t2 = 0.5 * (1 + w.t_B1)) ∧
      (a.t_B2.isSome → t2 = w.t_B1) := by
  obtain ⟨ha, hT, i1, i2, i3⟩ := Wing.init_ok hw
  have ht2 : ∃ t2, w.t_B2 = some t2 ∧ t2 ∈ Set.Icc (0 : ℝ) 1 ∧ w.t_B1 ≤ t2 ∧ (a.t_B2 = none → t2 = 0.5 * (1 + w.t_B1)) ∧
      (a.t_B2.isSome → t2 = w.t_B1) := by
    cases hb2 : a.t_B2 with
    | none =>
      refine ⟨_, i2 hb2, ⟨?_, ?_⟩, ?_, fun _ => rfl, by simp⟩
      · linarith [h1.1]
      · linarith [h1.2]
      · linarith [h1.2]
    | some t =>
      have hs := i3 ⟨t, hb2⟩
      rw [hb2] at hbr
      simp only [reduceCtorEq, false_or] at hbr
      obtain ⟨t1, e1⟩ := Option.isSome_iff_exists.1 hbr
      rw [e1] at hs
      exact ⟨t1, hs, (i1 t1 e1) ▸ h1, (i1 t1 e1).le, by simp, fun _ => (i1 t1 e1).symm⟩
  obtain ⟨t2, e2, m2, m3, m4, m5⟩ := ht2
  exact ⟨ha, by rw [hT]; exact h.le, t2, ⟨by rw [ha]; exact h.ty, by rw [ha]; exact h.tail, h1, e2, m2, m3,
    by rw [ha]; exact h.line, by rw [ha]; exact h.L0, by rw [ha]; exact h.L1, by rw [ha]; exact h.top, by rw [ha]; exact h.bot,
    by rw [ha]; exact h.over⟩, m4, m5⟩

/-- C110 is violated: if the second break parameter is not given, the leading edge between the first break parameter and half way to the
end is covered twice, and there are edges without a partner above the leading edge at the first break parameter, away from the root.
This holds for every wing whose leading edge is not in the root plane and has a thickness there, at every resolution. -/
theorem C110_overlap_violated (find : (ℝ → Res ℝ) → Res ℝ) (ptan : ℝ → ℝ) (D : ℝ → ℝ → Prop) (a : Wing.Args) (w : Wing.State) (L : ℝ → V)
    (ht hb : ℝ → ℝ → ℝ) (y0 : ℝ) (hw : Wing.init find a = .ok w) (h : FlatWing D a L ht hb y0) (hB2 : a.t_B2 = none)
    (h0 : 0 ≤ w.t_B1) (h1 : w.t_B1 < 1) (hy : (L w.t_B1).y ≠ y0) (hne : ht (L w.t_B1).x (L w.t_B1).y ≠ hb (L w.t_B1).x (L w.t_B1).y)
    (hL : ∀ t, w.t_B1 < t → t ≤ 1 → ¬ Above (L w.t_B1) (L t)) (n : ℕ) (hn : 1 ≤ n) (name : Option String) (H : Heap) (id : ℕ)
    (hid : H id = Wing.comp ptan w n name) :
    ∃ h' M c', generatePatches H id = (.ok (), h') ∧ (h' id).mesh = (.ok M, c') ∧
      (∃ u v, edgeCount (edges M.tris) u v ≠ edgeCount (edges M.tris) v u ∧ Above (L w.t_B1) u ∧ Above (L w.t_B1) v) ∧
      (y0 = 0 → (∀ t, w.t_B1 ≤ t → t ≤ 1 → 0 ≤ (L t).y) → ¬ Closed (M.tris ++ mirrorMesh M.tris)) := by
  classical
  obtain ⟨ha, hF, t2, hb', hd, -⟩ := flatWing_base hw h (.inl hB2) ⟨h0, h1.le⟩
  have hlt : w.t_B1 < t2 := by rw [hd hB2]; linarith
  obtain ⟨h', M, c', g1, g2, key⟩ := flat_rise hb' hF n hn ptan (by rw [ha]; exact h.opened) y0 (by rw [ha]; exact h.rootA0) (by rw [ha]; exact h.rootA1)
    (by rw [ha]; exact h.rootTT) name H id hid
  have k := key (L w.t_B1) (fun _ => True) hy hL
  have hz : ∀ t, (WingShape.B ⟨L, ht, hb, fun _ => 0⟩ t).z - (WingShape.T ⟨L, ht, hb, fun _ => 0⟩ t).z = hb (L t).x (L t).y - ht (L t).x (L t).y := by
    intro t; simp [WingShape.B, WingShape.T, liftBy]
  have kk : edgeSum (rise (L w.t_B1) fun _ => True) (edges M.tris) = hb (L w.t_B1).x (L w.t_B1).y - ht (L w.t_B1).x (L w.t_B1).y := by
    rw [k, ← hz]
    simp only [and_true, hlt, true_and]
    rw [if_pos (show Above (L w.t_B1) (L w.t_B1) from ⟨rfl, rfl⟩)]
    split_ifs <;> ring
  have hs : edgeSum (rise (L w.t_B1) fun _ => True) (edges M.tris) ≠ 0 := by
    rw [kk]
    exact fun e => hne (by linarith)
  refine ⟨h', M, c', g1, g2, unbalanced_of_sum (rise_anti _ _) (Above (L w.t_B1)) (fun u v hq => if_neg fun k => hq ⟨k.1, k.2.1⟩) hs, ?_⟩
  intro hy0 hpos hcl
  subst hy0
  have hm : (fun u v => rise (L w.t_B1) (fun _ => True) (mirrorY u) (mirrorY v)) = rise (mirrorY (L w.t_B1)) fun _ => True := by
    funext u v
    have e : ∀ u : V, Above (L w.t_B1) (mirrorY u) ↔ Above (mirrorY (L w.t_B1)) u := by
      intro u
      simp only [Above, mirrorY]
      exact and_congr_right fun _ => ⟨fun h => by linarith, fun h => by linarith⟩
    simp only [rise, e, and_true]
    rfl
  have hp : 0 < (L w.t_B1).y := lt_of_le_of_ne (hpos _ le_rfl h1.le) hy.symm
  have k2 := key (mirrorY (L w.t_B1)) (fun _ => True) (by simp only [mirrorY]; linarith) (by
    intro t ht1 ht2 hab
    have := hpos t ht1.le ht2
    have := hab.2
    simp only [mirrorY] at this
    linarith)
  have k3 : edgeSum (rise (mirrorY (L w.t_B1)) fun _ => True) (edges M.tris) = 0 := by
    rw [k2]
    simp only [and_true, hlt, true_and]
    rw [if_neg (show ¬ Above (mirrorY (L w.t_B1)) (L w.t_B1) from fun h => by have := h.2; simp only [mirrorY] at this; linarith)]
    split_ifs <;> ring
  have k4 := edgeSum_eq_zero_of_balanced (rise (L w.t_B1) fun _ => True) (rise_anti _ _) (fun a ha => by linarith) _ hcl
  rw [edges_append, edgeSum_append, edgeSum_mirror _ (rise_anti _ _), hm, k3, neg_zero, add_zero] at k4
  exact hs k4

/-- C110 is violated, for all flat leading edges: the edge at the tip of the flap is divided into as many parts by the leading edge as
its upper half and its lower half are by the patch that closes the flap.  So there are edges without a partner above the tip
`B0`, for every wing with a thickness there whose tip is not in the root plane, at every resolution. -/
theorem C110_tip_violated (find : (ℝ → Res ℝ) → Res ℝ) (ptan : ℝ → ℝ) (D : ℝ → ℝ → Prop) (a : Wing.Args) (w : Wing.State) (L : ℝ → V)
    (ht hb : ℝ → ℝ → ℝ) (y0 : ℝ) (hw : Wing.init find a = .ok w) (h : FlatWing D a L ht hb y0) (hbr : a.t_B2 = none ∨ a.t_B1.isSome)
    (h0 : 0 < w.t_B1) (h1 : w.t_B1 ≤ 1) (hy : a.B0.y ≠ y0) (hne : ht a.B0.x a.B0.y ≠ hb a.B0.x a.B0.y)
    (hL : ∀ t, 0 < t → t ≤ 1 → ¬ Above a.B0 (L t)) (n : ℕ) (hn : 1 ≤ n) (name : Option String) (H : Heap) (id : ℕ)
    (hid : H id = Wing.comp ptan w n name) :
    ∃ h' M c', generatePatches H id = (.ok (), h') ∧ (h' id).mesh = (.ok M, c') ∧
      ∃ u v, edgeCount (edges M.tris) u v ≠ edgeCount (edges M.tris) v u ∧ Above a.B0 u ∧ Above a.B0 v := by
  classical
  obtain ⟨ha, hF, t2, hb', -, -⟩ := flatWing_base hw h hbr ⟨h0.le, h1⟩
  obtain ⟨h', M, c', g1, g2, key⟩ := flat_rise hb' hF n hn ptan (by rw [ha]; exact h.opened) y0 (by rw [ha]; exact h.rootA0) (by rw [ha]; exact h.rootA1)
    (by rw [ha]; exact h.rootTT) name H id hid
  set d : ℝ := hb a.B0.x a.B0.y - ht a.B0.x a.B0.y with hd
  have hd0 : d ≠ 0 := fun e => hne (by linarith)
  have hn0 : (0 : ℝ) < n := by positivity
  have k := key a.B0 (fun l => l = |d| / n) hy (fun t ht => hL t (h0.trans ht))
  have e1 : (WingShape.B ⟨L, ht, hb, fun _ => 0⟩ 0).z - (WingShape.T ⟨L, ht, hb, fun _ => 0⟩ 0).z = d := by
    simp only [WingShape.B, WingShape.T, liftBy, h.L0, hd]; ring
  have e2 : (WingShape.M ⟨L, ht, hb, fun _ => 0⟩ 0).z - (WingShape.T ⟨L, ht, hb, fun _ => 0⟩ 0).z = d / 2 := by
    simp only [WingShape.M, WingShape.T, liftBy, h.L0, hd, midH]; ring
  have e3 : (WingShape.B ⟨L, ht, hb, fun _ => 0⟩ 0).z - (WingShape.M ⟨L, ht, hb, fun _ => 0⟩ 0).z = d / 2 := by
    simp only [WingShape.M, WingShape.B, liftBy, h.L0, hd, midH]; ring
  have e4 : ¬ |d / 2| / n = |d| / n := by
    rw [div_left_inj' hn0.ne', abs_div, abs_of_pos (show (0 : ℝ) < 2 by norm_num)]
    have := abs_pos.2 hd0
    intro h; linarith
  simp only [e1, e2, e3, e4, and_false, if_false, h.L0, and_true, hL _ h0 h1, false_and, show Above a.B0 a.B0 from ⟨rfl, rfl⟩, if_true, sub_zero, add_zero] at k
  exact ⟨h', M, c', g1, g2, unbalanced_of_sum (rise_anti _ _) (Above a.B0) (fun u v hq => if_neg fun k => hq ⟨k.1, k.2.1⟩) (by rw [k]; exact hd0)⟩

theorem detect_off {Q : V → Prop} {u v : V} (h : ¬ (Q u ∧ Q v)) {p : ℕ → V} {n : ℕ} (hp : ∀ i ≤ n, Q (p i)) : pathSum (detect u v) p n = 0 := by
  apply pathSum_zero
  intro i hi
  unfold detect
  rw [if_neg, if_neg]
  · rfl
  · intro e; obtain ⟨rfl, rfl⟩ := Prod.mk.inj e; exact h ⟨hp _ (by omega), hp _ (by omega)⟩
  · intro e; obtain ⟨rfl, rfl⟩ := Prod.mk.inj e; exact h ⟨hp _ (by omega), hp _ (by omega)⟩

/-- The part of the normals that the mirror image does not cancel. -/
def crossDiff (u v : V) : Fin 3 → ℝ := edgeCross u v - edgeCross (mirrorY u) (mirrorY v)

theorem crossDiff_anti : Anti crossDiff := by
  intro u v
  unfold crossDiff
  rw [edgeCross_anti u v, edgeCross_anti (mirrorY u) (mirrorY v)]
  abel

theorem crossDiff_seg (n : ℕ) (hn : 1 ≤ n) (u v : V) : pathSum crossDiff (seg n u v) n = crossDiff u v := by
  have hn0 : (n : ℝ) ≠ 0 := by positivity
  have e : ∀ i : ℕ, crossDiff (seg n u v i) (seg n u v (i + 1)) = (1 / (n : ℝ)) • crossDiff u v := by
    intro i
    ext k
    fin_cases k <;> simp [crossDiff, edgeCross, seg, lineAt, mirrorY] <;> field_simp <;> ring
  unfold pathSum
  simp only [e, Finset.sum_const, Finset.card_range]
  ext k
  simp
  field_simp

/-- C110, what holds of flat leading edges: the wing generates, and every edge without a partner lies in the root plane, or above the tip
`B0`, or, if the second break parameter is not given, above the leading edge beyond the first break parameter.  If both are given and the
root plane is `y = 0`, the normals of the wing and its mirror image still cancel: no surface is missing and none is double.
Missing: a wing all of whose edges away from the root have a partner, see `C110_overlap_violated`, `C110_tip_violated`. -/
theorem C110_flat_wing_partial (find : (ℝ → Res ℝ) → Res ℝ) (ptan : ℝ → ℝ) (D : ℝ → ℝ → Prop) (a : Wing.Args) (w : Wing.State) (L : ℝ → V)
    (ht hb : ℝ → ℝ → ℝ) (y0 : ℝ) (hw : Wing.init find a = .ok w) (h : FlatWing D a L ht hb y0) (hbr : a.t_B2 = none ∨ a.t_B1.isSome)
    (h1 : w.t_B1 ∈ Set.Icc (0 : ℝ) 1) (n : ℕ) (hn : 1 ≤ n) (name : Option String) (H : Heap) (id : ℕ)
    (hid : H id = Wing.comp ptan w n name) :
    ∃ h' M c', generatePatches H id = (.ok (), h') ∧ (h' id).mesh = (.ok M, c') ∧
      (∀ u v, edgeCount (edges M.tris) u v ≠ edgeCount (edges M.tris) v u →
        (u.y = y0 ∧ v.y = y0) ∨ (Above a.B0 u ∧ Above a.B0 v) ∨
        a.t_B2 = none ∧ (∃ t ∈ Set.Icc w.t_B1 1, Above (L t) u) ∧ ∃ t ∈ Set.Icc w.t_B1 1, Above (L t) v) ∧
      (a.t_B2.isSome → y0 = 0 → vectorArea2 (M.tris ++ mirrorMesh M.tris) = 0) := by
  obtain ⟨ha, hF, t2, hb', -, hd⟩ := flatWing_base hw h hbr h1
  obtain ⟨h', M, c', g1, g2, hsum⟩ := flat_panels hb' hF n hn ptan (by rw [ha]; exact h.opened) name H id hid
  subst ha
  have hn0 : (0 : ℝ) < n := by positivity
  have y1 : ∀ (f : ℝ → ℝ → ℝ) (u v : V), u.y = y0 → v.y = y0 → ∀ i ≤ n, (crv n (liftBy f ∘ lineAt u v) 0 1 i).y = y0 := by
    intro f u v hu hv i _
    simp only [crv, Function.comp, liftBy, lineAt, Vec.add_y, Vec.mul_y, hu, hv]; ring
  have y2 : ∀ (u v : V), u.y = y0 → v.y = y0 → ∀ i ≤ n, (seg n u v i).y = y0 := by
    intro u v hu hv i _
    simp only [seg, lineAt, Vec.add_y, Vec.mul_y, hu, hv]; ring
  have yl : ∀ (f : ℝ → ℝ → ℝ) (u : V), u.y = y0 → (liftBy f u).y = y0 := fun f u hu => hu
  have r0 := h.rootA0
  have r1 := h.rootA1
  have rT := h.rootTT
  have yt : (flapTip w ⟨L, ht, hb, fun _ => 0⟩ w.args.A0).y = y0 := r0
  have hL1 : (L 1).y = y0 := by rw [h.L1]; exact rT
  have vert : ∀ c u v : V, Above c u → Above c v → ∀ i ≤ n, Above c (seg n u v i) := by
    intro c u v hu hv i _
    constructor
    · simp only [seg, lineAt, Vec.add_x, Vec.mul_x, hu.1, hv.1]; ring
    · simp only [seg, lineAt, Vec.add_y, Vec.mul_y, hu.2, hv.2]; ring
  have aT : ∀ t, Above (L t) (WingShape.T ⟨L, ht, hb, fun _ => 0⟩ t) := fun _ => ⟨rfl, rfl⟩
  have aB : ∀ t, Above (L t) (WingShape.B ⟨L, ht, hb, fun _ => 0⟩ t) := fun _ => ⟨rfl, rfl⟩
  have aM : ∀ t, Above (L t) (WingShape.M ⟨L, ht, hb, fun _ => 0⟩ t) := fun _ => ⟨rfl, rfl⟩
  refine ⟨h', M, c', g1, g2, ?_, ?_⟩
  · intro u v hne
    by_contra hcon
    rw [not_or, not_or] at hcon
    obtain ⟨n1, n2, n3⟩ := hcon
    have s0 := hsum (detect u v) (detect_anti u v)
    rw [edgeSum_detect] at s0
    rw [← h.L0] at n2
    have strip : ∀ t3 ∈ Set.Icc w.t_B1 1, w.args.t_B2 = none → pathSum (detect u v) (crv n (WingShape.T ⟨L, ht, hb, fun _ => 0⟩) 1 t3) n = 0 ∧
        pathSum (detect u v) (crv n (WingShape.B ⟨L, ht, hb, fun _ => 0⟩) 1 t3) n = 0 ∧
        pathSum (detect u v) (seg n (WingShape.T ⟨L, ht, hb, fun _ => 0⟩ t3) (WingShape.B ⟨L, ht, hb, fun _ => 0⟩ t3)) n = 0 := by
      intro t3 h3 hB
      have n3' : ¬ ((∃ t ∈ Set.Icc w.t_B1 1, Above (L t) u) ∧ ∃ t ∈ Set.Icc w.t_B1 1, Above (L t) v) := fun k => n3 ⟨hB, k.1, k.2⟩
      have hm : ∀ i ≤ n, 1 + (i : ℝ) / n * (t3 - 1) ∈ Set.Icc w.t_B1 1 := by
        intro i hi
        have u0 : (0 : ℝ) ≤ (i : ℝ) / n := by positivity
        have u1 : (i : ℝ) / n ≤ 1 := (div_le_one hn0).2 (by exact_mod_cast hi)
        have := h3.1
        have := h3.2
        constructor <;> nlinarith
      exact ⟨detect_off (Q := fun p => ∃ t ∈ Set.Icc w.t_B1 1, Above (L t) p) n3' fun i hi => ⟨_, hm i hi, aT _⟩,
        detect_off (Q := fun p => ∃ t ∈ Set.Icc w.t_B1 1, Above (L t) p) n3' fun i hi => ⟨_, hm i hi, aB _⟩,
        detect_off (Q := fun p => ∃ t ∈ Set.Icc w.t_B1 1, Above (L t) p) n3' fun i hi => ⟨_, h3, vert _ _ _ (aT t3) (aB t3) i hi⟩⟩
    rw [detect_off (Q := fun p => p.y = y0) n1 (y1 ht _ _ r1 r0), detect_off (Q := fun p => p.y = y0) n1 (y1 ht _ _ rT r1),
      detect_off (Q := fun p => p.y = y0) n1 (y1 hb _ _ r0 r1), detect_off (Q := fun p => p.y = y0) n1 (y1 hb _ _ r1 rT),
      detect_off (Q := fun p => p.y = y0) n1 (y2 (WingShape.T ⟨L, ht, hb, fun _ => 0⟩ 1) (WingShape.B ⟨L, ht, hb, fun _ => 0⟩ 1) hL1 hL1),
      detect_off (Q := fun p => p.y = y0) n1 (y2 _ _ yt (yl ht _ r0)), detect_off (Q := fun p => p.y = y0) n1 (y2 _ _ (yl hb _ r0) yt),
      detect_off n2 (vert _ _ _ (aT 0) (aB 0)), detect_off n2 (vert _ _ _ (aT 0) (aM 0)), detect_off n2 (vert _ _ _ (aM 0) (aB 0))] at s0
    cases hB : w.args.t_B2 with
    | none =>
      obtain ⟨q1, q2, q3⟩ := strip w.t_B1 ⟨le_rfl, h1.2⟩ hB
      obtain ⟨q4, q5, q6⟩ := strip t2 ⟨hb'.t12, hb'.t2mem.2⟩ hB
      rw [q1, q2, q3, q4, q5, q6] at s0
      apply hne
      omega
    | some x =>
      rw [hd (by rw [hB]; rfl), sub_self] at s0
      apply hne
      omega
  · intro hB hy
    subst hy
    have s0 := hsum crossDiff crossDiff_anti
    have flat : ∀ p : ℕ → V, (∀ i ≤ n, (p i).y = 0) → pathSum crossDiff p n = 0 := by
      intro p hp
      apply pathSum_zero
      intro i hi
      have e1 := hp i hi.le
      have e2 := hp (i + 1) hi
      ext k
      fin_cases k <;> simp [crossDiff, edgeCross, mirrorY, e1, e2]
    rw [hd hB, sub_self, flat _ (y1 ht _ _ r1 r0), flat _ (y1 ht _ _ rT r1), flat _ (y1 hb _ _ r0 r1), flat _ (y1 hb _ _ r1 rT),
      flat _ (y2 (WingShape.T ⟨L, ht, hb, fun _ => 0⟩ 1) (WingShape.B ⟨L, ht, hb, fun _ => 0⟩ 1) hL1 hL1),
      flat _ (y2 _ _ yt (yl ht _ r0)), flat _ (y2 _ _ (yl hb _ r0) yt), crossDiff_seg n hn, crossDiff_seg n hn, crossDiff_seg n hn] at s0
    have e : edgeSum crossDiff (edges M.tris) = 0 := by
      rw [s0]
      ext k
      fin_cases k <;> simp [crossDiff, edgeCross, mirrorY, WingShape.T, WingShape.B, WingShape.M, liftBy] <;> ring
    rw [vectorArea2_eq, edges_append, edgeSum_append, edgeSum_mirror _ edgeCross_anti, ← sub_eq_add_neg, ← e]
    generalize edges M.tris = l
    induction l with
    | nil => simp [edgeSum]
    | cons x l ih =>
      simp only [edgeSum, List.map_cons, List.sum_cons] at ih ⊢
      rw [← ih]
      simp only [crossDiff]
      abel

/-- The delta wing with a flat leading edge. -/
theorem delta_flat (t1 t2 : Option ℝ) : FlatWing (fun _ _ => True) (deltaWing "flat" t1 t2) (lineAt ⟨0, 1, 0⟩ ⟨2, 0, 0⟩)
    (fun _ _ => -0.05) (fun _ _ => 0.05) 0 where
  ty := lower_bezier
  le := upper_flat
  tail := rfl
  line := fun _ => rfl
  L0 := by simp [lineAt, deltaWing]; ext <;> simp
  L1 := by simp [lineAt, deltaWing]; ext <;> simp
  top := by intro x y z _; simp [deltaWing, uniformThickness]; norm_num
  bot := by intro x y z _; simp [deltaWing, uniformThickness]; norm_num
  over := liesOver_univ _ _ _
  opened := rfl
  rootA0 := rfl
  rootA1 := rfl
  rootTT := rfl

/-- The delta wing and its mirror image are not closed, whatever the resolution. -/
example (find : (ℝ → Res ℝ) → Res ℝ) (ptan : ℝ → ℝ) (n : ℕ) (hn : 1 ≤ n) : ∃ w h' M c', Wing.init find (deltaWing "flat" (some 0.5) none) = .ok w ∧
    generatePatches (fun _ => Wing.comp ptan w n none) 0 = (.ok (), h') ∧ (h' 0).mesh = (.ok M, c') ∧ ¬ Closed (M.tris ++ mirrorMesh M.tris) := by
  obtain ⟨w, hw⟩ : ∃ w, Wing.init find (deltaWing "flat" (some 0.5) none) = .ok w := ⟨_, rfl⟩
  have h1 := (Wing.init_ok hw).2.2.1 0.5 rfl
  obtain ⟨h', M, c', g1, g2, -, g3⟩ := C110_overlap_violated find ptan _ _ w _ _ _ 0 hw (delta_flat _ _) rfl (by rw [h1]; norm_num) (by rw [h1]; norm_num)
    (by rw [h1]; norm_num [lineAt]) (by norm_num) (by
      rw [h1]
      rintro t ht - ⟨hx, -⟩
      simp [lineAt] at hx
      norm_num at hx ht
      linarith) n hn none (fun _ => Wing.comp ptan w n none) 0 rfl
  refine ⟨w, h', M, c', hw, g1, g2, g3 rfl ?_⟩
  intro t _ ht
  simp [lineAt]
  linarith

/-- The hypotheses of `C110_tip_violated` and of `C110_flat_wing_partial` are met by the delta wing with both break parameters. -/
example (find : (ℝ → Res ℝ) → Res ℝ) (ptan : ℝ → ℝ) (n : ℕ) (hn : 1 ≤ n) : ∃ w h' M c', Wing.init find (deltaWing "flat" (some 0.5) (some 0.75)) = .ok w ∧
    generatePatches (fun _ => Wing.comp ptan w n none) 0 = (.ok (), h') ∧ (h' 0).mesh = (.ok M, c') ∧ ¬ Closed M.tris ∧
    vectorArea2 (M.tris ++ mirrorMesh M.tris) = 0 := by
  obtain ⟨w, hw⟩ : ∃ w, Wing.init find (deltaWing "flat" (some 0.5) (some 0.75)) = .ok w := ⟨_, rfl⟩
  have h1 := (Wing.init_ok hw).2.2.1 0.5 rfl
  obtain ⟨h', M, c', g1, g2, u, v, g3, -⟩ := C110_tip_violated find ptan _ _ w _ _ _ 0 hw (delta_flat _ _) (.inr rfl) (by rw [h1]; norm_num) (by rw [h1]; norm_num)
    (by simp [deltaWing]) (by norm_num) (by
      rintro t ht - ⟨hx, -⟩
      simp [lineAt, deltaWing] at hx
      linarith) n hn none (fun _ => Wing.comp ptan w n none) 0 rfl
  obtain ⟨h'', M', c'', k1, k2, -, k3⟩ := C110_flat_wing_partial find ptan _ _ w _ _ _ 0 hw (delta_flat _ _) (.inr rfl) (by rw [h1]; norm_num)
    n hn none (fun _ => Wing.comp ptan w n none) 0 rfl
  rw [g1] at k1
  obtain rfl := (Prod.mk.inj k1).2
  rw [g2] at k2
  obtain rfl := Except.ok.inj (Prod.mk.inj k2).1
  exact ⟨w, h', M, c', hw, g1, g2, fun hc => g3 (hc u v), k3 rfl rfl⟩

end HV
