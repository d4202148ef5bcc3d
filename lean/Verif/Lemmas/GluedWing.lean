import Verif.Lemmas.Glued

/-!
# Wings as grids that fit together
-/

namespace HV
open Spec Veh

theorem param_mem {n : ℕ} (hn : 1 ≤ n) {a b : ℝ} (m0 : a ∈ Set.Icc (0 : ℝ) 1) (m1 : b ∈ Set.Icc (0 : ℝ) 1) {i : ℕ} (hi : i ≤ n) :
    a + (i : ℝ) / n * (b - a) ∈ Set.Icc (0 : ℝ) 1 := by
  have u0 : (0 : ℝ) ≤ (i : ℝ) / n := by positivity
  have u1 : (i : ℝ) / n ≤ 1 := (div_le_one (by positivity)).2 (by exact_mod_cast hi)
  constructor
  · nlinarith [m0.1, m1.1]
  · nlinarith [m0.2, m1.2]

theorem crv_in {n : ℕ} (hn : 1 ≤ n) {R : V → Prop} {F : ℝ → V} (h : ∀ t ∈ Set.Icc (0 : ℝ) 1, R (F t)) {a b : ℝ} (m0 : a ∈ Set.Icc (0 : ℝ) 1)
    (m1 : b ∈ Set.Icc (0 : ℝ) 1) {i : ℕ} (hi : i ≤ n) : R (crv n F a b i) := h _ (param_mem hn m0 m1 hi)

/-- The curves that bound the patches of a wing run through the region. -/
structure WingIn (ptan : ℝ → ℝ) (R : V → Prop) (w : Wing.State) (s : WingShape) : Prop where
  conv : ∀ u v, ∀ t ∈ Set.Icc (0 : ℝ) 1, R u → R v → R (lineAt u v t)
  rear : ∀ h, h = s.ht ∨ h = s.hb → ∀ t ∈ Set.Icc (0 : ℝ) 1, R (liftBy h (lineAt w.args.A0 w.args.A1 t))
  front : ∀ h, h = s.ht ∨ h = s.hb → ∀ t ∈ Set.Icc (0 : ℝ) 1, R (liftBy h (lineAt w.args.A1 w.args.TT t))
  chord : ∀ h, h = s.ht ∨ h = s.hb → ∀ t ∈ Set.Icc (0 : ℝ) 1, R (liftBy h (lineAt w.args.A1 (s.L w.t_B1) t))
  trail : ∀ h, h = s.ht ∨ h = s.hb → ∀ t ∈ Set.Icc (0 : ℝ) 1, R (liftBy h (lineAt w.args.A0 w.args.B0 t))
  edge : ∀ h, h = s.ht ∨ h = s.hb → ∀ t ∈ Set.Icc (0 : ℝ) 1, R (liftBy h (s.L t))
  rim : ∀ top, ∀ t ∈ Set.Icc (0 : ℝ) 1, ∀ r ∈ Set.Icc (0 : ℝ) 1, R (s.rim ptan top t r)
  tipA : R (flapTip w s w.args.A0)
  tipB : R (flapTip w s w.args.B0)

section
variable {ptan : ℝ → ℝ} {D : ℝ → ℝ → Prop} {w : Wing.State} {s : WingShape} {t2 g : ℝ} (h : WingOk ptan D w s t2 g) (n : ℕ) (hn : 1 ≤ n)
  {R : V → Prop} (hR : WingIn ptan R w s)
include h hn hR

omit h in
theorem WingIn.rims {t : ℝ} (ht : t ∈ Set.Icc (0 : ℝ) 1) {i : ℕ} (hi : i ≤ n) : R (s.rimTop ptan n t i) ∧ R (s.rimBot ptan n t i) := by
  have hm : (i : ℝ) / n ∈ Set.Icc (0 : ℝ) 1 := ⟨by positivity, (div_le_one (by positivity)).2 (by exact_mod_cast hi)⟩
  constructor
  · unfold WingShape.rimTop
    split_ifs
    · exact hR.edge _ (.inl rfl) t ht
    · exact hR.rim _ t ht _ hm
  · unfold WingShape.rimBot
    split_ifs
    · exact hR.edge _ (.inr rfl) t ht
    · exact hR.rim _ t ht _ hm

theorem WingIn.noses {t : ℝ} (ht : t ∈ Set.Icc (0 : ℝ) 1) : R (s.nose t) := by
  rw [← (h.shape.rim_nose ht).1]
  exact hR.rim _ t ht _ ⟨zero_le_one, le_rfl⟩

theorem WingIn.les {a b : ℝ} (m0 : a ∈ Set.Icc (0 : ℝ) 1) (m1 : b ∈ Set.Icc (0 : ℝ) 1) :
    (s.leTop ptan n a b).In n R ∧ (s.leBot ptan n a b).In n R := by
  constructor
  · intro i hi
    exact ⟨crv_in hn (fun t ht => hR.edge _ (.inl rfl) t ht) m1 m0 hi, crv_in hn (fun t ht => WingIn.noses h n hn hR ht) m1 m0 hi,
      (hR.rims n hn m1 hi).1, (hR.rims n hn m0 hi).1⟩
  · intro i hi
    exact ⟨crv_in hn (fun t ht => WingIn.noses h n hn hR ht) m1 m0 hi, crv_in hn (fun t ht => hR.edge _ (.inr rfl) t ht) m1 m0 hi,
      (hR.rims n hn m1 hi).2, (hR.rims n hn m0 hi).2⟩

/-- A wing that is not closed, with its root in the plane `y = 0`: its patches fit together except in that plane. -/
theorem wing_glued_open (hc : w.args.close_wing = false) (r0 : w.args.A0.y = 0) (r1 : w.args.A1.y = 0) (rT : w.args.TT.y = 0) :
    ∃ ls Gs, List.Forall₂ (fun (r : Res (List (String × Surf))) l => r = .ok l) (Wing.stages ptan w) ls ∧ GridsOf n ls.flatten Gs ∧
      Glued n g R (fun v => v.y = 0) Gs := by
  obtain ⟨F0, F1, F2, F3, P0, P1, P2, P3, hs, -, -, fs, gs⟩ := wing_skins h.toWingBase n hn g h.shape.gap_nonneg
  obtain ⟨le, hle, fle⟩ := wing_leading h n hn
  obtain ⟨fl, Q0, Q1, hfl, ffl, gf0, gf1⟩ := wing_flap h.toWingBase n hn g h.shape.gap_nonneg
  obtain ⟨te, P, hte, fte, gte⟩ := wing_tele h n hn
  have z0 : (0 : ℝ) ∈ Set.Icc (0 : ℝ) 1 := ⟨le_rfl, zero_le_one⟩
  have z1 : (1 : ℝ) ∈ Set.Icc (0 : ℝ) 1 := ⟨zero_le_one, le_rfl⟩
  have flip : ∀ u ∈ Set.Icc (0 : ℝ) 1, 1 - u ∈ Set.Icc (0 : ℝ) 1 := fun u hu => ⟨by linarith [hu.2], by linarith [hu.1]⟩
  have hseg : ∀ u v, R u → R v → ∀ i ≤ n, R (seg n u v i) := by
    intro u v hu hv i hi
    exact hR.conv _ _ _ ⟨by positivity, (div_le_one (by positivity)).2 (by exact_mod_cast hi)⟩ hu hv
  have cB0 : ∀ f, f = s.ht ∨ f = s.hb → R (liftBy f w.args.B0) := fun f hf => by rw [← h.L0]; exact hR.edge f hf 0 z0
  have cA0 : ∀ f, f = s.ht ∨ f = s.hb → R (liftBy f w.args.A0) := fun f hf => by
    have := hR.rear f hf 0 z0
    rwa [lineAt_zero] at this
  have T := fun (i : ℕ) (hi : i ≤ n) {a b : ℝ} (m0 : a ∈ Set.Icc (0 : ℝ) 1) (m1 : b ∈ Set.Icc (0 : ℝ) 1) =>
    crv_in hn (F := s.T) (fun t ht => hR.edge _ (.inl rfl) t ht) m0 m1 hi
  have Bt := fun (i : ℕ) (hi : i ≤ n) {a b : ℝ} (m0 : a ∈ Set.Icc (0 : ℝ) 1) (m1 : b ∈ Set.Icc (0 : ℝ) 1) =>
    crv_in hn (F := s.B) (fun t ht => hR.edge _ (.inr rfl) t ht) m0 m1 hi
  have cin : ∀ (f : ℝ → ℝ → ℝ) (u v : V), (∀ t ∈ Set.Icc (0 : ℝ) 1, R (liftBy f (lineAt u v t))) → ∀ i ≤ n, R (crv n (liftBy f ∘ lineAt u v) 0 1 i) :=
    fun f u v hf i hi => crv_in hn (F := liftBy f ∘ lineAt u v) hf z0 z1 hi
  have cin' : ∀ (f : ℝ → ℝ → ℝ) (u v : V), (∀ t ∈ Set.Icc (0 : ℝ) 1, R (liftBy f (lineAt u v t))) → ∀ i ≤ n, R (crv n (liftBy f ∘ lineAt v u) 0 1 i) :=
    fun f u v hf i hi => crv_in hn (F := liftBy f ∘ lineAt v u) (fun t ht => by
      show R (liftBy f (lineAt v u t))
      rw [lineAt_flip]
      exact hf _ (flip t ht)) z0 z1 hi
  refine ⟨[[("top_patch_0", F0), ("top_patch_1", F1), ("bot_patch_0", F2), ("bot_patch_1", F3)], le, fl, te], _, by
      unfold Wing.stages
      simp only [hc, Bool.false_eq_true, if_false, List.append_nil]
      exact .cons hs (.cons hle (.cons hfl (.cons hte .nil))), grids_samples (by
      rw [List.flatten_cons, List.flatten_cons, List.flatten_cons, List.flatten_cons, List.flatten_nil, List.append_nil]
      exact List.rel_append fs (List.rel_append fle (List.rel_append ffl fte))), glued_panels n hn g R _ _ ?_ ?_ ?_⟩
  · intro p hp
    rw [List.mem_append, List.mem_append, List.mem_append] at hp
    rcases hp with hp | hp | hp | hp
    · exact gs p hp
    · simp only [List.mem_cons, List.not_mem_nil, or_false] at hp
      rcases hp with rfl | rfl | rfl | rfl | rfl | rfl
      · exact h.shape.leTop_good hn z0 h.t1mem
      · exact h.shape.leTop_good hn h.t1mem h.t2mem
      · exact h.shape.leTop_good hn h.t2mem z1
      · exact h.shape.leBot_good hn z0 h.t1mem
      · exact h.shape.leBot_good hn h.t1mem h.t2mem
      · exact h.shape.leBot_good hn h.t2mem z1
    · simp only [List.mem_cons, List.not_mem_nil, or_false] at hp
      rcases hp with rfl | rfl
      · exact gf0
      · exact gf1
    · simp only [List.mem_cons, List.not_mem_nil, or_false] at hp
      subst hp
      exact gte
  · intro p hp
    simp only [List.cons_append, List.nil_append, List.mem_cons, List.not_mem_nil, or_false] at hp
    rcases hp with rfl | rfl | rfl | rfl | rfl | rfl | rfl | rfl | rfl | rfl | rfl | rfl | rfl
    · exact fun i hi => ⟨cin' _ _ _ (hR.rear _ (.inl rfl)) i hi, T i hi h.t1mem z0, cin _ _ _ (hR.chord _ (.inl rfl)) i hi,
        cin _ _ _ (hR.trail _ (.inl rfl)) i hi⟩
    · exact fun i hi => ⟨cin' _ _ _ (hR.front _ (.inl rfl)) i hi, T i hi h.t2mem h.t1mem, T i hi z1 h.t2mem,
        cin _ _ _ (hR.chord _ (.inl rfl)) i hi⟩
    · exact fun i hi => ⟨cin _ _ _ (hR.rear _ (.inr rfl)) i hi, Bt i hi z0 h.t1mem, cin _ _ _ (hR.trail _ (.inr rfl)) i hi,
        cin _ _ _ (hR.chord _ (.inr rfl)) i hi⟩
    · exact fun i hi => ⟨cin _ _ _ (hR.front _ (.inr rfl)) i hi, Bt i hi h.t1mem h.t2mem, cin _ _ _ (hR.chord _ (.inr rfl)) i hi,
        Bt i hi z1 h.t2mem⟩
    · exact (WingIn.les h n hn hR z0 h.t1mem).1
    · exact (WingIn.les h n hn hR h.t1mem h.t2mem).1
    · exact (WingIn.les h n hn hR h.t2mem z1).1
    · exact (WingIn.les h n hn hR z0 h.t1mem).2
    · exact (WingIn.les h n hn hR h.t1mem h.t2mem).2
    · exact (WingIn.les h n hn hR h.t2mem z1).2
    · exact fun i hi => ⟨hseg _ _ hR.tipA hR.tipB i hi, cin _ _ _ (hR.trail _ (.inl rfl)) i hi, hseg _ _ hR.tipA (cA0 _ (.inl rfl)) i hi,
        hseg _ _ hR.tipB (cB0 _ (.inl rfl)) i hi⟩
    · exact fun i hi => ⟨cin _ _ _ (hR.trail _ (.inr rfl)) i hi, hseg _ _ hR.tipA hR.tipB i hi, hseg _ _ (cA0 _ (.inr rfl)) hR.tipA i hi,
        hseg _ _ (cB0 _ (.inr rfl)) hR.tipB i hi⟩
    · exact fun i hi => ⟨hseg _ _ (cB0 _ (.inl rfl)) hR.tipB i hi, (hR.rims n hn z0 hi).2, (hR.rims n hn z0 hi).1,
        hseg _ _ hR.tipB (cB0 _ (.inr rfl)) i hi⟩
  · intro φ hφ hK
    have r := pathSum_seg φ hφ n hn
    have q := pathSum_crv φ hφ n hn
    have flat : ∀ p : ℕ → V, (∀ i ≤ n, (p i).y = 0) → pathSum φ p n = 0 := by
      intro p hp
      unfold pathSum
      apply Finset.sum_eq_zero
      intro i hi
      have := Finset.mem_range.1 hi
      exact hK _ _ (hp _ (by omega)) (hp _ (by omega))
    have y1 : ∀ (f : ℝ → ℝ → ℝ) (u v : V), u.y = 0 → v.y = 0 → pathSum φ (crv n (liftBy f ∘ lineAt u v) 0 1) n = 0 := by
      intro f u v hu hv
      apply flat
      intro i _
      simp only [crv, Function.comp, liftBy, lineAt, Vec.add_y, Vec.mul_y, hu, hv]; ring
    have y2 : ∀ (u v : V), u.y = 0 → v.y = 0 → pathSum φ (seg n u v) n = 0 := by
      intro u v hu hv
      apply flat
      intro i _
      simp only [seg, lineAt, Vec.add_y, Vec.mul_y, hu, hv]; ring
    have yt : (flapTip w s w.args.A0).y = 0 := r0
    have hL1 : (s.L 1).y = 0 := by rw [h.L1]; exact rT
    have ha1 : angAt s.M 1 = 0 := by simp [angAt]
    have yr : ∀ top r, (s.rim ptan top 1 r).y = 0 := by
      intro top r
      simp only [WingShape.rim, ha1, swing_zero]
      simp [WingShape.M, liftBy, hL1]
    have y3 : pathSum φ (s.rimTop ptan n 1) n = 0 := by
      apply flat
      intro i _
      simp only [WingShape.rimTop]
      split_ifs
      · exact hL1
      · exact yr _ _
    have y4 : pathSum φ (s.rimBot ptan n 1) n = 0 := by
      apply flat
      intro i _
      simp only [WingShape.rimBot]
      split_ifs
      · exact hL1
      · exact yr _ _
    simp only [List.cons_append, List.nil_append, List.map_cons, List.map_nil, List.sum_cons, List.sum_nil, Panel.turn, WingShape.leTop,
      WingShape.leBot]
    linear_combination r (liftBy s.ht w.args.B0) (flapTip w s w.args.B0) + r (liftBy s.hb w.args.B0) (flapTip w s w.args.B0)
      - q s.B 0 w.t_B1 - q s.B w.t_B1 t2 + y1 s.ht _ _ r1 r0 + y1 s.ht _ _ rT r1 + y1 s.hb _ _ r0 r1 + y1 s.hb _ _ r1 rT - y3 - y4
      - y2 _ _ yt (show (liftBy s.ht w.args.A0).y = 0 from r0) - y2 _ _ (show (liftBy s.hb w.args.A0).y = 0 from r0) yt

/-- The patches of a closed wing fit together, up to the bend of the root. -/
theorem wing_glued_closed (hc : w.args.close_wing = true) (δ : ℝ)
    (bt : ∀ t ∈ Set.Icc (0 : ℝ) 1, vdist (liftBy s.ht (lineAt w.args.A0 w.args.A1 t)) (lineAt (liftBy s.ht w.args.A0) (liftBy s.ht w.args.A1) t) ≤ δ ∧
      vdist (liftBy s.ht (lineAt w.args.A1 w.args.TT t)) (lineAt (liftBy s.ht w.args.A1) (liftBy s.ht w.args.TT) t) ≤ δ)
    (bb : ∀ t ∈ Set.Icc (0 : ℝ) 1, vdist (liftBy s.hb (lineAt w.args.A0 w.args.A1 t)) (lineAt (liftBy s.hb w.args.A0) (liftBy s.hb w.args.A1) t) ≤ δ ∧
      vdist (liftBy s.hb (lineAt w.args.A1 w.args.TT t)) (lineAt (liftBy s.hb w.args.A1) (liftBy s.hb w.args.TT) t) ≤ δ) :
    ∃ ls Gs, List.Forall₂ (fun (r : Res (List (String × Surf))) l => r = .ok l) (Wing.stages ptan w) ls ∧ GridsOf n ls.flatten Gs ∧
      Glued n (g + δ) R (fun _ => False) Gs := by
  obtain ⟨F0, F1, F2, F3, P0, P1, P2, P3, hs, hF0, hF2, fs, gs⟩ := wing_skins h.toWingBase n hn g h.shape.gap_nonneg
  obtain ⟨le, hle, fle⟩ := wing_leading h n hn
  obtain ⟨fl, Q0, Q1, hfl, ffl, gf0, gf1⟩ := wing_flap h.toWingBase n hn g h.shape.gap_nonneg
  obtain ⟨te, P, hte, fte, gte⟩ := wing_tele h n hn
  obtain ⟨cl, C, hcl, fcl, gcl⟩ := wing_close h n hn F0 F2 hF0 hF2
  obtain ⟨cf, hcf, fcf⟩ := wing_closeFlap h n
  have z0 : (0 : ℝ) ∈ Set.Icc (0 : ℝ) 1 := ⟨le_rfl, zero_le_one⟩
  have z1 : (1 : ℝ) ∈ Set.Icc (0 : ℝ) 1 := ⟨zero_le_one, le_rfl⟩
  have hδ : 0 ≤ δ := (vdist_nonneg _ _).trans (bt 0 z0).1
  have hg := h.shape.gap_nonneg
  have hT1 : liftBy s.ht w.args.TT = s.T 1 := by rw [← h.L1]; rfl
  have hB1 : liftBy s.hb w.args.TT = s.B 1 := by rw [← h.L1]; rfl
  have hfrom : Wing.closeFrom ptan w = .ok cl := by
    unfold Wing.closeFrom
    rw [hs, ok_bind]
    exact hcl
  have flip : ∀ u ∈ Set.Icc (0 : ℝ) 1, 1 - u ∈ Set.Icc (0 : ℝ) 1 := fun u hu => ⟨by linarith [hu.2], by linarith [hu.1]⟩
  have hseg : ∀ u v, R u → R v → ∀ i ≤ n, R (seg n u v i) := by
    intro u v hu hv i hi
    exact hR.conv _ _ _ ⟨by positivity, (div_le_one (by positivity)).2 (by exact_mod_cast hi)⟩ hu hv
  have cB0 : ∀ f, f = s.ht ∨ f = s.hb → R (liftBy f w.args.B0) := fun f hf => by rw [← h.L0]; exact hR.edge f hf 0 z0
  have cA0 : ∀ f, f = s.ht ∨ f = s.hb → R (liftBy f w.args.A0) := fun f hf => by
    have := hR.rear f hf 0 z0
    rwa [lineAt_zero] at this
  have T := fun (i : ℕ) (hi : i ≤ n) {a b : ℝ} (m0 : a ∈ Set.Icc (0 : ℝ) 1) (m1 : b ∈ Set.Icc (0 : ℝ) 1) =>
    crv_in hn (F := s.T) (fun t ht => hR.edge _ (.inl rfl) t ht) m0 m1 hi
  have Bt := fun (i : ℕ) (hi : i ≤ n) {a b : ℝ} (m0 : a ∈ Set.Icc (0 : ℝ) 1) (m1 : b ∈ Set.Icc (0 : ℝ) 1) =>
    crv_in hn (F := s.B) (fun t ht => hR.edge _ (.inr rfl) t ht) m0 m1 hi
  have cin : ∀ (f : ℝ → ℝ → ℝ) (u v : V), (∀ t ∈ Set.Icc (0 : ℝ) 1, R (liftBy f (lineAt u v t))) → ∀ i ≤ n, R (crv n (liftBy f ∘ lineAt u v) 0 1 i) :=
    fun f u v hf i hi => crv_in hn (F := liftBy f ∘ lineAt u v) hf z0 z1 hi
  have cin' : ∀ (f : ℝ → ℝ → ℝ) (u v : V), (∀ t ∈ Set.Icc (0 : ℝ) 1, R (liftBy f (lineAt u v t))) → ∀ i ≤ n, R (crv n (liftBy f ∘ lineAt v u) 0 1 i) :=
    fun f u v hf i hi => crv_in hn (F := liftBy f ∘ lineAt v u) (fun t ht => by
      show R (liftBy f (lineAt v u t))
      rw [lineAt_flip]
      exact hf _ (flip t ht)) z0 z1 hi
  refine ⟨[[("top_patch_0", F0), ("top_patch_1", F1), ("bot_patch_0", F2), ("bot_patch_1", F3)], le, fl, te, cl, cf], _, by
      unfold Wing.stages
      simp only [hc, if_true, List.cons_append, List.nil_append]
      exact .cons hs (.cons hle (.cons hfl (.cons hte (.cons hfrom (.cons hcf .nil))))), grids_samples (ps :=
      [⟨P0, seg n (liftBy s.ht w.args.A1) (liftBy s.ht w.args.A0), crv n s.T w.t_B1 0, crv n (liftBy s.ht ∘ lineAt w.args.A1 (s.L w.t_B1)) 0 1,
          crv n (liftBy s.ht ∘ lineAt w.args.A0 w.args.B0) 0 1⟩,
       ⟨P1, seg n (s.T 1) (liftBy s.ht w.args.A1), crv n s.T t2 w.t_B1, crv n s.T 1 t2,
          crv n (liftBy s.ht ∘ lineAt w.args.A1 (s.L w.t_B1)) 0 1⟩,
       ⟨P2, seg n (liftBy s.hb w.args.A0) (liftBy s.hb w.args.A1), crv n s.B 0 w.t_B1, crv n (liftBy s.hb ∘ lineAt w.args.A0 w.args.B0) 0 1,
          crv n (liftBy s.hb ∘ lineAt w.args.A1 (s.L w.t_B1)) 0 1⟩,
       ⟨P3, seg n (liftBy s.hb w.args.A1) (s.B 1), crv n s.B w.t_B1 t2, crv n (liftBy s.hb ∘ lineAt w.args.A1 (s.L w.t_B1)) 0 1,
          crv n s.B 1 t2⟩] ++ _) (by
      rw [List.flatten_cons, List.flatten_cons, List.flatten_cons, List.flatten_cons, List.flatten_cons, List.flatten_cons, List.flatten_nil,
        List.append_nil]
      refine List.rel_append ?_ (List.rel_append fle (List.rel_append ffl (List.rel_append fte (List.rel_append fcl fcf))))
      rcases fs with _ | ⟨a0, _ | ⟨a1, _ | ⟨a2, _ | ⟨a3, _⟩⟩⟩⟩
      exact .cons a0 (.cons a1 (.cons a2 (.cons a3 .nil)))), ?_⟩
  have mono : ∀ p : Panel, p.Good n g → p.Good n (g + δ) := fun p hp => hp.mono (by linarith)
  have hquad := quad_good n hn (g + δ) (by linarith)
  have hmem : ∀ i ≤ n, (i : ℝ) / n ∈ Set.Icc (0 : ℝ) 1 := fun i hi =>
    ⟨by positivity, (div_le_one (by positivity)).2 (by exact_mod_cast hi)⟩
  have hflip : ∀ i ≤ n, 1 - (i : ℝ) / n ∈ Set.Icc (0 : ℝ) 1 := fun i hi => ⟨by linarith [(hmem i hi).2], by linarith [(hmem i hi).1]⟩
  have hcr : ∀ (F : ℝ → V) (i : ℕ), crv n F 0 1 i = F ((i : ℝ) / n) := fun F i => by simp [crv]
  apply glued_panels n hn (g + δ) R
  · intro p hp
    rw [List.mem_append, List.mem_append, List.mem_append, List.mem_append, List.mem_append] at hp
    rcases hp with hp | hp | hp | hp | hp | hp
    · have s0 := gs _ (List.mem_cons_self)
      have s1 := gs _ (List.mem_cons_of_mem _ List.mem_cons_self)
      have s2 := gs _ (List.mem_cons_of_mem _ (List.mem_cons_of_mem _ List.mem_cons_self))
      have s3 := gs _ (List.mem_cons_of_mem _ (List.mem_cons_of_mem _ (List.mem_cons_of_mem _ List.mem_cons_self)))
      simp only [List.mem_cons, List.not_mem_nil, or_false] at hp
      rcases hp with rfl | rfl | rfl | rfl
      · refine s0.resouth hδ _ (by simp only [seg_zero, crv_zero, Function.comp, lineAt_zero]) (by simp only [seg_last n hn, crv_last n hn, Function.comp, lineAt_one]) ?_
        intro i hi
        simp only [hcr, Function.comp, seg]
        rw [lineAt_flip, lineAt_flip (liftBy s.ht w.args.A0)]
        exact (bt _ (hflip i hi)).1
      · refine s1.resouth hδ _ (by simp only [seg_zero, crv_zero, Function.comp, lineAt_zero, hT1])
          (by simp only [seg_last n hn, crv_last n hn, Function.comp, lineAt_one]) ?_
        intro i hi
        simp only [hcr, Function.comp, seg]
        rw [lineAt_flip, lineAt_flip (liftBy s.ht w.args.A1), ← hT1]
        exact (bt _ (hflip i hi)).2
      · refine s2.resouth hδ _ (by simp only [seg_zero, crv_zero, Function.comp, lineAt_zero]) (by simp only [seg_last n hn, crv_last n hn, Function.comp, lineAt_one]) ?_
        intro i hi
        simp only [hcr, Function.comp, seg]
        exact (bb _ (hmem i hi)).1
      · refine s3.resouth hδ _ (by simp only [seg_zero, crv_zero, Function.comp, lineAt_zero])
          (by simp only [seg_last n hn, crv_last n hn, Function.comp, lineAt_one, hB1]) ?_
        intro i hi
        simp only [hcr, Function.comp, seg]
        rw [← hB1]
        exact (bb _ (hmem i hi)).2
    · simp only [List.mem_cons, List.not_mem_nil, or_false] at hp
      apply mono
      rcases hp with rfl | rfl | rfl | rfl | rfl | rfl
      · exact h.shape.leTop_good hn z0 h.t1mem
      · exact h.shape.leTop_good hn h.t1mem h.t2mem
      · exact h.shape.leTop_good hn h.t2mem z1
      · exact h.shape.leBot_good hn z0 h.t1mem
      · exact h.shape.leBot_good hn h.t1mem h.t2mem
      · exact h.shape.leBot_good hn h.t2mem z1
    · simp only [List.mem_cons, List.not_mem_nil, or_false] at hp
      rcases hp with rfl | rfl
      · exact mono _ gf0
      · exact mono _ gf1
    · simp only [List.mem_cons, List.not_mem_nil, or_false] at hp
      subst hp
      exact mono _ gte
    · simp only [List.mem_cons, List.not_mem_nil, or_false] at hp
      rcases hp with rfl | rfl | rfl | rfl | rfl
      · exact hquad _ _ _ _
      · exact hquad _ _ _ _
      · exact hquad _ _ _ _
      · exact hquad _ _ _ _
      · exact mono _ gcl
    · simp only [List.mem_cons, List.not_mem_nil, or_false] at hp
      subst hp
      exact hquad _ _ _ _
  · intro p hp
    have cA1 : ∀ f, f = s.ht ∨ f = s.hb → R (liftBy f w.args.A1) := fun f hf => by
      have := hR.rear f hf 1 z1
      rwa [lineAt_one] at this
    have mid : ∀ p : V, R (liftBy s.ht p) → R (liftBy s.hb p) → R (liftBy (midH s.ht s.hb) p) := fun p h1 h2 => by
      have := hR.conv _ _ (1 / 2) ⟨by norm_num, by norm_num⟩ h1 h2
      rwa [show lineAt (liftBy s.ht p) (liftBy s.hb p) (1 / 2) = liftBy (midH s.ht s.hb) p by
        ext <;> simp [lineAt, liftBy, midH] <;> ring] at this
    have cT1 : R (s.T 1) := hR.edge _ (.inl rfl) 1 z1
    have cB1 : R (s.B 1) := hR.edge _ (.inr rfl) 1 z1
    have cM1 : R (s.M 1) := mid _ cT1 cB1
    have mA0 := mid _ (cA0 _ (.inl rfl)) (cA0 _ (.inr rfl))
    have mA1 := mid _ (cA1 _ (.inl rfl)) (cA1 _ (.inr rfl))
    have hq : ∀ a b c d : V, R a → R b → R c → R d → (quad n a b c d).In n R := fun a b c d ha hb hc hd i hi =>
      ⟨hseg _ _ ha hb i hi, hseg _ _ hd hc i hi, hseg _ _ ha hd i hi, hseg _ _ hb hc i hi⟩
    simp only [List.cons_append, List.nil_append, List.mem_cons, List.not_mem_nil, or_false] at hp
    rcases hp with rfl | rfl | rfl | rfl | rfl | rfl | rfl | rfl | rfl | rfl | rfl | rfl | rfl | rfl | rfl | rfl | rfl | rfl | rfl
    · exact fun i hi => ⟨hseg _ _ (cA1 _ (.inl rfl)) (cA0 _ (.inl rfl)) i hi, T i hi h.t1mem z0, cin _ _ _ (hR.chord _ (.inl rfl)) i hi,
        cin _ _ _ (hR.trail _ (.inl rfl)) i hi⟩
    · exact fun i hi => ⟨hseg _ _ cT1 (cA1 _ (.inl rfl)) i hi, T i hi h.t2mem h.t1mem, T i hi z1 h.t2mem,
        cin _ _ _ (hR.chord _ (.inl rfl)) i hi⟩
    · exact fun i hi => ⟨hseg _ _ (cA0 _ (.inr rfl)) (cA1 _ (.inr rfl)) i hi, Bt i hi z0 h.t1mem, cin _ _ _ (hR.trail _ (.inr rfl)) i hi,
        cin _ _ _ (hR.chord _ (.inr rfl)) i hi⟩
    · exact fun i hi => ⟨hseg _ _ (cA1 _ (.inr rfl)) cB1 i hi, Bt i hi h.t1mem h.t2mem, cin _ _ _ (hR.chord _ (.inr rfl)) i hi,
        Bt i hi z1 h.t2mem⟩
    · exact (WingIn.les h n hn hR z0 h.t1mem).1
    · exact (WingIn.les h n hn hR h.t1mem h.t2mem).1
    · exact (WingIn.les h n hn hR h.t2mem z1).1
    · exact (WingIn.les h n hn hR z0 h.t1mem).2
    · exact (WingIn.les h n hn hR h.t1mem h.t2mem).2
    · exact (WingIn.les h n hn hR h.t2mem z1).2
    · exact fun i hi => ⟨hseg _ _ hR.tipA hR.tipB i hi, cin _ _ _ (hR.trail _ (.inl rfl)) i hi, hseg _ _ hR.tipA (cA0 _ (.inl rfl)) i hi,
        hseg _ _ hR.tipB (cB0 _ (.inl rfl)) i hi⟩
    · exact fun i hi => ⟨cin _ _ _ (hR.trail _ (.inr rfl)) i hi, hseg _ _ hR.tipA hR.tipB i hi, hseg _ _ (cA0 _ (.inr rfl)) hR.tipA i hi,
        hseg _ _ (cB0 _ (.inr rfl)) hR.tipB i hi⟩
    · exact fun i hi => ⟨hseg _ _ (cB0 _ (.inl rfl)) hR.tipB i hi, (hR.rims n hn z0 hi).2, (hR.rims n hn z0 hi).1,
        hseg _ _ hR.tipB (cB0 _ (.inr rfl)) i hi⟩
    · exact hq _ _ _ _ (cA0 _ (.inl rfl)) (cA1 _ (.inl rfl)) mA1 mA0
    · exact hq _ _ _ _ (cA1 _ (.inl rfl)) cT1 cM1 mA1
    · exact hq _ _ _ _ mA0 mA1 (cA1 _ (.inr rfl)) (cA0 _ (.inr rfl))
    · exact hq _ _ _ _ mA1 cM1 cB1 (cA1 _ (.inr rfl))
    · exact fun i hi => ⟨hseg _ _ cM1 cT1 i hi, (hR.rims n hn z1 (by omega)).2, hseg _ _ cM1 cB1 i hi, (hR.rims n hn z1 hi).1⟩
    · exact hq _ _ _ _ mA0 (cA0 _ (.inr rfl)) hR.tipA (cA0 _ (.inl rfl))
  · intro φ hφ _
    have r := pathSum_seg φ hφ n hn
    have q := pathSum_crv φ hφ n hn
    simp only [List.cons_append, List.nil_append, List.map_cons, List.map_nil, List.sum_cons, List.sum_nil, Panel.turn, WingShape.leTop,
      WingShape.leBot, quad]
    rw [pathSum_reverse φ hφ]
    linear_combination r (liftBy s.ht w.args.B0) (flapTip w s w.args.B0) + r (liftBy s.hb w.args.B0) (flapTip w s w.args.B0)
      - q s.B 0 w.t_B1 - q s.B w.t_B1 t2 + r (liftBy s.ht w.args.A0) (liftBy s.ht w.args.A1) + r (liftBy s.ht w.args.A1) (s.T 1)
      - r (liftBy s.ht w.args.A0) (flapTip w s w.args.A0) - r (liftBy s.ht w.args.A0) (liftBy (midH s.ht s.hb) w.args.A0) + r (s.T 1) (s.M 1)


end

/-- The patches of a wing whose stages succeed. -/
theorem wing_items {ptan : ℝ → ℝ} {w : Wing.State} {ls : List (List (String × Surf))}
    (hst : List.Forall₂ (fun (r : Res (List (String × Surf))) l => r = .ok l) (Wing.stages ptan w) ls) :
    (runStages (Wing.stages ptan w)).err = none ∧ (runStages (Wing.stages ptan w)).items = ls.flatten ∧ (ls.flatten.map Prod.fst).Nodup ∧
      ls.flatten ≠ [] ∧ ls.flatten.map Prod.fst = (Wing.stageNames w).flatten := by
  have herr : (runStages (Wing.stages ptan w)).err = none ∧ (runStages (Wing.stages ptan w)).items = ls.flatten := by
    have : ∀ L (ls : List (List (String × Surf))), List.Forall₂ (fun (r : Res (List (String × Surf))) l => r = .ok l) L ls →
        (runStages L).err = none ∧ (runStages L).items = ls.flatten := by
      intro L ls h
      induction h with
      | nil => exact ⟨rfl, rfl⟩
      | @cons r l L ls hd _ ih => subst hd; exact ⟨ih.1, by simp [runStages, ih.2]⟩
    exact this _ _ hst
  have hnames := Wing.names_of_stages hst
  have hnd := Wing.stageNames_nodup w
  have hnn : (Wing.stageNames w).flatten ≠ [] := by simp [Wing.stageNames]
  have hf : ls.flatten.map Prod.fst = (Wing.stageNames w).flatten := by rw [List.map_flatten, hnames]
  refine ⟨herr.1, herr.2, by rw [hf]; exact hnd, ?_, hf⟩
  intro h0
  rw [h0] at hf
  exact hnn hf.symm

/-- Generating a component of the assigning kind, and bending it. -/
theorem curved_leaf (H : Heap) (id : ℕ) (out : Reso → GenOut) (hgen : (H id).gen = .into out) (n : ℕ) (hn : 1 ≤ n)
    (hres : (H id).stl_resolution = .int n) (hp0 : (H id).patches = []) (hm : (H id).mesh_ = none) (hs : (H id).surfaces = none)
    (hcl : (H id).clustering = {}) (herr : (out (.int n)).err = none) (hk : ((out (.int n)).items.map Prod.fst).Nodup)
    (hne : (out (.int n)).items ≠ []) (Gs : List (ℕ → ℕ → V)) (hG : GridsOf n (out (.int n)).items Gs)
    (hmo : (H id).modifier = none) (l : List Curvature) (hcu : (H id).curvatures = some l)
    (hl : ∀ k ∈ l, (k.direction = "x" ∨ k.direction = "y") ∧ ∀ x y, ∃ f m, k.fn x y = .ok f ∧ k.fn_dash x y = .ok m)
    (htr : (H id).transformations = []) :
    ∃ g, generatePatches H id = (.ok (), g) ∧
      ((H id).reflection_axis = none → ∃ c M c'', pipeline 0 (g id) = (.ok (), c) ∧ c.mesh = (.ok M, c'') ∧
        M.tris = ((Gs.map fun G i j => curveAll l (G i j)).map (gridMesh MeshArith.real false n n)).flatten) ∧
      (∀ (a : String) (i : Fin 3), NamesAxis a i → AxisUsed (H id).reflection_axis none a →
        (∀ k ∈ (out (.int n)).items.map Prod.fst, k ++ "_mirrored" ∉ (out (.int n)).items.map Prod.fst) →
        ∃ c M c'', pipeline 0 (g id) = (.ok (), c) ∧ c.mesh = (.ok M, c'') ∧
          M.tris = (if (H id).append_reflection then ((Gs.map fun G i j => curveAll l (G i j)).map (gridMesh MeshArith.real false n n)).flatten
            else []) ++ mapVerts (mirrorV i) ((Gs.map fun G i j => curveAll l (G i j)).map (gridMesh MeshArith.real false n n)).flatten) := by
  have hg : generatePatches H id = (.ok (), H.upd id ((H id).genInto (out (.int n))).2) := by
    simp only [generatePatches, Composite.genLeaf, hgen, Comp.genInto, hres, herr]
  set o := ((H id).genInto (out (.int n))).2 with ho
  have hpat : o.patches = (out (.int n)).items := by
    simp only [ho, Comp.genInto, hp0]
    exact Dict.setAll_nil_nodup _ hk
  refine ⟨_, hg, ?_⟩
  rw [upd_self]
  have e1 : o.applyModifier = o := by
    unfold Comp.applyModifier
    rw [show o.modifier = none from hmo]
  have hoc : o.curvatures = some l := hcu
  have ha := curve_maps o l hoc hl
  have hS : GridsOf n o.curve.patches (Gs.map fun G i j => curveAll l (G i j)) := samples_acts ha (by rw [hpat]; exact hG)
  have hnm : o.curve.patches.map Prod.fst = (out (.int n)).items.map Prod.fst := by rw [acts_names ha, hpat]
  have q1 : o.curve.stl_resolution = .int n := (congrArg Comp.stl_resolution ha.1 :).trans hres
  have q2 : o.curve.mesh_ = none := (congrArg Comp.mesh_ ha.1 :).trans hm
  have q3 : o.curve.surfaces = none := (congrArg Comp.surfaces ha.1 :).trans hs
  have q4 : o.curve.clustering = {} := (congrArg Comp.clustering ha.1 :).trans hcl
  have q5 : o.curve.transformations = [] := (congrArg Comp.transformations ha.1 :).trans htr
  have q6 : o.curve.reflection_axis = (H id).reflection_axis := (congrArg Comp.reflection_axis ha.1 :)
  have q7 : o.curve.append_reflection = (H id).append_reflection := (congrArg Comp.append_reflection ha.1 :)
  have hne' : o.curve.patches ≠ [] := by
    intro h0
    rw [h0] at hnm
    exact hne (List.map_eq_nil_iff.1 hnm.symm)
  obtain ⟨M, c', m1, m2⟩ := samples_mesh o.curve n hn q1 q2 q3 q4 (by rw [hnm]; exact hk) hne' _ hS
  have hpipe : ∀ c : Comp, o.curve.reflect none = c → c.transformations = [] → pipeline 0 o = (.ok (), c) := by
    intro c hc ht
    unfold pipeline
    rw [e1, rotate_zero, hc]
    unfold Comp.transform
    rw [ht]; rfl
  constructor
  · intro hax
    have hr : o.curve.reflect none = o.curve := by
      unfold Comp.reflect
      rw [q6, hax]
      rfl
    exact ⟨_, M, c', hpipe _ hr q5, m1, m2⟩
  · intro a i hna hax hmir
    have hax' : AxisUsed o.curve.reflection_axis none a := by rw [q6]; exact hax
    have hnd : (o.curve.patches.map Prod.fst).Nodup := by rw [hnm]; exact hk
    by_cases happ : (H id).append_reflection = true
    · have happ' : o.curve.append_reflection = true := by rw [q7]; exact happ
      obtain ⟨M2, c2, k1, k2, -⟩ := C51_violated o.curve a i hna n hn q1 q2 q3 hnd (by rw [hnm]; exact hmir) hax' happ' M c' m1
      refine ⟨_, M2, c2, hpipe _ rfl ?_, k1, ?_⟩
      · rw [C50_append_partial o.curve none a hax' hnd happ' (by rw [hnm]; exact hmir)]; exact q5
      · rw [k2, m2, happ]; rfl
    · rw [Bool.not_eq_true] at happ
      have happ' : o.curve.append_reflection = false := by rw [q7]; exact happ
      obtain ⟨M2, c2, k1, k2, -⟩ := C51_replace_partial o.curve a i hna n hn q1 q2 q3 hnd hax' happ' M c' m1
      refine ⟨_, M2, c2, hpipe _ rfl ?_, k1, ?_⟩
      · rw [C50_replace o.curve none a hax' hnd happ']; exact q5
      · rw [k2, m2, happ]; rfl

end HV
