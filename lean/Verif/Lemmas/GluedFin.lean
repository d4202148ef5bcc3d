import Verif.Lemmas.GluedWing
import Verif.Props.Curved
import Verif.Props.FinClosed

/-!
# Fins as grids that fit together
-/

namespace HV
open Spec Veh

/-- The ball around `c`. -/
def Spec.Ball (c : V) (ρ : ℝ) (v : V) : Prop := vdist v c ≤ ρ

theorem ball_conv {c u v : V} {ρ t : ℝ} (ht : t ∈ Set.Icc (0 : ℝ) 1) (hu : Ball c ρ u) (hv : Ball c ρ v) : Ball c ρ (lineAt u v t) := by
  have := (convex_closedBall (toE c) ρ) (Metric.mem_closedBall.2 (show dist (toE u) (toE c) ≤ ρ from hu))
    (Metric.mem_closedBall.2 (show dist (toE v) (toE c) ≤ ρ from hv)) (sub_nonneg.2 ht.2) ht.1 (by ring)
  rw [Metric.mem_closedBall] at this
  unfold Ball vdist lineAt
  rw [Vec.toE_add, Vec.toE_mul, Vec.toE_mul]
  exact this

theorem ball_step {c u v : V} {ρ σ : ℝ} (hu : Ball c (ρ - σ) u) (hv : |v.x| + |v.y| + |v.z| ≤ σ) : Ball c ρ (u + v) := by
  have h1 : vdist (u + v) u ≤ |v.x| + |v.y| + |v.z| := vdist_le_of (by simp) (by simp) (by simp)
  have h2 := vdist_triangle (u + v) u c
  unfold Ball at *
  linarith

theorem ball_box {c v : V} {ρ X Y Z : ℝ} (hx : |c.x| + ρ ≤ X) (hy : |c.y| + ρ ≤ Y) (hz : |c.z| + ρ ≤ Z) (h : Ball c ρ v) : Box X Y Z v := by
  obtain ⟨a, b, d⟩ := vdist_coords v c
  unfold Ball at h
  have key : ∀ s t : ℝ, |s - t| ≤ vdist v c → |s| ≤ |t| + ρ := by
    intro s t hst
    have := abs_sub_abs_le_abs_sub s t
    linarith
  exact ⟨(key _ _ a).trans hx, (key _ _ b).trans hy, (key _ _ d).trans hz⟩

/-- The points of a broken line. -/
theorem Broken.within {p1 p2 p3 : V} {PL : ℝ → V} (hb : Broken p1 p2 p3 PL) (h12 : p1 ≠ p2) (h23 : p2 ≠ p3) {R : V → Prop}
    (hc : ∀ u v, ∀ t ∈ Set.Icc (0 : ℝ) 1, R u → R v → R (lineAt u v t)) (r1 : R p1) (r2 : R p2) (r3 : R p3) {t : ℝ} (ht : t ∈ Set.Icc (0 : ℝ) 1) :
    R (PL t) := by
  obtain ⟨h0, h1⟩ := breakAt_mem p1 p2 p3 h12 h23
  set β := breakAt p1 p2 p3 with hβ
  by_cases hle : t ≤ β
  · have e : t = β * (t / β) := by field_simp
    rw [e, hb.first _ (by have := ht.1; positivity) ((div_le_one h0).2 hle)]
    exact hc _ _ _ ⟨by have := ht.1; positivity, (div_le_one h0).2 hle⟩ r1 r2
  · push Not at hle
    have hpos : 0 < 1 - β := by linarith
    have m : (1 - t) / (1 - β) ∈ Set.Icc (0 : ℝ) 1 := ⟨div_nonneg (by linarith [ht.2]) hpos.le, (div_le_one hpos).2 (by linarith)⟩
    have e : t = 1 - (1 - β) * ((1 - t) / (1 - β)) := by field_simp; ring
    rw [e, hb.second _ m.1 m.2]
    exact hc _ _ _ m r3 r2

namespace Spec

/-- The fin lies in the ball before it is placed: its corners do with a margin for the thickness and the width of the edges, and so do the tips
of the rudder. -/
structure FinBall (a : Fin.Args) (c : V) (ρ wmax : ℝ) : Prop where
  width : ∀ t ∈ Set.Icc (0 : ℝ) 1, ∀ w, a.LE_wf t = .ok w → w ≤ wmax
  corners : ∀ p, p = a.p0 ∨ p = a.p1 ∨ p = a.p2 ∨ p = a.p3 → Ball c (ρ - (a.fin_thickness / 2 + 2 * wmax)) p
  rudder : a.rudder_type = "sharp" → ∀ p, p = a.p0 ∨ p = a.p1 → Ball c ρ ⟨p.x - a.rudder_length, p.y, a.rudder_length * Real.sin a.rudder_angle⟩

end Spec

section
variable {ptan : ℝ → ℝ} {a : Fin.Args} {wmin : ℝ} {o : V}

/-- The patches of a fin before it is placed fit together, and run through the ball. -/
theorem fin_glued (find : (ℝ → Res ℝ) → Res ℝ) (η : ℝ) (hη : FindsRoot η find) (h : UniformFin ptan a wmin o) (hx : BreakFound a) (c : V)
    (ρ wmax : ℝ) (hB : FinBall a c ρ wmax) (n : ℕ) (hn : 1 ≤ n) :
    ∃ L Gs, Fin.unplaced find ptan a = .ok L ∧ L.map Prod.fst = finNames a.rudder_type ∧ GridsOf n L Gs ∧
      Glued n (finGap ptan a wmin η) (Ball c ρ) (fun _ => False) Gs := by
  obtain ⟨line, PL, tB, hl, hb, htB, hd, le, hle, fle, gle⟩ := fin_leading find η hη h hx n hn
  obtain ⟨sk, hsk, fsk⟩ := fin_skins h n
  obtain ⟨bo, Pb, hbo, fbo, gbo⟩ := fin_bottom h n hn PL hb.at_one
  have hrim := h.rim
  have hgap := h.rim.gap_nonneg
  have hη0 : 0 ≤ η := (abs_nonneg _).trans hd
  have hL : 0 ≤ brokenLength a.p1 a.p2 a.p3 := by
    unfold brokenLength; linarith [vdist_pos h.n12, vdist_pos h.n23]
  have hε : 0 ≤ finGap ptan a wmin η := by unfold finGap; positivity
  have hle' : poleGap ptan (a.fin_thickness / 2) wmin ≤ finGap ptan a wmin η := by
    unfold finGap; nlinarith [mul_nonneg hL hη0]
  have mono : ∀ p : Panel, p.Good n (poleGap ptan (a.fin_thickness / 2) wmin) → p.Good n (finGap ptan a wmin η) := fun p hp =>
    ⟨hp.sw, hp.se, hp.nw, hp.ne, fun i hi => (hp.south i hi).trans hle', fun i hi => (hp.north i hi).trans hle',
      fun i hi => (hp.west i hi).trans hle', fun i hi => (hp.east i hi).trans hle'⟩
  have hquad := quad_good n hn (finGap ptan a wmin η) hε
  -- the region
  have z0 : (0 : ℝ) ∈ Set.Icc (0 : ℝ) 1 := ⟨le_rfl, zero_le_one⟩
  have z1 : (1 : ℝ) ∈ Set.Icc (0 : ℝ) 1 := ⟨zero_le_one, le_rfl⟩
  have hmem : ∀ i ≤ n, (i : ℝ) / n ∈ Set.Icc (0 : ℝ) 1 := fun i hi =>
    ⟨by positivity, (div_le_one (by positivity)).2 (by exact_mod_cast hi)⟩
  have hwd : ∀ t ∈ Set.Icc (0 : ℝ) 1, 0 < widthAt a.LE_wf t ∧ widthAt a.LE_wf t ≤ wmax := fun t ht =>
    ⟨hrim.width_pos ht, hB.width t ht _ (hrim.width_ok ht)⟩
  have hth : 0 < a.fin_thickness / 2 := hrim.bpos
  have hwm : 0 < wmax := (hwd 0 z0).1.trans_le (hwd 0 z0).2
  have up : ∀ p : V, Ball c (ρ - (a.fin_thickness / 2 + 2 * wmax)) p → Ball c ρ (p + Fin.half a) ∧ Ball c ρ (p - Fin.half a) ∧ Ball c ρ p := by
    intro p hp
    refine ⟨ball_step hp ?_, ?_, ?_⟩
    · simp only [Fin.half, abs_zero, zero_add, abs_of_pos hth]; linarith
    · rw [show p - Fin.half a = p + ⟨0, 0, -(a.fin_thickness / 2)⟩ by ext <;> simp [Fin.half]; ring]
      refine ball_step hp ?_
      simp only [abs_zero, zero_add, abs_neg, abs_of_pos hth]; linarith
    · unfold Ball at *; linarith
  have c0 := up _ (hB.corners a.p0 (.inl rfl))
  have c1 := up _ (hB.corners a.p1 (.inr (.inl rfl)))
  have c2 := up _ (hB.corners a.p2 (.inr (.inr (.inl rfl))))
  have c3 := up _ (hB.corners a.p3 (.inr (.inr (.inr rfl))))
  have line_in : ∀ t ∈ Set.Icc (0 : ℝ) 1, Ball c (ρ - (a.fin_thickness / 2 + 2 * wmax)) (PL t) := fun t ht =>
    hb.within h.n12 h.n23 (fun _ _ _ h1 h2 h3 => ball_conv h1 h2 h3) (hB.corners a.p1 (.inr (.inl rfl))) (hB.corners a.p2 (.inr (.inr (.inl rfl))))
      (hB.corners a.p3 (.inr (.inr (.inr rfl)))) ht
  have sw : ∀ t ∈ Set.Icc (0 : ℝ) 1, ∀ (v : V) (θ : ℝ), |v.y| ≤ wmax → |v.z| ≤ a.fin_thickness / 2 → Ball c ρ (PL t + swing θ v) := by
    intro t ht v θ hy hz
    refine ball_step (line_in t ht) ?_
    obtain ⟨t1, t2⟩ := trig_le v.y θ
    simp only [swing]
    linarith
  have rimIn : ∀ top, ∀ t ∈ Set.Icc (0 : ℝ) 1, ∀ r, Ball c ρ (rimAt ptan (a.fin_thickness / 2) a.LE_wf PL top t r) := by
    intro top t ht r
    unfold rimAt ellArc
    obtain ⟨e1, e2⟩ := ellRaw_box ptan hth (hwd t ht).1 top
      (ArcLen.uMap (fun i : ℕ => ellRaw ptan (a.fin_thickness / 2) (widthAt a.LE_wf t) top ((i : ℝ) / (1000 : ℕ))) 1000 r)
    exact sw t ht _ _ (e1.trans (hwd t ht).2) e2
  have rimTopIn : ∀ p : V, Ball c ρ (p - upBy (a.fin_thickness / 2)) → ∀ t ∈ Set.Icc (0 : ℝ) 1, ∀ i,
      Ball c ρ (rimTop ptan (a.fin_thickness / 2) a.LE_wf PL n p t i) := by
    intro p hp t ht i
    unfold rimTop
    split_ifs
    · exact hp
    · exact rimIn _ t ht _
  have rimBotIn : ∀ p : V, Ball c ρ (p + upBy (a.fin_thickness / 2)) → ∀ t ∈ Set.Icc (0 : ℝ) 1, ∀ i,
      Ball c ρ (rimBot ptan (a.fin_thickness / 2) a.LE_wf PL n p t i) := by
    intro p hp t ht i
    unfold rimBot
    split_ifs
    · exact hp
    · exact rimIn _ t ht _
  have noseIn : ∀ t0 ∈ Set.Icc (0 : ℝ) 1, ∀ t1 ∈ Set.Icc (0 : ℝ) 1, ∀ i ≤ n, Ball c ρ (noseAt a.LE_wf PL t0 t1 n i) := by
    intro t0 m0 t1 m1 i hi
    unfold noseAt
    have hm := param_mem hn m1 m0 hi
    rw [show t1 + (i : ℝ) / n * (t0 - t1) = t1 - (i : ℝ) / n * (t1 - t0) by ring] at hm
    exact sw _ hm _ _ (by simp only; rw [abs_of_pos (hwd _ hm).1]; exact (hwd _ hm).2) (by simp only [abs_zero]; exact hth.le)
  have segIn : ∀ u v, Ball c ρ u → Ball c ρ v → ∀ i ≤ n, Ball c ρ (seg n u v i) := fun u v hu hv i hi => ball_conv (hmem i hi) hu hv
  have quadIn : ∀ u v w x, Ball c ρ u → Ball c ρ v → Ball c ρ w → Ball c ρ x → (quad n u v w x).In n (Ball c ρ) := fun u v w x hu hv hw hx i hi =>
    ⟨segIn _ _ hu hv i hi, segIn _ _ hx hw i hi, segIn _ _ hu hx i hi, segIn _ _ hv hw i hi⟩
  -- the trailing edge
  have hte : ∃ te ps, Fin.trailingEdge ptan a = .ok te ∧
      List.Forall₂ (fun (e : String × Surf) (p : Panel) => ∀ i ≤ n, ∀ j ≤ n, e.2 ((i : ℝ) / n) ((j : ℝ) / n) = .ok (p.P i j)) te ps ∧
      (∀ p ∈ ps, p.Good n (finGap ptan a wmin η)) ∧ (∀ p ∈ ps, p.In n (Ball c ρ)) ∧ ∀ φ : V → V → ℤ, Anti φ → (ps.map (Panel.turn φ n)).sum =
        pathSum φ (seg n (a.p0 + Fin.half a) (a.p1 + Fin.half a)) n - pathSum φ (seg n (a.p0 - Fin.half a) (a.p1 - Fin.half a)) n
        - pathSum φ (rimBot ptan (a.fin_thickness / 2) a.LE_wf PL n a.p1 0) n
        - pathSum φ (rimTop ptan (a.fin_thickness / 2) a.LE_wf PL n a.p1 0) n
        + pathSum φ (seg n (a.p0 - Fin.half a) a.p0) n + pathSum φ (seg n a.p0 (a.p0 + Fin.half a)) n := by
    unfold Fin.trailingEdge
    by_cases hs : a.rudder_type = "sharp"
    · obtain ⟨te, P, h1, h2, h3⟩ := fin_sharp h (h.sharp hs) n hn PL hb.at_zero
      have t0 : Ball c ρ (rudderTip a a.p0) := hB.rudder hs _ (.inl rfl)
      have t1 : Ball c ρ (rudderTip a a.p1) := hB.rudder hs _ (.inr rfl)
      refine ⟨te, _, by rw [if_pos hs]; exact h1, h2, ?_, ?_, ?_⟩
      · intro p hp
        simp only [List.mem_cons, List.not_mem_nil, or_false] at hp
        rcases hp with rfl | rfl | rfl | rfl
        · exact hquad _ _ _ _
        · exact hquad _ _ _ _
        · exact mono _ h3
        · exact hquad _ _ _ _
      · intro p hp
        simp only [List.mem_cons, List.not_mem_nil, or_false] at hp
        rcases hp with rfl | rfl | rfl | rfl
        · exact quadIn _ _ _ _ t0 t1 c1.2.1 c0.2.1
        · exact quadIn _ _ _ _ c0.1 c1.1 t1 t0
        · exact fun i hi => ⟨segIn _ _ c1.2.1 t1 i hi, rimBotIn _ c1.1 0 z0 i, rimTopIn _ c1.2.1 0 z0 i, segIn _ _ t1 c1.1 i hi⟩
        · exact quadIn _ _ _ _ c0.2.1 c0.2.2 c0.1 t0
      · intro φ hφ
        have r := pathSum_seg φ hφ n hn
        simp only [List.map_cons, List.map_nil, List.sum_cons, List.sum_nil, Panel.turn, quad]
        linear_combination r (a.p1 - Fin.half a) (rudderTip a a.p1) + r (a.p1 + Fin.half a) (rudderTip a a.p1)
          - r (a.p0 + Fin.half a) (rudderTip a a.p0) - r (a.p0 - Fin.half a) (rudderTip a a.p0)
    · obtain ⟨te, P, h1, h2, h3⟩ := fin_flat h n hn PL hb.at_zero
      refine ⟨te, _, by rw [if_neg hs]; exact h1, h2, ?_, ?_, ?_⟩
      · intro p hp
        simp only [List.mem_cons, List.not_mem_nil, or_false] at hp
        rcases hp with rfl | rfl | rfl
        · exact mono _ h3
        · exact hquad _ _ _ _
        · exact hquad _ _ _ _
      · intro p hp
        simp only [List.mem_cons, List.not_mem_nil, or_false] at hp
        rcases hp with rfl | rfl | rfl
        · exact fun i hi => ⟨rimBotIn _ c1.1 0 z0 _, segIn _ _ c1.2.2 c1.2.1 i hi, segIn _ _ c1.1 c1.2.2 i hi, rimTopIn _ c1.2.1 0 z0 _⟩
        · exact quadIn _ _ _ _ c0.2.2 c1.2.2 c1.2.1 c0.2.1
        · exact quadIn _ _ _ _ c0.1 c1.1 c1.2.2 c0.2.2
      · intro φ hφ
        have r := pathSum_seg φ hφ n hn
        simp only [List.map_cons, List.map_nil, List.sum_cons, List.sum_nil, Panel.turn, quad]
        rw [pathSum_reverse φ hφ, pathSum_reverse φ hφ]
        linear_combination r (a.p0 - Fin.half a) a.p0 * (-1) - r a.p0 (a.p0 + Fin.half a)
  obtain ⟨te, pte, hte, fte, gte, ite, ste⟩ := hte
  have fall := ((List.rel_append fsk fle) |> fun q => List.rel_append q fbo) |> fun q => List.rel_append q fte
  have hun : Fin.unplaced find ptan a = .ok (sk ++ le ++ bo ++ te) := by
    unfold Fin.unplaced
    rw [hl, ok_bind, hsk, ok_bind, hle, ok_bind, hbo, ok_bind, hte, ok_bind]; rfl
  refine ⟨_, _, hun, by obtain ⟨-, -, -, -, -, -, hn⟩ := Fin.unplaced_ok hun; exact hn, grids_samples fall, glued_panels n hn _ _ _ _ ?_ ?_ ?_⟩
  · intro p hp
    rw [List.mem_append, List.mem_append, List.mem_append] at hp
    rcases hp with ((hp | hp) | hp) | hp
    · simp only [List.mem_cons, List.not_mem_nil, or_false] at hp
      rcases hp with rfl | rfl <;> exact hquad _ _ _ _
    · exact gle p hp
    · simp only [List.mem_cons, List.not_mem_nil, or_false] at hp
      rcases hp with rfl | rfl | rfl
      · exact mono _ gbo
      · exact hquad _ _ _ _
      · exact hquad _ _ _ _
    · exact gte p hp
  · intro p hp
    rw [List.mem_append, List.mem_append, List.mem_append] at hp
    rcases hp with ((hp | hp) | hp) | hp
    · simp only [List.mem_cons, List.not_mem_nil, or_false] at hp
      rcases hp with rfl | rfl
      · exact quadIn _ _ _ _ c0.2.1 c1.2.1 c2.2.1 c3.2.1
      · exact quadIn _ _ _ _ c0.1 c3.1 c2.1 c1.1
    · simp only [List.mem_cons, List.not_mem_nil, or_false] at hp
      rcases hp with rfl | rfl | rfl | rfl
      · exact fun i hi => ⟨segIn _ _ c2.2.1 c1.2.1 i hi, noseIn _ z0 _ htB i hi, rimTopIn _ c2.2.1 _ htB i, rimTopIn _ c1.2.1 _ z0 i⟩
      · exact fun i hi => ⟨segIn _ _ c3.2.1 c2.2.1 i hi, noseIn _ htB _ z1 i hi, rimTopIn _ c3.2.1 _ z1 i, rimTopIn _ c2.2.1 _ htB i⟩
      · exact fun i hi => ⟨noseIn _ z0 _ htB i hi, segIn _ _ c2.1 c1.1 i hi, rimBotIn _ c2.1 _ htB i, rimBotIn _ c1.1 _ z0 i⟩
      · exact fun i hi => ⟨noseIn _ htB _ z1 i hi, segIn _ _ c3.1 c2.1 i hi, rimBotIn _ c3.1 _ z1 i, rimBotIn _ c2.1 _ htB i⟩
    · simp only [List.mem_cons, List.not_mem_nil, or_false] at hp
      rcases hp with rfl | rfl | rfl
      · exact fun i hi => ⟨rimTopIn _ c3.2.1 1 z1 _, segIn _ _ c3.2.2 c3.1 i hi, segIn _ _ c3.2.1 c3.2.2 i hi, rimBotIn _ c3.1 1 z1 _⟩
      · exact quadIn _ _ _ _ c3.2.2 c0.2.2 c0.2.1 c3.2.1
      · exact quadIn _ _ _ _ c3.1 c0.1 c0.2.2 c3.2.2
    · exact ite p hp
  · intro φ hφ _
    have r := pathSum_seg φ hφ n hn
    rw [List.map_append, List.sum_append, ste φ hφ]
    simp only [List.cons_append, List.nil_append, List.map_cons, List.map_nil, List.sum_cons, List.sum_nil, Panel.turn, quad, leTop, leBot,
      ← half_eq]
    linear_combination r (a.p1 - Fin.half a) (a.p2 - Fin.half a) - r (a.p1 + Fin.half a) (a.p2 + Fin.half a)
      - r (a.p0 - Fin.half a) (a.p3 - Fin.half a) + r (a.p0 + Fin.half a) (a.p3 + Fin.half a) - r (a.p3 - Fin.half a) a.p3
      - r a.p3 (a.p3 + Fin.half a) + r (a.p0 - Fin.half a) a.p0 + r a.p0 (a.p0 + Fin.half a)

end

end HV
