import Verif.Props.FlatEdge
import Verif.Props.WingSize

/-!
# C140: the dimensions given for a wing with a flat leading edge
-/

namespace HV
open Spec

/-- The mesh of a wing with a flat leading edge has the dimensions of its arguments: it reaches nowhere beyond the skins and the flap; the skins have
vertices at the four corners and at the `n` equal parts of the root between `A0` and `A1`, the flap at its two ends. -/
structure Spec.FlatSized (D : ℝ → ℝ → Prop) (a : Wing.Args) (ht hb : ℝ → ℝ → ℝ) (n : ℕ) (m : TriMesh ℝ) : Prop where
  within : ∀ v, IsVertex v m → WithinWing D a ht hb 0 0 v
  skins : ∀ p ∈ [a.A0, a.A1, a.B0, a.TT], IsVertex ⟨p.x, p.y, ht p.x p.y⟩ m ∧ IsVertex ⟨p.x, p.y, hb p.x p.y⟩ m
  root : ∀ i : ℕ, i ≤ n → ∀ x y : ℝ, x = a.A0.x + (i : ℝ) / n * (a.A1.x - a.A0.x) → y = a.A0.y + (i : ℝ) / n * (a.A1.y - a.A0.y) →
    IsVertex ⟨x, y, ht x y⟩ m ∧ IsVertex ⟨x, y, hb x y⟩ m
  flap : ∀ p ∈ [a.A0, a.B0], IsVertex (flapEnd a ht hb p) m

section
variable {D : ℝ → ℝ → Prop} {w : Wing.State} {s : WingShape} {t2 : ℝ} (h : WingBase D w s t2) (hF : w.LE_TYPE = "FLAT")
include h hF

/-- The patch that closes the flap at the tip is flat. -/
theorem flat_tele_at (ptan : ℝ → ℝ) : ∃ F, Wing.tele ptan w = .ok [("TELE_patch", F)] ∧
    ∀ u v, F u v = .ok (bil (s.T 0) (flapTip w s w.args.B0) (s.B 0) (s.M 0) u v) := by
  have hM : liftBy (midH s.ht s.hb) w.args.B0 = s.M 0 := by rw [← h.L0]; rfl
  have hT : liftBy s.ht w.args.B0 = s.T 0 := by rw [← h.L0]; rfl
  have hB : liftBy s.hb w.args.B0 = s.B 0 := by rw [← h.L0]; rfl
  obtain ⟨F, c0, v0⟩ := coons_quad (Line (s.M 0) (s.B 0)) (Line (flapTip w s w.args.B0) (s.B 0))
    (Line (s.T 0) (flapTip w s w.args.B0)) (Line (s.T 0) (s.M 0)) _ _ _ _ (fun _ => rfl) (fun _ => rfl) (fun _ => rfl) (fun _ => rfl)
  have q := wing_te h 1 ⟨zero_le_one, le_rfl⟩
  simp only [lineAt_one] at q
  have tip : (⟨(s.M 0).x - w.args.flap_length * Real.cos w.args.flap_angle, (s.M 0).y,
      (s.M 0).z + w.args.flap_length * Real.sin w.args.flap_angle⟩ : V) = flapTip w s w.args.B0 := by rw [← hM]; rfl
  have q1 : (⟨(s.M 0).x, (s.M 0).y, (s.T 0).z⟩ : V) = s.T 0 := by rw [← hM, ← hT]; rfl
  have q2 : (⟨(s.M 0).x, (s.M 0).y, (s.B 0).z⟩ : V) = s.B 0 := by rw [← hM, ← hB]; rfl
  refine ⟨F, ?_, v0⟩
  unfold Wing.tele Wing.tipEdges
  simp only [q, hM, hT, hB, ok_bind, hF, if_true, pure_eq, q1, q2, tip, c0]

/-- The extents of a wing with a flat leading edge that is open at the root.  Also: the triangles of the patch at the end of the trailing edge belong to the mesh. -/
theorem flat_size_closing (hc : w.args.close_wing = false) (n : ℕ) (hn : 1 ≤ n) (zA : w.args.A0.z = 0) (zA1 : w.args.A1.z = 0)
    (zL : ∀ t ∈ Set.Icc (0 : ℝ) 1, (s.L t).z = 0) (ptan : ℝ → ℝ) (name : Option String) (H : Heap) (id : ℕ) (hid : H id = Wing.comp ptan w n name) :
    ∃ h' M c', generatePatches H id = (.ok (), h') ∧ (h' id).mesh = (.ok M, c') ∧
      (∀ t ∈ gridMesh MeshArith.real false n n (quad n (s.T 0) (flapTip w s w.args.B0) (s.B 0) (s.M 0)).P, t ∈ M.tris) ∧
      FlatSized D w.args s.ht s.hb n M.tris := by
  have z0 : (0 : ℝ) ∈ Set.Icc (0 : ℝ) 1 := ⟨le_rfl, zero_le_one⟩
  have z1 : (1 : ℝ) ∈ Set.Icc (0 : ℝ) 1 := ⟨zero_le_one, le_rfl⟩
  have hn0 : (n : ℝ) ≠ 0 := by positivity
  have hmem : ∀ i ≤ n, (i : ℝ) / n ∈ Set.Icc (0 : ℝ) 1 := fun i hi => ⟨by positivity, (div_le_one (by positivity)).2 (by exact_mod_cast hi)⟩
  have hmem' : ∀ i ≤ n, 1 - (i : ℝ) / n ∈ Set.Icc (0 : ℝ) 1 := fun i hi => ⟨by linarith [(hmem i hi).2], by linarith [(hmem i hi).1]⟩
  have zB : w.args.B0.z = 0 := by rw [← h.L0]; exact zL 0 z0
  have zT : w.args.TT.z = 0 := by rw [← h.L1]; exact zL 1 z1
  obtain ⟨F0, F1, F2, F3, hs, vs⟩ := wing_skins_at h
  obtain ⟨G0, G1, hfl, vf⟩ := wing_flap_at h
  obtain ⟨T, hte, vt⟩ := flat_tele_at h hF ptan
  obtain ⟨le, hle, fle⟩ := flat_leading h hF n hn ptan
  set K := WithinWing D w.args s.ht s.hb 0 0 with hK
  have tipA : flapTip w s w.args.A0 = flapEnd w.args s.ht s.hb w.args.A0 := by
    unfold flapTip flapEnd midH; rw [zA, zero_add]
  have tipB : flapTip w s w.args.B0 = flapEnd w.args s.ht s.hb w.args.B0 := by
    unfold flapTip flapEnd midH; rw [zB, zero_add]
  have onT : ∀ p : V, p.z = 0 → D p.x p.y → OnWing D w.args s.ht s.hb (liftBy s.ht p) := by
    intro p hz hD
    refine .inl ⟨hD, .inl ?_⟩
    simp [liftBy, hz]
  have onB : ∀ p : V, p.z = 0 → D p.x p.y → OnWing D w.args s.ht s.hb (liftBy s.hb p) := by
    intro p hz hD
    refine .inl ⟨hD, .inr ?_⟩
    simp [liftBy, hz]
  have on : ∀ q, OnWing D w.args s.ht s.hb q → K q := by
    intro q hq α β γ δ κ hκ _ hδ
    have := hδ q hq
    simp only [mul_zero, add_zero]
    exact this
  have inner0 : ∀ u ∈ Set.Icc (0 : ℝ) 1, ∀ v ∈ Set.Icc (0 : ℝ) 1, (innerPt w.args.A0 w.args.A1 s.L w.t_B1 u v).z = 0 := by
    intro u hu v _
    have : (s.L (u * w.t_B1)).z = 0 := zL _ ⟨mul_nonneg hu.1 h.t1mem.1, mul_le_one₀ hu.2 h.t1mem.1 h.t1mem.2⟩
    simp [innerPt, lineAt, zA, zA1, this]
  have outer0 : ∀ u ∈ Set.Icc (0 : ℝ) 1, ∀ v ∈ Set.Icc (0 : ℝ) 1, (outerPt w.args.A1 s.L w.t_B1 t2 u v).z = 0 := by
    intro u hu v hv
    have a1 : (s.L (w.t_B1 + u * (t2 - w.t_B1))).z = 0 := zL _ ⟨by nlinarith [h.t1mem.1, h.t12, hu.1], by nlinarith [h.t2mem.2, h.t12, hu.2]⟩
    have a2 : (s.L (1 + v * (t2 - 1))).z = 0 := zL _ ⟨by nlinarith [h.t2mem.1, h.t2mem.2, hv.2, hv.1], by nlinarith [h.t2mem.2, hv.1]⟩
    simp [outerPt, zA1, a1, a2, zL t2 h.t2mem]
  have innerD : ∀ u ∈ Set.Icc (0 : ℝ) 1, ∀ v ∈ Set.Icc (0 : ℝ) 1, D (innerPt w.args.A0 w.args.A1 s.L w.t_B1 u v).x (innerPt w.args.A0 w.args.A1 s.L w.t_B1 u v).y :=
    fun u hu v hv => h.cov.inner _ h.t1mem u hu v hv
  have outerD : ∀ u ∈ Set.Icc (0 : ℝ) 1, ∀ v ∈ Set.Icc (0 : ℝ) 1, D (outerPt w.args.A1 s.L w.t_B1 t2 u v).x (outerPt w.args.A1 s.L w.t_B1 t2 u v).y :=
    fun u hu v hv => h.cov.outer _ h.t1mem t2 ⟨h.t12, h.t2mem.2⟩ u hu v hv
  have conv : ∀ (u v : V) (t : ℝ), t ∈ Set.Icc (0 : ℝ) 1 → K u → K v → K (lineAt u v t) := by
    intro u v t ht hu hv α β γ δ κ hκ h1 hδ
    have a1 := mul_le_mul_of_nonneg_left (hu α β γ δ κ hκ h1 hδ) (sub_nonneg.2 ht.2)
    have a2 := mul_le_mul_of_nonneg_left (hv α β γ δ κ hκ h1 hδ) ht.1
    simp only [lineAt, Vec.add_x, Vec.add_y, Vec.add_z, Vec.mul_x, Vec.mul_y, Vec.mul_z]
    linarith
  have kT : ∀ t ∈ Set.Icc (0 : ℝ) 1, K (s.T t) := fun t ht => on _ (onT _ (zL t ht) (h.cov.le t ht))
  have kBt : ∀ t ∈ Set.Icc (0 : ℝ) 1, K (s.B t) := fun t ht => on _ (onB _ (zL t ht) (h.cov.le t ht))
  have kA : K (flapTip w s w.args.A0) := on _ (.inr (.inl tipA))
  have kB : K (flapTip w s w.args.B0) := on _ (.inr (.inr tipB))
  have mids : ∀ p : V, liftBy (midH s.ht s.hb) p = lineAt (liftBy s.ht p) (liftBy s.hb p) 0.5 := by
    intro p; ext <;> simp [liftBy, midH, lineAt] <;> ring
  have kM : K (s.M 0) := by rw [WingShape.M, mids]; exact conv _ _ _ (by constructor <;> norm_num) (kT 0 z0) (kBt 0 z0)
  have kflat : ∀ a ∈ Set.Icc (0 : ℝ) 1, ∀ b ∈ Set.Icc (0 : ℝ) 1, ∀ i ≤ n, ∀ j ≤ n, K ((s.flat n a b).P i j) := by
    intro a m0 b m1 i hi j hj
    have u0 := hmem i hi
    have hm : b - (i : ℝ) / n * (b - a) ∈ Set.Icc (0 : ℝ) 1 := by
      constructor
      · nlinarith [m0.1, m1.1, u0.1, u0.2]
      · nlinarith [m0.2, m1.2, u0.1, u0.2]
    have e : (s.flat n a b).P i j = lineAt (s.T (b - (i : ℝ) / n * (b - a))) (s.B (b - (i : ℝ) / n * (b - a))) ((j : ℝ) / n) := by
      ext <;> simp [WingShape.flat, WingShape.T, WingShape.B, liftBy, lineAt] <;> ring
    rw [e]
    exact conv _ _ _ (hmem j hj) (kT _ hm) (kBt _ hm)
  have teD : ∀ t ∈ Set.Icc (0 : ℝ) 1, D (lineAt w.args.A0 w.args.B0 t).x (lineAt w.args.A0 w.args.B0 t).y := by
    intro t ht
    have := h.cov.te t ht
    rwa [h.L0] at this
  have teZ : ∀ t : ℝ, (lineAt w.args.A0 w.args.B0 t).z = 0 := fun t => by simp [lineAt, zA, zB]
  have fs : Grids n [("top_patch_0", F0), ("top_patch_1", F1), ("bot_patch_0", F2), ("bot_patch_1", F3)]
      [bare fun i j => liftBy s.ht (innerPt w.args.A0 w.args.A1 s.L w.t_B1 (1 - (i : ℝ) / n) ((j : ℝ) / n)),
        bare fun i j => liftBy s.ht (outerPt w.args.A1 s.L w.t_B1 t2 (1 - (i : ℝ) / n) ((j : ℝ) / n)),
        bare fun i j => liftBy s.hb (innerPt w.args.A0 w.args.A1 s.L w.t_B1 ((i : ℝ) / n) ((j : ℝ) / n)),
        bare fun i j => liftBy s.hb (outerPt w.args.A1 s.L w.t_B1 t2 ((i : ℝ) / n) ((j : ℝ) / n))] :=
    .cons (fun i hi j hj => (vs _ (hmem i hi) _ (hmem j hj)).1) (.cons (fun i hi j hj => (vs _ (hmem i hi) _ (hmem j hj)).2.1)
      (.cons (fun i hi j hj => (vs _ (hmem i hi) _ (hmem j hj)).2.2.1) (.cons (fun i hi j hj => (vs _ (hmem i hi) _ (hmem j hj)).2.2.2) .nil)))
  have ff : Grids n [("TE_top_patch", G0), ("TE_bot_patch", G1)]
      [bare fun i j => lineAt (lineAt (flapTip w s w.args.A0) (flapTip w s w.args.B0) ((i : ℝ) / n)) (liftBy s.ht (lineAt w.args.A0 w.args.B0 ((i : ℝ) / n))) ((j : ℝ) / n),
        bare fun i j => lineAt (liftBy s.hb (lineAt w.args.A0 w.args.B0 ((i : ℝ) / n))) (lineAt (flapTip w s w.args.A0) (flapTip w s w.args.B0) ((i : ℝ) / n)) ((j : ℝ) / n)] :=
    .cons (fun i hi j hj => (vf _ (hmem i hi) _ (hmem j hj)).1) (.cons (fun i hi j hj => (vf _ (hmem i hi) _ (hmem j hj)).2) .nil)
  have ft : Grids n [("TELE_patch", T)] [quad n (s.T 0) (flapTip w s w.args.B0) (s.B 0) (s.M 0)] := .cons (fun i _ j _ => vt _ _) .nil
  obtain ⟨h', M, c', g1, g2, g3⟩ := wing_staged n hn name H id hid
    [[("top_patch_0", F0), ("top_patch_1", F1), ("bot_patch_0", F2), ("bot_patch_1", F3)], le, [("TE_top_patch", G0), ("TE_bot_patch", G1)],
      [("TELE_patch", T)]] (by
      unfold Wing.stages
      simp only [hc, Bool.false_eq_true, if_false, List.append_nil]
      exact .cons hs (.cons hle (.cons hfl (.cons hte .nil)))) _ (by
      rw [List.flatten_cons, List.flatten_cons, List.flatten_cons, List.flatten_cons, List.flatten_nil, List.append_nil]
      exact List.rel_append fs (List.rel_append fle (List.rel_append ff ft)))
  have mk : ∀ i ≤ n, ∀ j ≤ n, ∀ (l : List Panel) (P : Panel) (q : V), P ∈ l → P.P i j = q →
      IsVertex q (l.map fun p => gridMesh MeshArith.real false n n p.P).flatten := by
    rintro i hi j hj l P _ hP rfl
    rw [isVertex_flatten]
    exact ⟨_, List.mem_map.2 ⟨P, hP, rfl⟩, gridMesh_vertex n n P.P i j hn hn hi hj⟩
  have o0 : (0 : ℕ) ≤ n := by omega
  have d1 : (n : ℝ) / n = 1 := div_self hn0
  refine ⟨h', M, c', g1, g2, ?_, ?_, ?_, ?_, ?_⟩
  · intro t ht
    rw [g3, List.mem_flatten]
    refine ⟨_, List.mem_map.2 ⟨_, List.mem_append_right _ (List.mem_append_right _ (List.mem_append_right _ List.mem_cons_self)), rfl⟩, ht⟩
  · intro v hv
    rw [g3, isVertex_flatten] at hv
    obtain ⟨m, hm, hv⟩ := hv
    obtain ⟨P, hP, rfl⟩ := List.mem_map.1 hm
    refine grid_keeps n _ K within_wing_centre (fun i hi j hj => ?_) v hv
    rw [List.mem_append, List.mem_append, List.mem_append] at hP
    simp only [List.mem_cons, List.not_mem_nil, or_false] at hP
    rcases hP with (rfl | rfl | rfl | rfl) | (rfl | rfl | rfl) | (rfl | rfl) | rfl
    · exact on _ (onT _ (inner0 _ (hmem' i hi) _ (hmem j hj)) (innerD _ (hmem' i hi) _ (hmem j hj)))
    · exact on _ (onT _ (outer0 _ (hmem' i hi) _ (hmem j hj)) (outerD _ (hmem' i hi) _ (hmem j hj)))
    · exact on _ (onB _ (inner0 _ (hmem i hi) _ (hmem j hj)) (innerD _ (hmem i hi) _ (hmem j hj)))
    · exact on _ (onB _ (outer0 _ (hmem i hi) _ (hmem j hj)) (outerD _ (hmem i hi) _ (hmem j hj)))
    · exact kflat _ z0 _ h.t1mem i hi j hj
    · exact kflat _ h.t1mem _ h.t2mem i hi j hj
    · exact kflat _ h.t1mem _ z1 i hi j hj
    · exact conv _ _ _ (hmem j hj) (conv _ _ _ (hmem i hi) kA kB) (on _ (onT _ (teZ _) (teD _ (hmem i hi))))
    · exact conv _ _ _ (hmem j hj) (on _ (onB _ (teZ _) (teD _ (hmem i hi)))) (conv _ _ _ (hmem i hi) kA kB)
    · exact conv _ _ _ (hmem j hj) (conv _ _ _ (hmem i hi) (kT 0 z0) kB) (conv _ _ _ (hmem i hi) kM (kBt 0 z0))
  · intro p hp
    rw [g3]
    have lz : ∀ (f : ℝ → ℝ → ℝ) (p : V), p.z = 0 → (⟨p.x, p.y, f p.x p.y⟩ : V) = liftBy f p := by
      intro f p hz
      simp [liftBy, hz]
    simp only [List.mem_cons, List.not_mem_nil, or_false] at hp
    rcases hp with rfl | rfl | rfl | rfl
    · rw [lz _ _ zA, lz _ _ zA]
      constructor
      · refine mk n le_rfl 0 o0 _ _ _ (List.mem_append_left _ List.mem_cons_self) ?_
        simp [bare, innerPt, lineAt_zero, d1]
      · refine mk 0 o0 0 o0 _ _ _ (List.mem_append_left _ (List.mem_cons_of_mem _ (List.mem_cons_of_mem _ List.mem_cons_self))) ?_
        simp [bare, innerPt, lineAt_zero]
    · rw [lz _ _ zA1, lz _ _ zA1]
      constructor
      · refine mk 0 o0 0 o0 _ _ _ (List.mem_append_left _ List.mem_cons_self) ?_
        simp [bare, innerPt, lineAt_zero, lineAt_one]
      · refine mk n le_rfl 0 o0 _ _ _ (List.mem_append_left _ (List.mem_cons_of_mem _ (List.mem_cons_of_mem _ List.mem_cons_self))) ?_
        simp [bare, innerPt, lineAt_zero, lineAt_one, d1]
    · rw [lz _ _ zB, lz _ _ zB]
      constructor
      · refine mk n le_rfl n le_rfl _ _ _ (List.mem_append_left _ List.mem_cons_self) ?_
        simp [bare, innerPt, lineAt_one, d1, h.L0]
      · refine mk 0 o0 n le_rfl _ _ _ (List.mem_append_left _ (List.mem_cons_of_mem _ (List.mem_cons_of_mem _ List.mem_cons_self))) ?_
        simp [bare, innerPt, lineAt_one, d1, h.L0]
    · rw [lz _ _ zT, lz _ _ zT]
      have e : outerPt w.args.A1 s.L w.t_B1 t2 1 0 = w.args.TT := by
        rw [← h.L1]; ext <;> simp [outerPt]
      constructor
      · refine mk 0 o0 0 o0 _ _ _ (List.mem_append_left _ (List.mem_cons_of_mem _ List.mem_cons_self)) ?_
        simp [bare, e]
      · refine mk n le_rfl 0 o0 _ _ _ (List.mem_append_left _ (List.mem_cons_of_mem _ (List.mem_cons_of_mem _ (List.mem_cons_of_mem _ List.mem_cons_self)))) ?_
        simp [bare, e, d1]
  · intro i hi x y hx hy
    rw [g3]
    have e : innerPt w.args.A0 w.args.A1 s.L w.t_B1 ((i : ℝ) / n) 0 = ⟨x, y, 0⟩ := by
      rw [innerPt, lineAt_zero]
      ext <;> simp only [lineAt, Vec.add_x, Vec.add_y, Vec.add_z, Vec.mul_x, Vec.mul_y, Vec.mul_z, hx, hy, zA, zA1] <;> ring
    constructor
    · refine mk (n - i) (by omega) 0 o0 _ _ _ (List.mem_append_left _ List.mem_cons_self) ?_
      have e' : 1 - ((n - i : ℕ) : ℝ) / n = (i : ℝ) / n := by
        rw [Nat.cast_sub hi]; field_simp; ring
      simp only [bare, Nat.cast_zero, zero_div, e', e]
      simp [liftBy]
    · refine mk i hi 0 o0 _ _ _ (List.mem_append_left _ (List.mem_cons_of_mem _ (List.mem_cons_of_mem _ List.mem_cons_self))) ?_
      simp only [bare, Nat.cast_zero, zero_div, e]
      simp [liftBy]
  · intro p hp
    rw [g3]
    simp only [List.mem_cons, List.not_mem_nil, or_false] at hp
    rcases hp with rfl | rfl
    · rw [← tipA]
      refine mk 0 o0 0 o0 _ _ _ (List.mem_append_right _ (List.mem_append_right _ (List.mem_append_left _ List.mem_cons_self))) ?_
      simp [bare, lineAt_zero]
    · rw [← tipB]
      refine mk n le_rfl 0 o0 _ _ _ (List.mem_append_right _ (List.mem_append_right _ (List.mem_append_left _ List.mem_cons_self))) ?_
      simp [bare, lineAt_zero, lineAt_one, d1]

end

/-- C140 for wings with a flat leading edge, open at the root: such a wing laid out in the plane `z = 0` reaches nowhere beyond its skins and its flap, and
reaches the corners of its planform, on both skins, and the ends of the flap.  The leading edge adds nothing. -/
theorem C140_flat_wing (find : (ℝ → Res ℝ) → Res ℝ) (ptan : ℝ → ℝ) (D : ℝ → ℝ → Prop) (a : Wing.Args) (w : Wing.State) (L : ℝ → V)
    (ht hb : ℝ → ℝ → ℝ) (y0 : ℝ) (hw : Wing.init find a = .ok w) (h : FlatWing D a L ht hb y0) (hbr : a.t_B2 = none ∨ a.t_B1.isSome)
    (h1 : w.t_B1 ∈ Set.Icc (0 : ℝ) 1) (zA : a.A0.z = 0) (zA1 : a.A1.z = 0) (zL : ∀ t ∈ Set.Icc (0 : ℝ) 1, (L t).z = 0) (n : ℕ) (hn : 1 ≤ n)
    (name : Option String) (H : Heap) (id : ℕ) (hid : H id = Wing.comp ptan w n name) :
    ∃ h' M c', generatePatches H id = (.ok (), h') ∧ (h' id).mesh = (.ok M, c') ∧ FlatSized D a ht hb n M.tris := by
  obtain ⟨ha, hF, t2, hb', -, -⟩ := flatWing_base hw h hbr h1
  obtain ⟨h', M, c', g1, g2, -, g3⟩ := flat_size_closing hb' hF (by rw [ha]; exact h.opened) n hn (by rw [ha]; exact zA) (by rw [ha]; exact zA1) zL ptan name H id hid
  rw [ha] at g3
  exact ⟨h', M, c', g1, g2, g3⟩

/-- The delta wing with a flat leading edge reaches from the trailing edge to its tip. -/
example (find : (ℝ → Res ℝ) → Res ℝ) (ptan : ℝ → ℝ) : ∃ w h' M c', Wing.init find (deltaWing "flat" (some 0.5) none) = .ok w ∧
    generatePatches (fun _ => Wing.comp ptan w 3 none) 0 = (.ok (), h') ∧ (h' 0).mesh = (.ok M, c') ∧ IsVertex ⟨2, 0, -0.05⟩ M.tris := by
  obtain ⟨w, hw⟩ : ∃ w, Wing.init find (deltaWing "flat" (some 0.5) none) = .ok w := ⟨_, rfl⟩
  have h1 := (Wing.init_ok hw).2.2.1 0.5 rfl
  obtain ⟨h', M, c', g1, g2, g3⟩ := C140_flat_wing find ptan _ _ w _ _ _ 0 hw (delta_flat _ _) (.inl rfl) (by rw [h1]; constructor <;> norm_num) rfl rfl
    (fun t _ => by simp [lineAt]) 3 (by norm_num) none (fun _ => Wing.comp ptan w 3 none) 0 rfl
  exact ⟨w, h', M, c', hw, g1, g2, (g3.skins (deltaWing "flat" (some 0.5) none).TT (by simp)).1⟩

end HV
