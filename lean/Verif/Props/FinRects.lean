import Verif.Lemmas.RectFin

/-!
# C105: no rectangular fin is closed
-/

namespace HV
open Spec

namespace Spec

/-- A root finder that returns the right end of the interval if that end is a root and the left one is not. -/
def TakesEnd (find : (ℝ → Res ℝ) → Res ℝ) : Prop :=
  ∀ (f : ℝ → Res ℝ) (y : ℝ), f 0 = .ok y → y ≠ 0 → f 1 = .ok 0 → find f = .ok 1

/-- A fin whose outline is a rectangle of length `ℓ` (along `x`) and height `h` with a flat trailing edge; its edges are at most `w` wide. -/
structure RectangularFin (a : Fin.Args) (ℓ h w : ℝ) : Prop where
  p1 : a.p1 = a.p0 + ⟨0, h, 0⟩
  p2 : a.p2 = a.p1 + ⟨ℓ, 0, 0⟩
  p3 : a.p3 = a.p0 + ⟨ℓ, 0, 0⟩
  height : 0 < h
  longer : h < ℓ
  flat : a.rudder_type ≠ "sharp"
  width : ∀ t ∈ Set.Icc (0 : ℝ) 1, ∀ d, a.LE_wf t = .ok d → d ≤ w

end Spec

theorem roundedBisect_end : TakesEnd roundedBisect := by
  intro f y h0 hy h1
  unfold roundedBisect
  rw [scipyBisect_right f y h0 hy h1, ok_bind]
  have : round6 1 = 1 := by
    unfold round6
    rw [one_mul, show ((10 : ℝ) ^ 6) = ((10 ^ 6 : ℤ) : ℝ) by norm_num, round_intCast]
    norm_num
  rw [this]; rfl

/-- C105: no rectangular fin is closed, at any resolution from 2 on: the root finder returns the end of the leading edge instead of the
corner, so that nothing covers the edge of the upper skin.  The gap is of the size of the cells of the mesh. -/
theorem C105_rectangles_violated (find : (ℝ → Res ℝ) → Res ℝ) (hfind : TakesEnd find) (ptan : ℝ → ℝ) (a : Fin.Args) (wmin : ℝ) (o : V)
    (h : UniformFin ptan a wmin o) (ℓ H w : ℝ) (hr : RectangularFin a ℓ H w) (n : ℕ) (hn : 2 ≤ n) (ε : ℝ) (hε : 0 ≤ ε)
    (g1 : 4 * ε < H / n) (g2 : 2 * ε + w < H / n) (g3 : 2 * ε + w < (ℓ - H) / (2 * n)) (g4 : 2 * ε < a.fin_thickness)
    (name : Option String) (hp : Heap) (id : ℕ) (hid : hp id = Fin.comp find ptan a n name) :
    ∃ h' M c', generatePatches hp id = (.ok (), h') ∧ (h' id).mesh = (.ok M, c') ∧ ¬ ClosedUpTo ε M.tris := by
  have z0 : (0 : ℝ) ∈ Set.Icc (0 : ℝ) 1 := ⟨le_rfl, zero_le_one⟩
  have z1 : (1 : ℝ) ∈ Set.Icc (0 : ℝ) 1 := ⟨zero_le_one, le_rfl⟩
  have hn1 : 1 ≤ n := by omega
  have hn0 : (0 : ℝ) < n := by exact_mod_cast hn1
  have hn2 : (2 : ℝ) ≤ n := by exact_mod_cast hn
  have hH := hr.height
  have hℓ : 0 < ℓ := hH.trans hr.longer
  obtain ⟨line, PL, hl, hcall, hb⟩ := polyline_broken a.p1 a.p2 a.p3 h.n12 h.n23
  have hf : find (fun t => do let p ← line.call t; return p.x - a.p2.x) = .ok 1 := by
    refine hfind _ (-ℓ) ?_ (by linarith) ?_
    · simp only [hcall, ok_bind, hb.at_zero, hr.p2, pure_eq]
      simp
    · simp only [hcall, ok_bind, hb.at_one, hr.p2, hr.p1, hr.p3, pure_eq]
      simp
  obtain ⟨le, hle, fle⟩ := leading_patches find h n hn1 line PL hcall 1 z1 hf
  obtain ⟨sk, hsk, fsk⟩ := fin_skins h n
  obtain ⟨bo, Pb, hbo, fbo, gbo⟩ := fin_bottom h n hn1 PL hb.at_one
  obtain ⟨te, Pt, hte, fte, gte⟩ := fin_flat h n hn1 PL hb.at_zero
  obtain ⟨h', M, c', k1, k2, k3⟩ := fin_assembled find h n hn1 name hp id hid line hl sk le bo te _ _ _ _ hsk hle hbo
    (by unfold Fin.trailingEdge; rw [if_neg hr.flat]; exact hte) fsk fle fbo fte
  refine ⟨h', M, c', k1, k2, ?_⟩
  -- the tips are flat
  have yb : ∀ i ≤ n, ∀ j ≤ n, (Pb i j).y = a.p3.y := by
    intro i hi j hj
    cases fbo with
    | cons f1 _ => exact bottom_plane h hbo (f1 i hi j hj)
  have xt : ∀ i ≤ n, ∀ j ≤ n, (Pt i j).x = a.p1.x := by
    intro i hi j hj
    cases fte with
    | cons f1 _ => exact flat_plane h hte (f1 i hi j hj)
  -- the two points
  set A : V := ⟨a.p1.x, a.p1.y, a.p1.z - a.fin_thickness / 2⟩ with hA
  set B : V := ⟨a.p1.x + ℓ / n, a.p1.y, a.p1.z - a.fin_thickness / 2⟩ with hB
  have q0 : (a.p0).x = a.p1.x ∧ (a.p0).y = a.p1.y - H ∧ (a.p0).z = a.p1.z := by rw [hr.p1]; simp
  have q2 : (a.p2).x = a.p1.x + ℓ ∧ (a.p2).y = a.p1.y ∧ (a.p2).z = a.p1.z := by rw [hr.p2]; simp
  have q3 : (a.p3).x = a.p1.x + ℓ ∧ (a.p3).y = a.p1.y - H ∧ (a.p3).z = a.p1.z := by rw [hr.p3, hr.p1]; simp
  have hth := h.thick
  have hdiv : H / n < ℓ / n := div_lt_div_of_pos_right hr.longer hn0
  have hhalf : (ℓ - H) / (2 * n) = (ℓ / n - H / n) / 2 := by field_simp
  rw [hhalf] at g3
  have hℓn : ℓ / n ≤ ℓ / 2 := div_le_div_of_nonneg_left hℓ.le (by norm_num) hn2
  have hsum : (ℓ + H) / n = ℓ / n + H / n := add_div _ _ _
  have hHn : H / n ≤ H / 2 := div_le_div_of_nonneg_left hH.le (by norm_num) hn2
  have awayx : ∀ v : V, v.x < B.x - 2 * ε ∨ B.x + 2 * ε < v.x → 2 * ε < vdist v B := by
    intro v hv
    refine lt_of_lt_of_le ?_ (vdist_coords v B).1
    rw [lt_abs]
    rcases hv with hv | hv
    · right; linarith
    · left; linarith
  have awayx' : ∀ v : V, v.x = a.p1.x → 2 * ε < vdist v B := by
    intro v hv
    refine lt_of_lt_of_le ?_ (vdist_coords v B).1
    rw [lt_abs, hv]
    right
    simp only [hB]
    linarith
  have awayy : ∀ v : V, v.y ≤ a.p1.y - H / 2 / n → 2 * ε < vdist v B := by
    intro v hv
    refine lt_of_lt_of_le ?_ (vdist_coords v B).2.1
    rw [lt_abs]
    right
    simp only [hB]
    have : H / 2 / n = H / n / 2 := by ring
    linarith
  have awayz : ∀ v : V, v.z = a.p1.z + a.fin_thickness / 2 → 2 * ε < vdist v B := by
    intro v hv
    refine lt_of_lt_of_le ?_ (vdist_coords v B).2.2
    rw [lt_abs, hv]
    left
    simp only [hB]
    linarith
  have hrim := h.rim
  have hwp : 0 < w := (hrim.width_pos z0).trans_le (hr.width 0 z0 _ (hrim.width_ok z0))
  -- the leading edge
  have hmem : ∀ i ≤ n, (i : ℝ) / n ∈ Set.Icc (0 : ℝ) 1 := fun i hi => ⟨by positivity, (div_le_one hn0).2 (by exact_mod_cast hi)⟩
  have rimx : ∀ top, ∀ t ∈ Set.Icc (0 : ℝ) 1, ∀ r, |(rimAt ptan (a.fin_thickness / 2) a.LE_wf PL top t r).x - (a.p1.x + min (t * (ℓ + H)) ℓ)| ≤ w := by
    intro top t ht r
    have e32 : a.p3 = a.p2 - ⟨0, H, 0⟩ := by rw [hr.p3, hr.p2, hr.p1]; ext <;> simp
    have hx := hb.rect_x hℓ hH hr.p2 e32 ht
    unfold rimAt ellArc
    obtain ⟨e1, -⟩ := ellRaw_box ptan hrim.bpos (hrim.width_pos ht) top
      (ArcLen.uMap (fun i : ℕ => ellRaw ptan (a.fin_thickness / 2) (widthAt a.LE_wf t) top ((i : ℝ) / (1000 : ℕ))) 1000 r)
    simp only [Vec.add_x, hx, swing, add_sub_cancel_left]
    exact (trig_le _ _).1.trans (e1.trans (hr.width t ht _ (hrim.width_ok ht)))
  have rim0 : ∀ top r, (rimAt ptan (a.fin_thickness / 2) a.LE_wf PL top 0 r).x ≤ a.p1.x + w := by
    intro top r
    have := (abs_le.1 (rimx top 0 z0 r)).2
    rw [zero_mul, min_eq_left hℓ.le] at this
    linarith
  have rim1 : ∀ top, ∀ t ∈ Set.Icc (0 : ℝ) 1, 1 / n ≤ t → ∀ r,
      a.p1.x + (ℓ + H) / n - w ≤ (rimAt ptan (a.fin_thickness / 2) a.LE_wf PL top t r).x := by
    intro top t ht hge r
    have := (abs_le.1 (rimx top t ht r)).1
    have hm : (ℓ + H) / n ≤ min (t * (ℓ + H)) ℓ := by
      refine le_min ?_ ?_
      · rw [div_eq_mul_one_div, mul_comm]
        exact mul_le_mul_of_nonneg_right hge (by linarith)
      · rw [hsum]; linarith [hr.longer]
    linarith
  have rim1' : ∀ top r, (rimAt ptan (a.fin_thickness / 2) a.LE_wf PL top (1 / n) r).x ≤ a.p1.x + (ℓ + H) / n + w := by
    intro top r
    have := (abs_le.1 (rimx top (1 / n) ⟨by positivity, (div_le_one hn0).2 (by linarith)⟩ r)).2
    have hm : min (1 / n * (ℓ + H)) ℓ ≤ (ℓ + H) / n := (min_le_left _ _).trans (by rw [one_div, inv_mul_eq_div])
    linarith
  have lead : ∀ top, ∀ e ∈ edges (gridMesh MeshArith.real false n n fun i j =>
      rimAt ptan (a.fin_thickness / 2) a.LE_wf PL top (1 - (i : ℝ) / n * (1 - 0)) ((j : ℝ) / n)), 2 * ε < vdist e.1 B := by
    intro top e he
    have par : ∀ i ≤ n, 1 - (i : ℝ) / n * (1 - 0) ∈ Set.Icc (0 : ℝ) 1 := by
      intro i hi
      have := hmem i hi
      constructor <;> linarith [this.1, this.2]
    have par0 : 1 - (n : ℝ) / n * (1 - 0) = 0 := by rw [div_self hn0.ne']; ring
    have par1 : ∀ i, i < n → 1 / (n : ℝ) ≤ 1 - (i : ℝ) / n * (1 - 0) := by
      intro i hi
      have : ((i : ℝ) + 1) / n ≤ 1 := (div_le_one hn0).2 (by exact_mod_cast hi)
      rw [add_div] at this
      linarith
    have par1' : ∀ i, i + 1 = n → 1 - (i : ℝ) / n * (1 - 0) = 1 / n := by
      intro i hi
      have : (i : ℝ) + 1 = n := by exact_mod_cast hi
      field_simp
      linarith
    refine grid_starts (C := fun v => 2 * ε < vdist v B) ?_ ?_ he
    · intro i hi j hj
      refine awayx _ ?_
      rcases hi.lt_or_eq with hlt | rfl
      · right
        have := rim1 top _ (par i hi) (par1 i hlt) ((j : ℝ) / n)
        simp only [hB]
        linarith
      · left
        rw [par0]
        have := rim0 top ((j : ℝ) / i)
        simp only [hB]
        linarith
    · intro i hi j hj
      refine awayx _ ?_
      rcases (Nat.succ_le_of_lt hi).lt_or_eq with hlt | heq
      · right
        have a1 := rim1 top _ (par i hi.le) (par1 i hi) ((j : ℝ) / n)
        have a2 := rim1 top _ (par i hi.le) (par1 i hi) (((j + 1 : ℕ) : ℝ) / n)
        have a3 := rim1 top _ (par (i + 1) hi) (par1 (i + 1) hlt) ((j : ℝ) / n)
        have a4 := rim1 top _ (par (i + 1) hi) (par1 (i + 1) hlt) (((j + 1 : ℕ) : ℝ) / n)
        simp only [cellCentre, MeshArith.real, hB]
        linarith
      · left
        have heq' : i + 1 = n := heq
        have a1 := rim1' top ((j : ℝ) / n)
        have a2 := rim1' top (((j + 1 : ℕ) : ℝ) / n)
        have a3 := rim0 top ((j : ℝ) / n)
        have a4 := rim0 top (((j + 1 : ℕ) : ℝ) / n)
        rw [← par1' i heq'] at a1 a2
        have e5 : 1 - (((i + 1 : ℕ) : ℝ)) / n * (1 - 0) = 0 := by rw [heq']; exact par0
        rw [← e5] at a3 a4
        simp only [cellCentre, MeshArith.real, hB]
        linarith
  have lead' : ∀ top, ∀ e ∈ edges (gridMesh MeshArith.real false n n fun i j =>
      rimAt ptan (a.fin_thickness / 2) a.LE_wf PL top (1 - (i : ℝ) / n * (1 - 1)) ((j : ℝ) / n)), 2 * ε < vdist e.1 B := by
    intro top e he
    refine awayx _ (.inr ?_)
    refine grid_convex (C := fun v => B.x + 2 * ε < v.x) ?_ ?_ he
    · intro i hi j hj
      have e1 : 1 - (i : ℝ) / n * (1 - 1) = 1 := by ring
      rw [e1]
      have := (abs_le.1 (rimx top 1 z1 ((j : ℝ) / n))).1
      rw [min_eq_right (by linarith)] at this
      simp only [hB]
      linarith
    · intro p q r s b1 b2 b3 b4
      simp only [cellCentre, MeshArith.real]
      linarith
  have planex : ∀ (P : ℕ → ℕ → V) (c : ℝ), (∀ i ≤ n, ∀ j ≤ n, (P i j).x = c) → ∀ e ∈ edges (gridMesh MeshArith.real false n n P), e.1.x = c := by
    intro P c hP e he
    refine grid_convex (C := fun v => v.x = c) hP ?_ he
    intro p q r s b1 b2 b3 b4
    simp only [cellCentre, MeshArith.real, b1, b2, b3, b4]; ring
  have planey : ∀ (P : ℕ → ℕ → V) (c : ℝ), (∀ i ≤ n, ∀ j ≤ n, (P i j).y = c) → ∀ e ∈ edges (gridMesh MeshArith.real false n n P), e.1.y = c := by
    intro P c hP e he
    refine grid_convex (C := fun v => v.y = c) hP ?_ he
    intro p q r s b1 b2 b3 b4
    simp only [cellCentre, MeshArith.real, b1, b2, b3, b4]; ring
  have planez : ∀ (P : ℕ → ℕ → V) (c : ℝ), (∀ i ≤ n, ∀ j ≤ n, (P i j).z = c) → ∀ e ∈ edges (gridMesh MeshArith.real false n n P), e.1.z = c := by
    intro P c hP e he
    refine grid_convex (C := fun v => v.z = c) hP ?_ he
    intro p q r s b1 b2 b3 b4
    simp only [cellCentre, MeshArith.real, b1, b2, b3, b4]; ring
  have low : a.p3.y ≤ a.p1.y - H / 2 / n := by
    have : H / 2 / n = H / n / 2 := by ring
    rw [q3.2.1]; linarith
  -- the upper skin
  set T := quad n (a.p0 - Fin.half a) (a.p1 - Fin.half a) (a.p2 - Fin.half a) (a.p3 - Fin.half a) with hT
  have Tx : ∀ i j, (T.P i j).x = a.p1.x + (j : ℝ) / n * ℓ := by
    intro i j
    simp only [hT, quad, bil, lineAt, Fin.half, Vec.add_x, Vec.mul_x, Vec.sub_x, q0.1, q2.1, q3.1]; ring
  have Ty : ∀ i j, (T.P i j).y = a.p1.y - H + (i : ℝ) / n * H := by
    intro i j
    simp only [hT, quad, bil, lineAt, Fin.half, Vec.add_y, Vec.mul_y, Vec.sub_y, q0.2.1, q2.2.1, q3.2.1]; ring
  have Tz : ∀ i j, (T.P i j).z = a.p1.z - a.fin_thickness / 2 := by
    intro i j
    simp only [hT, quad, bil, lineAt, Fin.half, Vec.add_z, Vec.mul_z, Vec.sub_z, q0.2.2, q2.2.2, q3.2.2]; ring
  have hTA : T.P n 0 = A := by
    ext
    · rw [Tx]; simp [hA]
    · rw [Ty]; simp [hA, div_self hn0.ne']
    · rw [Tz]
  have hTB : T.P n 1 = B := by
    ext
    · rw [Tx]; simp [hB]; ring
    · rw [Ty]; simp [hB, div_self hn0.ne']
    · rw [Tz]
  have skin : ∀ e ∈ edges (gridMesh MeshArith.real false n n T.P), 2 * ε < vdist e.1 B ∨ 2 * ε < vdist e.2 A := by
    intro e he
    have centre : ∀ i < n, ∀ j < n, (cellCentre MeshArith.real (T.P i j) (T.P (i + 1) j) (T.P i (j + 1)) (T.P (i + 1) (j + 1))).y ≤ a.p1.y - H / 2 / n := by
      intro i hi j hj
      simp only [cellCentre, MeshArith.real, Ty]
      have : ((i : ℝ) + 1) / n * H ≤ H := by
        have : ((i : ℝ) + 1) / n ≤ 1 := (div_le_one hn0).2 (by exact_mod_cast hi)
        nlinarith
      have e1 : (((i + 1 : ℕ) : ℝ)) / n * H = ((i : ℝ) + 1) / n * H := by push_cast; ring
      have e2 : ((i : ℝ) + 1) / n * H = (i : ℝ) / n * H + H / n := by ring
      have e3 : H / 2 / n = H / n / 2 := by ring
      rw [e1]
      linarith
    have awayA : ∀ v : V, v.y ≤ a.p1.y - H / 2 / n → 2 * ε < vdist v A := by
      intro v hv
      refine lt_of_lt_of_le ?_ (vdist_coords v A).2.1
      rw [lt_abs]
      right
      simp only [hA]
      have : H / 2 / n = H / n / 2 := by ring
      linarith
    have fwd : ∀ u v : V, u.x ≤ v.x → 2 * ε < vdist u B ∨ 2 * ε < vdist v A := by
      intro u v huv
      by_contra hc
      push Not at hc
      have c1 := (abs_le.1 ((vdist_coords u B).1.trans hc.1)).1
      have c2 := (abs_le.1 ((vdist_coords v A).1.trans hc.2)).2
      simp only [hA, hB] at c1 c2
      linarith
    obtain ⟨i, hi, j, hj, hc⟩ := grid_edges he
    have step : (((j + 1 : ℕ) : ℝ)) / n * ℓ = (j : ℝ) / n * ℓ + ℓ / n := by push_cast; ring
    have hℓn0 : 0 < ℓ / n := by positivity
    rcases hc with rfl | rfl | rfl | rfl | hc | ⟨hc, -⟩
    · exact fwd _ _ (by simp only [Tx]; exact le_rfl)
    · exact fwd _ _ (by simp only [Tx, step]; linarith)
    · exact fwd _ _ (by simp only [Tx]; exact le_rfl)
    · left
      refine awayy _ ?_
      simp only [Ty]
      have : ((i : ℝ) + 1) / n * H ≤ H := by
        have : ((i : ℝ) + 1) / n ≤ 1 := (div_le_one hn0).2 (by exact_mod_cast hi)
        nlinarith
      have e2 : ((i : ℝ) + 1) / n * H = (i : ℝ) / n * H + H / n := by ring
      have e3 : H / 2 / n = H / n / 2 := by ring
      have : 0 < H / n := by positivity
      linarith
    · left
      rw [hc]
      exact awayy _ (centre i hi j hj)
    · right
      rw [hc]
      exact awayA _ (centre i hi j hj)
  -- together
  have hpre : ∀ e ∈ edges M.tris, ∃ e' : V × V, e = (finMove a o e'.1, finMove a o e'.2) ∧ (2 * ε < vdist e'.1 B ∨ 2 * ε < vdist e'.2 A) := by
    intro e he
    rw [k3] at he
    simp only [edges, List.mem_flatMap, List.mem_flatten, List.mem_map] at he
    obtain ⟨t, ⟨_, ⟨p, hp, rfl⟩, ht⟩, het⟩ := he
    rw [finMove_grid] at ht
    simp only [mapVerts, List.mem_map] at ht
    obtain ⟨s, hs, rfl⟩ := ht
    have : ∃ e' ∈ triEdges s, e = (finMove a o e'.1, finMove a o e'.2) := by
      simp only [triEdges, List.mem_cons, List.not_mem_nil, or_false] at het ⊢
      rcases het with rfl | rfl | rfl
      · exact ⟨_, .inl rfl, rfl⟩
      · exact ⟨_, .inr (.inl rfl), rfl⟩
      · exact ⟨_, .inr (.inr rfl), rfl⟩
    obtain ⟨e', he', rfl⟩ := this
    refine ⟨e', rfl, ?_⟩
    have hep : e' ∈ edges (gridMesh MeshArith.real false n n p.P) := List.mem_flatMap.2 ⟨s, hs, he'⟩
    simp only [List.cons_append, List.nil_append, List.mem_cons, List.not_mem_nil, or_false] at hp
    rcases hp with rfl | rfl | rfl | rfl | rfl | rfl | rfl | rfl | rfl | rfl | rfl | rfl
    · exact skin _ hep
    · left
      refine awayz _ (planez _ _ ?_ _ hep)
      intro i _ j _
      simp only [quad, bil, lineAt, Fin.half, Vec.add_z, Vec.mul_z, q0.2.2, q2.2.2, q3.2.2]; ring
    · exact .inl (lead true _ hep)
    · exact .inl (lead' true _ hep)
    · exact .inl (lead false _ hep)
    · exact .inl (lead' false _ hep)
    · exact .inl (awayy _ ((planey _ _ yb _ hep).trans_le low))
    · left
      refine awayy _ ((planey _ a.p3.y ?_ _ hep).trans_le low)
      intro i _ j _
      simp only [quad, bil, lineAt, Fin.half, Vec.add_y, Vec.mul_y, Vec.sub_y, q0.2.1, q3.2.1]; ring
    · left
      refine awayy _ ((planey _ a.p3.y ?_ _ hep).trans_le low)
      intro i _ j _
      simp only [quad, bil, lineAt, Fin.half, Vec.add_y, Vec.mul_y, q0.2.1, q3.2.1]; ring
    · exact .inl (awayx' _ (planex _ _ xt _ hep))
    · left
      refine awayx' _ (planex _ _ ?_ _ hep)
      intro i _ j _
      simp only [quad, bil, lineAt, Fin.half, Vec.add_x, Vec.mul_x, Vec.sub_x, q0.1]; ring
    · left
      refine awayx' _ (planex _ _ ?_ _ hep)
      intro i _ j _
      simp only [quad, bil, lineAt, Fin.half, Vec.add_x, Vec.mul_x, q0.1]; ring
  refine not_closedUpTo (finMove a o A) (finMove a o B) ?_ ?_
  · rw [k3]
    simp only [List.cons_append, List.nil_append, List.map_cons, List.flatten_cons]
    rw [finMove_grid, edges, List.flatMap_append, List.mem_append]
    left
    have hcell : (⟨A, B, cellCentre MeshArith.real (T.P (n - 1) 0) A (T.P (n - 1) 1) B⟩ : Tri ℝ) ∈ gridMesh MeshArith.real false n n T.P := by
      simp only [gridMesh, List.mem_flatten, List.mem_map, List.mem_range]
      refine ⟨_, ⟨n - 1, by omega, rfl⟩, ?_⟩
      simp only [List.mem_flatten, List.mem_map, List.mem_range]
      refine ⟨_, ⟨0, by omega, rfl⟩, ?_⟩
      simp only [Nat.sub_add_cancel hn1, zero_add, hTA, hTB, cellTris, meshVertex_real]
      simp
    refine List.mem_flatMap.2 ⟨_, List.mem_map.2 ⟨_, hcell, rfl⟩, ?_⟩
    simp [triEdges]
  · intro e he
    obtain ⟨e', rfl, hor⟩ := hpre e he
    simpa only [finMove_isometry] using hor

/-- A rectangular fin of the proportions of the trailing wings of the D-21: not closed up to a centimetre at resolution 3. -/
noncomputable def plankFin : Fin.Args where
  p0 := ⟨0, 0, 0⟩
  p1 := ⟨0, 2, 0⟩
  p2 := ⟨5, 2, 0⟩
  p3 := ⟨5, 0, 0⟩
  fin_thickness := 0.1
  fin_angle := 0
  top_tf := uniformThickness 0.1 "top"
  bot_tf := uniformThickness 0.1 "bot"

theorem defaultWidth_le (t : ℝ) (_ : t ∈ Set.Icc (0 : ℝ) 1) (d : ℝ) (hd : leadingEdgeWidth t = .ok d) : d ≤ 0.06 := by
  rw [leadingEdgeWidth_eq] at hd
  cases hd
  norm_num
  nlinarith [sq_nonneg (t - 1 / 2)]

example (name : Option String) : ∃ h' M c',
    generatePatches (fun _ => Fin.comp roundedBisect ieeeTan plankFin 3 name) 0 = (.ok (), h') ∧ (h' 0).mesh = (.ok M, c') ∧
      ¬ ClosedUpTo 0.01 M.tris := by
  refine C105_rectangles_violated roundedBisect roundedBisect_end ieeeTan plankFin (1 / 100) ⟨0, 0, 0⟩ ?_ 5 2 0.06 ?_ 3 (by norm_num) 0.01
    (by norm_num) (by norm_num) (by norm_num) (by norm_num) (by norm_num [plankFin]) name _ 0 rfl
  · exact {
      like := ieeeTan_like
      thick := by norm_num [plankFin]
      top := rfl
      bot := rfl
      n12 := by simp [plankFin]
      n23 := by simp [plankFin]
      wpos := by norm_num
      fits := ieeeTan_fits _ _ (by simp only [plankFin]; rw [abs_of_pos] <;> norm_num) (by norm_num)
      width := defaultWidth_mem
      sharp := fun h => by simp [plankFin] at h
      offset := rfl }
  · exact {
      p1 := by ext <;> simp [plankFin]
      p2 := by ext <;> simp [plankFin]
      p3 := by ext <;> simp [plankFin]
      height := by norm_num
      longer := by norm_num
      flat := by simp [plankFin]
      width := defaultWidth_le }

end HV
