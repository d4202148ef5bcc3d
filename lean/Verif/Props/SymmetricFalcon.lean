import Verif.Props.Symmetric
import Verif.Props.Falcon9

/-!
# Property C128 for bodies of revolution along one axis: the Falcon 9
-/

namespace HV
open Spec Veh

/-! ## The centre of a revolved body -/

/-- The first moment under one cell of a revolved grid. -/
theorem revolve_cell_moment (p q : V) (a d : ℝ) :
    (firstMoment (cellTris MeshArith.real false (revolveRot a p) (revolveRot a q) (revolveRot (a + d) p) (revolveRot (a + d) q))).x =
      Real.sin d / 2 * ((q.x - p.x) * (p.x * (3 * (p.y ^ 2 + p.z ^ 2) + 2 * (p.y * q.y + p.z * q.z) + (q.y ^ 2 + q.z ^ 2)) +
        q.x * ((p.y ^ 2 + p.z ^ 2) + 2 * (p.y * q.y + p.z * q.z) + 3 * (q.y ^ 2 + q.z ^ 2))) / 12 +
        (p.x ^ 2 * (p.y ^ 2 + p.z ^ 2) - q.x ^ 2 * (q.y ^ 2 + q.z ^ 2)) / 4) := by
  have h := Real.sin_sq_add_cos_sq d
  have hx : ∀ (b : ℝ) (v : V), (revolveRot b v).x = v.x := fun _ _ => rfl
  simp only [cellTris, meshVertex_real, firstMoment, List.map_cons, List.map_nil, List.sum_cons, List.sum_nil, revolveRot_add,
    cellCentre_revolveRot, det3_revolveRot, hx]
  simp only [cellCentre, MeshArith.real, det3, revolveRot]
  linear_combination (((q.x + p.x) / 12 * (q.y * p.z - q.z * p.y)) * (3 * q.x + 3 * p.x) / 8 +
    (p.x - q.x) ^ 2 * (q.y * p.z - q.z * p.y) / 96) * h

theorem moment_flatten (l : List (TriMesh ℝ)) : (firstMoment l.flatten).x = (l.map fun m => (firstMoment m).x).sum := by
  induction l with
  | nil => rfl
  | cons a l ih =>
    rw [List.flatten_cons, List.map_cons, List.sum_cons, ← ih]
    simp [firstMoment]

theorem moment_grid (n m : ℕ) (P : ℕ → ℕ → V) :
    (firstMoment (gridMesh MeshArith.real false n m P)).x = ∑ i ∈ Finset.range n, ∑ j ∈ Finset.range m,
      (firstMoment (cellTris MeshArith.real false (P i j) (P (i + 1) j) (P i (j + 1)) (P (i + 1) (j + 1)))).x := by
  unfold gridMesh
  rw [moment_flatten, List.map_map, sum_map_range]
  apply Finset.sum_congr rfl
  intro i _
  simp only [Function.comp_apply]
  rw [moment_flatten, List.map_map, sum_map_range]
  rfl

/-- Twelve times the first moment about the plane `x = c` of the slice between the rings through two points of the line, up to a factor. -/
def slice (c : ℝ) (p q : V) : ℝ :=
  (q.x - p.x) * ((p.x - c) * (3 * (p.y ^ 2 + p.z ^ 2) + 2 * (p.y * q.y + p.z * q.z) + (q.y ^ 2 + q.z ^ 2)) +
    (q.x - c) * ((p.y ^ 2 + p.z ^ 2) + 2 * (p.y * q.y + p.z * q.z) + 3 * (q.y ^ 2 + q.z ^ 2)))

/-- The first moment of a revolved body whose line begins and ends on the axis, about the plane `x = c`. -/
theorem revolve_moment (f : ℝ → V) (n : ℕ) (hn : 1 ≤ n) (h0 : (f 0).y = 0 ∧ (f 0).z = 0) (h1 : (f 1).y = 0 ∧ (f 1).z = 0) (c : ℝ) :
    (firstMoment (((List.range 4).map (revolveGrid f n)).map (gridMesh MeshArith.real false n n)).flatten).x -
      c * signedVolume (((List.range 4).map (revolveGrid f n)).map (gridMesh MeshArith.real false n n)).flatten =
      (4 * n : ℕ) / 2 * Real.sin (2 * Real.pi / (4 * n : ℕ)) * ∑ i ∈ Finset.range n, slice c (f ((i : ℝ) / n)) (f (((i + 1 : ℕ) : ℝ) / n)) / 12 := by
  have hn0 : (n : ℝ) ≠ 0 := by positivity
  set d : ℝ := 2 * Real.pi / (4 * n : ℕ) with hd
  set F : ℕ → V := fun i => f ((i : ℝ) / n) with hF
  have hcell : ∀ k, (firstMoment (gridMesh MeshArith.real false n n (revolveGrid f n k))).x = ∑ i ∈ Finset.range n,
      n * (Real.sin d / 2 * (slice 0 (F i) (F (i + 1)) / 12 +
        ((F i).x ^ 2 * ((F i).y ^ 2 + (F i).z ^ 2) - (F (i + 1)).x ^ 2 * ((F (i + 1)).y ^ 2 + (F (i + 1)).z ^ 2)) / 4)) := by
    intro k
    rw [moment_grid]
    apply Finset.sum_congr rfl
    intro i _
    have : ∀ j ∈ Finset.range n, (firstMoment (cellTris MeshArith.real false (revolveGrid f n k i j) (revolveGrid f n k (i + 1) j)
        (revolveGrid f n k i (j + 1)) (revolveGrid f n k (i + 1) (j + 1)))).x =
        Real.sin d / 2 * (slice 0 (F i) (F (i + 1)) / 12 +
        ((F i).x ^ 2 * ((F i).y ^ 2 + (F i).z ^ 2) - (F (i + 1)).x ^ 2 * ((F (i + 1)).y ^ 2 + (F (i + 1)).z ^ 2)) / 4) := by
      intro j _
      have ha : (k * Real.pi / 2) * (1 - ((j + 1 : ℕ) : ℝ) / n) + (((k : ℝ) + 1) * Real.pi / 2) * (((j + 1 : ℕ) : ℝ) / n) =
          (k * Real.pi / 2) * (1 - (j : ℝ) / n) + (((k : ℝ) + 1) * Real.pi / 2) * ((j : ℝ) / n) + d := by
        rw [hd]
        push_cast
        field_simp
        ring
      unfold revolveGrid
      rw [ha, revolve_cell_moment]
      simp only [slice, hF, sub_zero]
    rw [Finset.sum_congr rfl this, Finset.sum_const, Finset.card_range, nsmul_eq_mul]
  have htel : ∑ i ∈ Finset.range n, ((F i).x ^ 2 * ((F i).y ^ 2 + (F i).z ^ 2) -
      (F (i + 1)).x ^ 2 * ((F (i + 1)).y ^ 2 + (F (i + 1)).z ^ 2)) = 0 := by
    rw [Finset.sum_range_sub' fun i => (F i).x ^ 2 * ((F i).y ^ 2 + (F i).z ^ 2)]
    simp only [hF, div_self hn0, Nat.cast_zero, zero_div, h0.1, h0.2, h1.1, h1.2]
    ring
  have hm : (firstMoment (((List.range 4).map (revolveGrid f n)).map (gridMesh MeshArith.real false n n)).flatten).x =
      (4 * n : ℕ) / 2 * Real.sin d * ∑ i ∈ Finset.range n, slice 0 (F i) (F (i + 1)) / 12 := by
    rw [moment_flatten, List.map_map, List.map_map, sum_map_range]
    simp only [Function.comp_def, hcell, Finset.sum_const, Finset.card_range, nsmul_eq_mul]
    rw [← Finset.mul_sum, ← Finset.mul_sum, Finset.sum_add_distrib, ← Finset.sum_div, ← Finset.sum_div, htel]
    push_cast
    ring
  rw [hm, revolve_grids f n hn, h0.1, h0.2, h1.1, h1.2]
  unfold polygonalVolume
  rw [← hd, Finset.mul_sum, Finset.mul_sum, Finset.mul_sum]
  have : ∀ A : ℝ, A - (4 * n : ℕ) / 2 * Real.sin d * ((f 1).x * (0 ^ 2 + 0 ^ 2) - (f 0).x * (0 ^ 2 + 0 ^ 2)) / 3 = A := fun A => by ring
  rw [this, Finset.mul_sum, ← Finset.sum_sub_distrib]
  apply Finset.sum_congr rfl
  intro i _
  simp only [slice, hF]
  push_cast
  ring

theorem ring_pos (n : ℕ) (hn : 1 ≤ n) : 0 < (4 * n : ℕ) / 2 * Real.sin (2 * Real.pi / (4 * n : ℕ)) := by
  have hn0 : (0 : ℝ) < n := by exact_mod_cast hn
  apply mul_pos (by positivity)
  apply Real.sin_pos_of_pos_of_lt_pi
  · have := Real.pi_pos; positivity
  · have := Real.pi_pos
    rw [div_lt_iff₀ (by positivity)]
    have : (2 : ℝ) < (4 * n : ℕ) := by exact_mod_cast (by omega : 2 < 4 * n)
    nlinarith

/-- The centre of a body whose line runs back to `x = c` is not behind `c`. -/
theorem centre_before (f : ℝ → V) (hx : ∀ t ∈ Set.Icc (0 : ℝ) 1, ∀ u ∈ Set.Icc (0 : ℝ) 1, t ≤ u → (f u).x ≤ (f t).x)
    (h0 : (f 0).y = 0 ∧ (f 0).z = 0) (h1 : (f 1).y = 0 ∧ (f 1).z = 0) (n : ℕ) (hn : 1 ≤ n)
    (hv : signedVolume (((List.range 4).map (revolveGrid f n)).map (gridMesh MeshArith.real false n n)).flatten < 0) :
    (f 1).x ≤ (centroid (((List.range 4).map (revolveGrid f n)).map (gridMesh MeshArith.real false n n)).flatten).x := by
  have hn0 : (0 : ℝ) < n := by exact_mod_cast hn
  have hm := revolve_moment f n hn h0 h1 (f 1).x
  set m := (((List.range 4).map (revolveGrid f n)).map (gridMesh MeshArith.real false n n)).flatten
  have hmem : ∀ i ≤ n, (i : ℝ) / n ∈ Set.Icc (0 : ℝ) 1 := fun i hi =>
    ⟨by positivity, (div_le_one hn0).2 (by exact_mod_cast hi)⟩
  have hle : ∑ i ∈ Finset.range n, slice (f 1).x (f ((i : ℝ) / n)) (f (((i + 1 : ℕ) : ℝ) / n)) / 12 ≤ 0 := by
    apply Finset.sum_nonpos
    intro i hi
    have hi := Finset.mem_range.1 hi
    have a1 : (f (((i + 1 : ℕ) : ℝ) / n)).x ≤ (f ((i : ℝ) / n)).x :=
      hx _ (hmem i hi.le) _ (hmem (i + 1) hi) (div_le_div_of_nonneg_right (by push_cast; linarith) hn0.le)
    have a2 : (f 1).x ≤ (f (((i + 1 : ℕ) : ℝ) / n)).x := hx _ (hmem (i + 1) hi) 1 ⟨zero_le_one, le_rfl⟩ (hmem (i + 1) hi).2
    set p := f ((i : ℝ) / n)
    set q := f (((i + 1 : ℕ) : ℝ) / n)
    have b1 : 0 ≤ 3 * (p.y ^ 2 + p.z ^ 2) + 2 * (p.y * q.y + p.z * q.z) + (q.y ^ 2 + q.z ^ 2) := by
      nlinarith [sq_nonneg (p.y + q.y), sq_nonneg (p.z + q.z), sq_nonneg p.y, sq_nonneg p.z]
    have b2 : 0 ≤ (p.y ^ 2 + p.z ^ 2) + 2 * (p.y * q.y + p.z * q.z) + 3 * (q.y ^ 2 + q.z ^ 2) := by
      nlinarith [sq_nonneg (p.y + q.y), sq_nonneg (p.z + q.z), sq_nonneg q.y, sq_nonneg q.z]
    have := mul_nonpos_of_nonpos_of_nonneg (sub_nonpos.2 a1) (add_nonneg (mul_nonneg (by linarith : (0 : ℝ) ≤ p.x - (f 1).x) b1)
      (mul_nonneg (by linarith : (0 : ℝ) ≤ q.x - (f 1).x) b2))
    unfold slice
    linarith
  have hneg : (firstMoment m).x - (f 1).x * signedVolume m ≤ 0 := by
    rw [hm]; exact mul_nonpos_of_nonneg_of_nonpos (ring_pos n hn).le hle
  show (f 1).x ≤ (firstMoment m).x * (1 / signedVolume m)
  rw [mul_one_div, le_div_iff_of_neg hv]
  linarith

/-- The centre of a body whose line is the same from both ends is in the middle. -/
theorem centre_middle (f : ℝ → V) (c : ℝ) (hx : ∀ t ∈ Set.Icc (0 : ℝ) 1, (f (1 - t)).x - c = -((f t).x - c) ∧ (f (1 - t)).y = (f t).y ∧
      (f (1 - t)).z = (f t).z)
    (h0 : (f 0).y = 0 ∧ (f 0).z = 0) (h1 : (f 1).y = 0 ∧ (f 1).z = 0) (n : ℕ) (hn : 1 ≤ n)
    (hv : signedVolume (((List.range 4).map (revolveGrid f n)).map (gridMesh MeshArith.real false n n)).flatten ≠ 0) :
    (centroid (((List.range 4).map (revolveGrid f n)).map (gridMesh MeshArith.real false n n)).flatten).x = c := by
  have hn0 : (0 : ℝ) < n := by exact_mod_cast hn
  have hm := revolve_moment f n hn h0 h1 c
  set m := (((List.range 4).map (revolveGrid f n)).map (gridMesh MeshArith.real false n n)).flatten
  have hmem : ∀ i ≤ n, (i : ℝ) / n ∈ Set.Icc (0 : ℝ) 1 := fun i hi =>
    ⟨by positivity, (div_le_one hn0).2 (by exact_mod_cast hi)⟩
  have hz : ∑ i ∈ Finset.range n, slice c (f ((i : ℝ) / n)) (f (((i + 1 : ℕ) : ℝ) / n)) / 12 = 0 := by
    have hr := Finset.sum_range_reflect (fun i : ℕ => slice c (f ((i : ℝ) / n)) (f (((i + 1 : ℕ) : ℝ) / n)) / 12) n
    have : ∀ i ∈ Finset.range n, slice c (f (((n - 1 - i : ℕ) : ℝ) / n)) (f (((n - 1 - i + 1 : ℕ) : ℝ) / n)) / 12 =
        -(slice c (f ((i : ℝ) / n)) (f (((i + 1 : ℕ) : ℝ) / n)) / 12) := by
      intro i hi
      have hi := Finset.mem_range.1 hi
      have e1 : (((n - 1 - i : ℕ) : ℝ) / n) = 1 - (((i + 1 : ℕ) : ℝ) / n) := by
        rw [show n - 1 - i = n - (i + 1) by omega, Nat.cast_sub (by omega)]
        field_simp
      have e2 : (((n - 1 - i + 1 : ℕ) : ℝ) / n) = 1 - ((i : ℝ) / n) := by
        rw [show n - 1 - i + 1 = n - i by omega, Nat.cast_sub (by omega)]
        field_simp
      rw [e1, e2]
      obtain ⟨x1, x2, x3⟩ := hx _ (hmem (i + 1) hi)
      obtain ⟨y1, y2, y3⟩ := hx _ (hmem i hi.le)
      have d : (f (1 - (i : ℝ) / n)).x - (f (1 - ((i + 1 : ℕ) : ℝ) / n)).x = (f (((i + 1 : ℕ) : ℝ) / n)).x - (f ((i : ℝ) / n)).x := by linarith
      unfold slice
      rw [d, x1, x2, x3, y1, y2, y3]
      ring
    rw [Finset.sum_congr rfl this, Finset.sum_neg_distrib] at hr
    linarith
  rw [hz, mul_zero] at hm
  show (firstMoment m).x * (1 / signedVolume m) = c
  rw [mul_one_div, div_eq_iff hv]
  linarith

/-! ## A revolved component of a vehicle -/

theorem revolved_in_vehicle (lib : Lib) (depth : ℕ) (st st' : VState) (hang : st.veh.angleOffset = 0) (htr : st.veh.transformations = [])
    (han : st.veh.analyseOn = none) (hu : Unshared st.heap st.veh.components) (h : generate lib depth st = (.ok (), st')) (k : ℕ)
    (hk : k ∈ st.veh.components) (line : PathObj) (f : ℝ → V) (hl : ∀ t, 0 ≤ t → t ≤ 1 → line.call t = .ok (f t)) (n : ℕ) (hn : 1 ≤ n)
    (hc : st.heap k = RevolvedComponent line n) : ∃ M c, (st'.heap k).mesh = (.ok M, c) ∧
      M.tris = (((List.range 4).map (revolveGrid f n)).map (gridMesh MeshArith.real false n n)).flatten := by
  obtain ⟨g, g1, g2⟩ := generate_plain_component lib depth st st' hang htr han hu h k hk
  obtain ⟨g', M, c, k1, k2, k3⟩ := revolved_mesh line f hl n hn none st.heap k hc
  rw [g1] at k1
  obtain rfl : g = g' := congrArg Prod.snd k1
  obtain ⟨A, B, C, e⟩ := generatePatches_opts st.heap k (by unfold Comp.children; rw [hc]; simp [RevolvedComponent])
  rw [g1] at e
  simp only [hc] at e
  have hp : pipeline 0 (g k) = (.ok (), g k) := by
    apply pipeline_plain <;> rw [e] <;> rfl
  rw [hp] at g2
  rw [← (Prod.mk.inj g2).2]
  exact ⟨M, c, k2, k3⟩

/-- The two bodies of the Falcon 9: their meshes, volumes and centres. -/
theorem falcon_bodies (hp : Heap) (id1 id2 : ℕ) (hid : id1 ≠ id2) (kwargs : Dict String ℝ) (D L_b h r_n r_o f_L : ℝ)
    (ha : FalconArgs kwargs D L_b h r_n r_o f_L) (hd : FalconDims D L_b h r_n r_o f_L) :
    ∃ st, Falcon9.instanceOf hp id1 id2 kwargs = .ok st ∧
    ∀ n1 n2 : ℕ, 2 ≤ n1 → 2 ≤ n2 → ∀ (lib : Lib) (depth : ℕ), ∃ st' M1 M2 c1 c2,
      generate lib depth (withResolution (withResolution st id1 n1) id2 n2) = (.ok (), st') ∧
      st'.veh = { falconVeh id1 id2 with generated := true } ∧
      (st'.heap id1).mesh = (.ok M1, c1) ∧ (st'.heap id2).mesh = (.ok M2, c2) ∧ Closed M1.tris ∧ Closed M2.tris ∧
      TurnSymmetric M1.tris ∧ TurnSymmetric M2.tris ∧ signedVolume M1.tris < 0 ∧ signedVolume M2.tris < 0 ∧
      -1.3 * f_L ≤ (centroid M1.tris).x ∧ (centroid M2.tris).x = -f_L - L_b / 2 := by
  obtain ⟨st, P, Q, h1, h2, h3, h4, bP, bQ, fQ⟩ := falcon_core hp id1 id2 hid kwargs D L_b h r_n r_o f_L ha hd
  obtain ⟨st0, e0, -, hneg⟩ := C102_violated hp id1 id2 hid kwargs D L_b h r_n r_o f_L ha hd
  rw [h1] at e0
  obtain rfl := Except.ok.inj e0
  refine ⟨st, h1, fun n1 n2 hn1 hn2 lib depth => ?_⟩
  obtain ⟨st', M1, M2, c1, c2, s1, s2, s3, s4, s5⟩ := hneg n1 n2 hn1 hn2 lib depth
  obtain ⟨st1, N1, N2, e1, e2, t1, t2, t3, t4, t5, -⟩ :=
    falcon_generate st id1 id2 hid h2 P Q 100 50 h3 h4 _ _ _ _ bP bQ n1 n2 (by omega) (by omega) lib depth
  rw [s1] at t1
  obtain rfl : st' = st1 := congrArg Prod.snd t1
  rw [s2] at t2
  rw [s3] at t3
  obtain rfl := Except.ok.inj (Prod.mk.inj t2).1
  obtain rfl := Except.ok.inj (Prod.mk.inj t3).1
  set w := withResolution (withResolution st id1 n1) id2 n2 with hw
  have w1 : w.heap id1 = RevolvedComponent P n1 := by
    show ((st.heap.upd id1 _).upd id2 _) id1 = _
    rw [upd_ne _ _ _ _ hid, upd_self, h3]; rfl
  have w2 : w.heap id2 = RevolvedComponent Q n2 := by
    show ((st.heap.upd id1 _).upd id2 { (st.heap.upd id1 _) id2 with stl_resolution := .int n2 }) id2 = _
    rw [upd_self, upd_ne _ _ _ _ hid.symm, h4]; rfl
  have wv : w.veh = falconVeh id1 id2 := h2
  have hcs : w.veh.components = [id1, id2] := by rw [wv]; rfl
  have hun : Unshared w.heap w.veh.components := by
    rw [hcs]
    refine unshared_leaves _ _ (by simp [hid]) ?_
    intro k hk
    simp only [List.mem_cons, List.not_mem_nil, or_false] at hk
    rcases hk with rfl | rfl
    · unfold Comp.children; rw [w1]; rfl
    · unfold Comp.children; rw [w2]; rfl
  obtain ⟨X1, d1, x1, y1⟩ := revolved_in_vehicle lib depth w st' (by rw [wv]; rfl) (by rw [wv]; rfl) (by rw [wv]; rfl) hun s1 id1
    (by rw [hcs]; simp) P (fnOf P) (fun t _ _ => bP.good.call t) n1 (by omega) w1
  obtain ⟨X2, d2, x2, y2⟩ := revolved_in_vehicle lib depth w st' (by rw [wv]; rfl) (by rw [wv]; rfl) (by rw [wv]; rfl) hun s1 id2
    (by rw [hcs]; simp) Q (fnOf Q) (fun t _ _ => bQ.good.call t) n2 (by omega) w2
  rw [s2] at x1
  rw [s3] at x2
  obtain rfl := Except.ok.inj (Prod.mk.inj x1).1
  obtain rfl := Except.ok.inj (Prod.mk.inj x2).1
  have hv : st'.veh = { falconVeh id1 id2 with generated := true } := by
    obtain ⟨-, h2, -, -, e3, -⟩ := generate_steps lib depth w st' s1
    simp only [genAnalyse, wv, falconVeh] at e3
    rw [← (Prod.mk.inj e3).2]
    rfl
  refine ⟨st', M1, M2, c1, c2, s1, hv, s2, s3, t4, t5, by rw [y1]; exact grids_symmetric _ _, by rw [y2]; exact grids_symmetric _ _, s4, s5, ?_, ?_⟩
  · rw [y1]
    rw [y1] at s4
    have := centre_before (fnOf P) bP.back (by rw [bP.first]; exact ⟨rfl, rfl⟩) (by rw [bP.last]; exact ⟨rfl, rfl⟩) n1 (by omega) s4
    rwa [bP.last] at this
  · rw [y2]
    rw [y2] at s5
    refine centre_middle (fnOf Q) _ (fun t ht => ?_) (by rw [bQ.first]; exact ⟨rfl, rfl⟩) (by rw [bQ.last]; exact ⟨rfl, rfl⟩) n2 (by omega) s5.ne
    obtain ⟨a1, a2, a3⟩ := fQ t ht
    obtain ⟨b1, b2, b3⟩ := fQ (1 - t) ⟨by linarith [ht.2], by linarith [ht.1]⟩
    have hL := hd.body.2
    refine ⟨?_, ?_, by rw [a3, b3]⟩
    · rw [a1, b1]
      have : ((1 - t) * (D + L_b) - D / 2) / L_b = 1 - (t * (D + L_b) - D / 2) / L_b := by field_simp; ring
      rw [this]
      generalize (t * (D + L_b) - D / 2) / L_b = u
      have : max 0 (min 1 (1 - u)) = 1 - max 0 (min 1 u) := by
        rcases le_total u 0 with h | h
        · rw [min_eq_left (by linarith), min_eq_right (by linarith), max_eq_right (by norm_num), max_eq_left h]; norm_num
        · rcases le_total u 1 with h' | h'
          · rw [min_eq_right (by linarith), min_eq_right h', max_eq_right (by linarith), max_eq_right h]
          · rw [min_eq_right (by linarith), min_eq_left h', max_eq_left (by linarith), max_eq_right (by norm_num)]; norm_num
      rw [this]
      ring
    · rw [a2, b2, sub_sub_cancel, min_comm ((1 - t) * (D + L_b))]


/-- The components of an analysis of a vehicle of symmetric bodies: each centre of gravity is on the axis, at the centre of the body, and
no component has products of inertia. -/
theorem symmetric_components (lib : Lib) (hl : NumpyStlInertia lib) (dens : Dict String ℝ) (h : Heap) (l : List (String × ℕ))
    (ps : List (String × CompProps)) (bs : List (ℝ × TriMesh ℝ)) (h1 : List.Forall₂ (AssessedAs lib dens h) l ps)
    (h2 : List.Forall₂ (Solid dens h) l bs) (h0 : ∀ b ∈ bs, signedVolume b.2 ≠ 0) (hs : ∀ b ∈ bs, TurnSymmetric b.2) :
    List.Forall₂ (fun (q : String × CompProps) (b : ℝ × TriMesh ℝ) => q.2.props.mass = b.1 * signedVolume b.2 ∧
      q.2.props.cog = ⟨(centroid b.2).x, 0, 0⟩ ∧ q.2.props.moi 1 1 = q.2.props.moi 2 2 ∧ ∀ i j, i ≠ j → q.2.props.moi i j = 0) ps bs := by
  induction h1 generalizing bs with
  | nil => cases h2; exact .nil
  | cons h1 _ ih =>
    cases h2 with
    | @cons _ b _ bs h2 h3 =>
      refine .cons ?_ (ih _ h3 (fun b hb => h0 b (by simp [hb])) fun b hb => hs b (by simp [hb]))
      obtain ⟨-, M, c, ρ, k1, k2, k3, -⟩ := h1
      obtain ⟨M', c', j1, j2, j3, j4⟩ := h2
      rw [k1] at j1
      obtain ⟨rfl⟩ := Except.ok.inj (Prod.mk.inj j1).1
      rw [k2] at j4
      obtain ⟨rfl⟩ := Option.some.inj j4
      have hb0 := h0 b (by simp)
      have hbs := hs b (by simp)
      rw [← j2] at hb0 hbs j3
      obtain ⟨-, m2, m3⟩ := C111_component lib hl.toNumpyStl M j3 _ _ k3
      obtain ⟨y, z, e, o⟩ := C128_component lib hl M j3 hbs _ _ k3 hb0
      refine ⟨by rw [m2, j2], ?_, e, o⟩
      ext
      · rw [m3 hb0, j2]
      · exact y
      · exact z

/-- A vehicle whose named components have meshes can be analysed with a library that never raises, once a density is given for every name. -/
theorem analyse_succeeds (lib : Lib) (hlib : ∀ M ρ, ∃ q, lib.massProps M ρ = .ok q) (st : VState) (dens : Dict String ℝ) (depth : ℕ)
    (hg : st.veh.generated = true) (hn : st.veh.named ≠ [])
    (hm : ∀ e ∈ st.veh.named, ∃ M c, (st.heap e.2).mesh = (.ok M, c)) (hd : ∀ e ∈ st.veh.named, ∃ ρ, dens.get? e.1 = some ρ) :
    ∃ a st', analyse lib (depth + 1) st dens = (.ok a, st') := by
  have : ∀ l : List (String × ℕ), (∀ e ∈ l, ∃ M c, (st.heap e.2).mesh = (.ok M, c)) → (∀ e ∈ l, ∃ ρ, dens.get? e.1 = some ρ) →
      ∃ ps, List.Forall₂ (AssessedAs lib dens st.heap) l ps := by
    intro l h1 h2
    induction l with
    | nil => exact ⟨[], .nil⟩
    | cons e l ih =>
      obtain ⟨ps, hps⟩ := ih (fun e he => h1 e (by simp [he])) (fun e he => h2 e (by simp [he]))
      obtain ⟨M, c, hM⟩ := h1 e (by simp)
      obtain ⟨ρ, hρ⟩ := h2 e (by simp)
      obtain ⟨q, hq⟩ := hlib M ρ
      exact ⟨(e.1, ⟨q, lib.area M⟩) :: ps, .cons ⟨rfl, M, c, ρ, hM, hρ, hq, rfl⟩ hps⟩
  obtain ⟨ps, hps⟩ := this _ hm hd
  have hne : ps ≠ [] := by
    rintro rfl
    exact hn (List.forall₂_nil_right_iff.1 hps)
  have hs : ∃ a, summarise ps = .ok a := by
    unfold summarise compositeCog
    rcases ps with _ | ⟨e, ps⟩
    · exact absurd rfl hne
    · simp only
      split_ifs
      · exact ⟨_, rfl⟩
      · exact ⟨_, rfl⟩
  obtain ⟨a, ha⟩ := hs
  obtain ⟨st', k⟩ := (analyseGenerated_ok lib st dens a).2 ⟨ps, hps, ha⟩
  exact ⟨a, st', by rw [analyse_generated _ _ _ _ hg]; exact k⟩

/-- C128 for the Falcon 9, in part: for all sensible dimensions, resolutions from 2 and positive densities the analysis reports a centre of
gravity on the axis; each of the two bodies has its centre of gravity on the axis, no products of inertia and equal inertia about y and z.
Missing: the inertia reported for the vehicle, see `C128_falcon9_violated`. -/
theorem C128_falcon9_partial (hp : Heap) (id1 id2 : ℕ) (hid : id1 ≠ id2) (kwargs : Dict String ℝ) (D L_b h r_n r_o f_L : ℝ)
    (ha : FalconArgs kwargs D L_b h r_n r_o f_L) (hd : FalconDims D L_b h r_n r_o f_L) (lib : Lib) (hl : NumpyStlInertia lib) (depth : ℕ)
    (dens : Dict String ℝ) (ρ1 ρ2 : ℝ) (hρ1 : 0 < ρ1) (hρ2 : 0 < ρ2) (d1 : dens.get? "revolved_1" = some ρ1) (d2 : dens.get? "revolved_2" = some ρ2) :
    ∃ st, Falcon9.instanceOf hp id1 id2 kwargs = .ok st ∧ ∀ n1 n2 : ℕ, 2 ≤ n1 → 2 ≤ n2 →
      ∃ st', generate lib depth (withResolution (withResolution st id1 n1) id2 n2) = (.ok (), st') ∧
      ∀ a st'', analyse lib (depth + 1) st' dens = (.ok a, st'') → (∃ x, a.cog = some ⟨x, 0, 0⟩) ∧
        ∀ q ∈ a.components, q.2.props.cog.y = 0 ∧ q.2.props.cog.z = 0 ∧ q.2.props.moi 1 1 = q.2.props.moi 2 2 ∧
          ∀ i j, i ≠ j → q.2.props.moi i j = 0 := by
  obtain ⟨st, h1, h2⟩ := falcon_bodies hp id1 id2 hid kwargs D L_b h r_n r_o f_L ha hd
  refine ⟨st, h1, fun n1 n2 hn1 hn2 => ?_⟩
  obtain ⟨st', M1, M2, c1, c2, s1, s2, s3, s4, s5, s6, s7, s8, s9, s10, -⟩ := h2 n1 n2 hn1 hn2 lib depth
  refine ⟨st', s1, fun a st'' hA => ?_⟩
  have hsolid : List.Forall₂ (Solid dens st'.heap) st'.veh.named [(ρ1, M1.tris), (ρ2, M2.tris)] := by
    rw [s2]
    exact .cons ⟨M1, c1, s3, rfl, s5, d1⟩ (.cons ⟨M2, c2, s4, rfl, s6, d2⟩ .nil)
  have hne : ∀ b ∈ [(ρ1, M1.tris), (ρ2, M2.tris)], signedVolume b.2 ≠ 0 := by
    simp only [List.mem_cons, List.not_mem_nil, or_false]
    rintro b (rfl | rfl)
    · exact s9.ne
    · exact s10.ne
  have hsym : ∀ b ∈ [(ρ1, M1.tris), (ρ2, M2.tris)], TurnSymmetric b.2 := by
    simp only [List.mem_cons, List.not_mem_nil, or_false]
    rintro b (rfl | rfl)
    · exact s7
    · exact s8
  have hmass : a.mass ≠ 0 := by
    rw [(C111_vehicle_partial lib hl.toNumpyStl depth st' st'' dens a (by rw [s2]) hA _ hsolid).2.1]
    simp only [List.map_cons, List.map_nil, List.sum_cons, List.sum_nil]
    have := mul_neg_of_pos_of_neg hρ1 s9
    have := mul_neg_of_pos_of_neg hρ2 s10
    linarith
  refine ⟨C128_vehicle lib hl.toNumpyStl depth st' st'' dens a (by rw [s2]) hA _ hsolid hne hmass (turnBalanced_of_symmetric _ hsym), ?_⟩
  have hk := symmetric_components lib hl dens st'.heap _ _ _ (C76_sums lib depth st' st'' dens a (by rw [s2]) hA).components hsolid hne hsym
  intro q hq
  obtain ⟨b, -, -, e, y, z⟩ := exists_of_mem hk hq
  exact ⟨by rw [e], by rw [e], y, z⟩

/-- C128 is violated by the Falcon 9: for all sensible dimensions with a body longer than 0.6 times the cylindrical part of the fairing,
all resolutions from 2 and all positive densities, the tensor of inertia reported for the vehicle has the nonzero products of inertia
`I₁₀ = I₂₀`, although the vehicle is a body of revolution, and is not symmetric: `I₀₁ = I₀₂ = 0`. -/
theorem C128_falcon9_violated (hp : Heap) (id1 id2 : ℕ) (hid : id1 ≠ id2) (kwargs : Dict String ℝ) (D L_b h r_n r_o f_L : ℝ)
    (ha : FalconArgs kwargs D L_b h r_n r_o f_L) (hd : FalconDims D L_b h r_n r_o f_L) (hlong : 0.6 * f_L < L_b)
    (lib : Lib) (hl : NumpyStlInertia lib) (depth : ℕ)
    (dens : Dict String ℝ) (ρ1 ρ2 : ℝ) (hρ1 : 0 < ρ1) (hρ2 : 0 < ρ2) (d1 : dens.get? "revolved_1" = some ρ1) (d2 : dens.get? "revolved_2" = some ρ2) :
    ∃ st, Falcon9.instanceOf hp id1 id2 kwargs = .ok st ∧ ∀ n1 n2 : ℕ, 2 ≤ n1 → 2 ≤ n2 →
      ∃ st', generate lib depth (withResolution (withResolution st id1 n1) id2 n2) = (.ok (), st') ∧
      ((∀ M ρ, ∃ q, lib.massProps M ρ = .ok q) → ∃ a st'', analyse lib (depth + 1) st' dens = (.ok a, st'')) ∧
      ∀ a st'', analyse lib (depth + 1) st' dens = (.ok a, st'') →
        ∃ I, a.moi = some I ∧ I 1 0 < 0 ∧ I 2 0 = I 1 0 ∧ I 0 1 = 0 ∧ I 0 2 = 0 := by
  obtain ⟨st, h1, h2⟩ := falcon_bodies hp id1 id2 hid kwargs D L_b h r_n r_o f_L ha hd
  refine ⟨st, h1, fun n1 n2 hn1 hn2 => ?_⟩
  obtain ⟨st', M1, M2, c1, c2, s1, s2, s3, s4, s5, s6, s7, s8, s9, s10, s11, s12⟩ := h2 n1 n2 hn1 hn2 lib depth
  have hsolid : List.Forall₂ (Solid dens st'.heap) st'.veh.named [(ρ1, M1.tris), (ρ2, M2.tris)] := by
    rw [s2]
    exact .cons ⟨M1, c1, s3, rfl, s5, d1⟩ (.cons ⟨M2, c2, s4, rfl, s6, d2⟩ .nil)
  refine ⟨st', s1, fun hlib => ?_, fun a st'' hA => ?_⟩
  · refine analyse_succeeds lib hlib st' dens depth (by rw [s2]) (by rw [s2]; simp [falconVeh]) ?_ ?_
    · intro e he
      obtain ⟨b, -, M, c, k, -⟩ := exists_of_mem hsolid he
      exact ⟨M, c, k⟩
    · intro e he
      obtain ⟨b, -, M, c, -, -, -, k⟩ := exists_of_mem hsolid he
      exact ⟨_, k⟩
  have hne : ∀ b ∈ [(ρ1, M1.tris), (ρ2, M2.tris)], signedVolume b.2 ≠ 0 := by
    simp only [List.mem_cons, List.not_mem_nil, or_false]
    rintro b (rfl | rfl)
    · exact s9.ne
    · exact s10.ne
  have hsym : ∀ b ∈ [(ρ1, M1.tris), (ρ2, M2.tris)], TurnSymmetric b.2 := by
    simp only [List.mem_cons, List.not_mem_nil, or_false]
    rintro b (rfl | rfl)
    · exact s7
    · exact s8
  have m1 := mul_neg_of_pos_of_neg hρ1 s9
  have m2 := mul_neg_of_pos_of_neg hρ2 s10
  have hmass : a.mass ≠ 0 := by
    rw [(C111_vehicle_partial lib hl.toNumpyStl depth st' st'' dens a (by rw [s2]) hA _ hsolid).2.1]
    simp only [List.map_cons, List.map_nil, List.sum_cons, List.sum_nil]
    linarith
  obtain ⟨x, hx⟩ := C128_vehicle lib hl.toNumpyStl depth st' st'' dens a (by rw [s2]) hA _ hsolid hne hmass (turnBalanced_of_symmetric _ hsym)
  obtain ⟨g, I, e1, e2, e3⟩ := moi_returned lib depth st' st'' dens a (by rw [s2]) hA hmass
  rw [hx] at e1
  obtain rfl := Option.some.inj e1
  have hk := symmetric_components lib hl dens st'.heap _ _ _ (C76_sums lib depth st' st'' dens a (by rw [s2]) hA).components hsolid hne hsym
  rcases hc : a.components with _ | ⟨q1, _ | ⟨q2, _ | ⟨q3, r⟩⟩⟩
  · rw [hc] at hk; cases hk
  · rw [hc] at hk
    cases hk with
    | cons _ hk => cases hk
  · rw [hc] at hk
    cases hk with
    | cons k1 hk =>
      cases hk with
      | cons k2 hk =>
        obtain ⟨a1, a2, -, a4⟩ := k1
        obtain ⟨b1, b2, -, b4⟩ := k2
        have key : ∀ i j, i ≠ j → I i j = ρ1 * signedVolume M1.tris * coord ((⟨(centroid M1.tris).x, 0, 0⟩ : V) - ⟨x, 0, 0⟩) j ^ 2 +
            ρ2 * signedVolume M2.tris * coord ((⟨(centroid M2.tris).x, 0, 0⟩ : V) - ⟨x, 0, 0⟩) j ^ 2 := by
          intro i j hij
          rw [e3, hc]
          simp only [List.map_cons, List.map_nil, List.sum_cons, List.sum_nil, a1, a2, b1, b2, a4 i j hij, b4 i j hij]
          ring
        refine ⟨I, e2, ?_, ?_, ?_, ?_⟩
        · rw [key 1 0 (by decide)]
          simp only [coord, Matrix.cons_val_zero, Vec.sub_x]
          have hgap : (centroid M2.tris).x < (centroid M1.tris).x := by rw [s12]; linarith
          have p1 := mul_nonneg (neg_nonneg.2 m1.le) (sq_nonneg ((centroid M1.tris).x - x))
          have p2 := mul_nonneg (neg_nonneg.2 m2.le) (sq_nonneg ((centroid M2.tris).x - x))
          by_contra hcon
          push Not at hcon
          have z1 : ρ1 * signedVolume M1.tris * ((centroid M1.tris).x - x) ^ 2 = 0 := by linarith
          have z2 : ρ2 * signedVolume M2.tris * ((centroid M2.tris).x - x) ^ 2 = 0 := by linarith
          have w1 := pow_eq_zero_iff (two_ne_zero) |>.1 ((mul_eq_zero.1 z1).resolve_left m1.ne)
          have w2 := pow_eq_zero_iff (two_ne_zero) |>.1 ((mul_eq_zero.1 z2).resolve_left m2.ne)
          linarith
        · rw [key 1 0 (by decide), key 2 0 (by decide)]
        · rw [key 0 1 (by decide)]
          simp [coord]
        · rw [key 0 2 (by decide)]
          simp [coord]
  · rw [hc] at hk
    cases hk with
    | cons _ hk =>
      cases hk with
      | cons _ hk => cases hk

/-- numpy-stl with its tensor of inertia as a library. -/
noncomputable def Spec.numpyStlFull : Lib where
  massProps M ρ := .ok ⟨stlVolume M.tris, ρ * stlVolume M.tris, stlMoment M.tris * (1 / stlVolume M.tris),
    inertiaOf (stlSecond M.tris) ρ (stlVolume M.tris) (stlMoment M.tris * (1 / stlVolume M.tris))⟩
  area _ := 0

theorem numpyStlFull_ok : NumpyStlInertia numpyStlFull where
  volume := by intro M ρ q h; cases h; rfl
  mass := by intro M ρ q h; cases h; rfl
  cog := by intro M ρ q h _; cases h; rfl
  moi := by intro M ρ q h _ i j; cases h; rfl

/-- The default Falcon 9 meets the hypotheses of `C128_falcon9_violated`. -/
example : FalconArgs [] 3.75 60 (5 / 2) 0.75 7 6 ∧ FalconDims 3.75 60 (5 / 2) 0.75 7 6 ∧ (0.6 : ℝ) * 6 < 60 ∧ NumpyStlInertia numpyStlFull ∧
    ∀ M ρ, ∃ q, numpyStlFull.massProps M ρ = .ok q :=
  ⟨⟨by simp [Dict.keys], .inr ⟨by simp, rfl⟩, .inr ⟨by simp, rfl⟩, .inr ⟨by simp, rfl⟩, .inr ⟨by simp, rfl⟩, .inr ⟨by simp, rfl⟩,
    .inr ⟨by simp, rfl⟩⟩, ⟨by norm_num, by norm_num, by norm_num, by norm_num⟩, by norm_num, numpyStlFull_ok, fun _ _ => ⟨_, rfl⟩⟩

/-- The default Finner meets the hypotheses of `C128_finner`. -/
example : FinnerArgs [] ⟨1, 10, 2.84, 1, 1, 0.08⟩ ∧ (0 : ℝ) < 1 ∧ (2.84 : ℝ) ≤ 10 ∧ (0 : ℝ) < 0.08 := by
  refine ⟨⟨by simp [Dict.keys], .inr ⟨by simp, rfl⟩, .inr ⟨by simp, rfl⟩, .inr ⟨by simp, rfl⟩, .inr ⟨by simp, rfl⟩, .inr ⟨by simp, rfl⟩,
    .inr ⟨by simp, rfl⟩⟩, by norm_num, by norm_num, by norm_num⟩

/-- A closed mesh that looks the same after a quarter turn and encloses a volume: the octahedron. -/
example : ∃ m : TriMesh ℝ, Closed m ∧ TurnSymmetric m ∧ signedVolume m = 4 / 3 := by
  refine ⟨[⟨⟨1, 0, 0⟩, ⟨0, 1, 0⟩, ⟨0, 0, 1⟩⟩, ⟨⟨-1, 0, 0⟩, ⟨0, 0, 1⟩, ⟨0, 1, 0⟩⟩, ⟨⟨1, 0, 0⟩, ⟨0, 0, 1⟩, ⟨0, -1, 0⟩⟩, ⟨⟨-1, 0, 0⟩, ⟨0, -1, 0⟩, ⟨0, 0, 1⟩⟩,
    ⟨⟨1, 0, 0⟩, ⟨0, -1, 0⟩, ⟨0, 0, -1⟩⟩, ⟨⟨-1, 0, 0⟩, ⟨0, 0, -1⟩, ⟨0, -1, 0⟩⟩, ⟨⟨1, 0, 0⟩, ⟨0, 0, -1⟩, ⟨0, 1, 0⟩⟩, ⟨⟨-1, 0, 0⟩, ⟨0, 1, 0⟩, ⟨0, 0, -1⟩⟩], ?_, ?_, ?_⟩
  · rw [closed_iff_edgeSum]
    intro φ hφ
    simp only [edges, List.flatMap_cons, List.flatMap_nil, triEdges, edgeSum, List.cons_append, List.nil_append, List.map_cons, List.map_nil,
      List.sum_cons, List.sum_nil, List.append_nil]
    have a : ∀ u v : V, φ u v + φ v u = 0 := fun u v => by rw [hφ u v]; ring
    have e1 := a ⟨1, 0, 0⟩ ⟨0, 1, 0⟩
    have e2 := a ⟨1, 0, 0⟩ ⟨0, 0, 1⟩
    have e3 := a ⟨1, 0, 0⟩ ⟨0, -1, 0⟩
    have e4 := a ⟨1, 0, 0⟩ ⟨0, 0, -1⟩
    have f1 := a ⟨-1, 0, 0⟩ ⟨0, 1, 0⟩
    have f2 := a ⟨-1, 0, 0⟩ ⟨0, 0, 1⟩
    have f3 := a ⟨-1, 0, 0⟩ ⟨0, -1, 0⟩
    have f4 := a ⟨-1, 0, 0⟩ ⟨0, 0, -1⟩
    have g1 := a ⟨0, 1, 0⟩ ⟨0, 0, 1⟩
    have g2 := a ⟨0, 0, 1⟩ ⟨0, -1, 0⟩
    have g3 := a ⟨0, -1, 0⟩ ⟨0, 0, -1⟩
    have g4 := a ⟨0, 0, -1⟩ ⟨0, 1, 0⟩
    linarith
  · unfold TurnSymmetric mapVerts
    simp only [List.map_cons, List.map_nil, quarterTurn, neg_zero, neg_neg]
    exact List.perm_append_comm (l₁ := [_, _, _, _, _, _]) (l₂ := [_, _])
  · norm_num [signedVolume, det3]

end HV
