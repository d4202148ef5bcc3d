import Verif.Props.Polygon
import Verif.Props.RevolvedEnds
import Verif.Lemmas.MeshVertex
import Verif.Props.Convergence

/-! C149: triangles of a generated mesh that have no area. -/

namespace HV.Spec

/-- The three corners of the triangle lie on one line. -/
def Degenerate (t : Tri ℝ) : Prop :=
  ∃ p d : V, (∃ k : ℝ, t.v0 = p + d * k) ∧ (∃ k : ℝ, t.v1 = p + d * k) ∧ ∃ k : ℝ, t.v2 = p + d * k

end HV.Spec

namespace HV
open Spec

theorem Spec.Degenerate.area {t : Tri ℝ} (h : Degenerate t) (k : Fin 3) : triArea2 t k = 0 := by
  obtain ⟨p, d, ⟨a, ha⟩, ⟨b, hb⟩, c, hc⟩ := h
  fin_cases k <;> simp [triArea2, ha, hb, hc] <;> ring

/-- A triangle two of whose corners agree has no area. -/
theorem degenerate_of_eq {t : Tri ℝ} (h : t.v0 = t.v1) : Degenerate t :=
  ⟨t.v0, t.v2 - t.v0, ⟨0, by ext <;> simp⟩, ⟨0, by rw [← h]; ext <;> simp⟩, 1, by ext <;> simp⟩

theorem meshVertex_false (p : V) : meshVertex MeshArith.real false p = p := by
  ext <;> simp [meshVertex, MeshArith.real]

/-- The triangles of a cell over the reals. -/
theorem cellTris_eq (p00 p10 p01 p11 : V) : cellTris MeshArith.real false p00 p10 p01 p11 =
    [⟨p00, p10, ⟨(p00.x + p10.x + p01.x + p11.x) / 4, (p00.y + p10.y + p01.y + p11.y) / 4, (p00.z + p10.z + p01.z + p11.z) / 4⟩⟩,
      ⟨p10, p11, ⟨(p00.x + p10.x + p01.x + p11.x) / 4, (p00.y + p10.y + p01.y + p11.y) / 4, (p00.z + p10.z + p01.z + p11.z) / 4⟩⟩,
      ⟨p11, p01, ⟨(p00.x + p10.x + p01.x + p11.x) / 4, (p00.y + p10.y + p01.y + p11.y) / 4, (p00.z + p10.z + p01.z + p11.z) / 4⟩⟩,
      ⟨p01, p00, ⟨(p00.x + p10.x + p01.x + p11.x) / 4, (p00.y + p10.y + p01.y + p11.y) / 4, (p00.z + p10.z + p01.z + p11.z) / 4⟩⟩] := by
  have e : cellCentre MeshArith.real p00 p10 p01 p11 =
      ⟨(p00.x + p10.x + p01.x + p11.x) / 4, (p00.y + p10.y + p01.y + p11.y) / 4, (p00.z + p10.z + p01.z + p11.z) / 4⟩ := by
    ext <;> simp [cellCentre, MeshArith.real] <;> ring
  simp only [cellTris, meshVertex_false, e]

/-! ### Cubes and spheres -/

/-- The area of the triangle on one edge of a cell, seen along the normal of the face, does not vanish. -/
theorem cell_cross {c a0 a1 b0 b1 α0 α1 β0 β1 A : ℝ} (hc : 0 ≤ c) (hc' : c ≤ 1 / 6) (hA : 1 / 3 ≤ A - c)
    (ha0 : a0 ^ 2 ≤ 1) (ha1 : a1 ^ 2 ≤ 1) (hb0 : b0 ^ 2 ≤ 1) (hb1 : b1 ^ 2 ≤ 1)
    (α0p : 0 < α0) (α1p : 0 < α1) (β0p : 0 < β0) (β1p : 0 < β1)
    (eα0 : α0 ^ 2 = A - c * b0 ^ 2) (eα1 : α1 ^ 2 = A - c * b1 ^ 2) (eβ0 : β0 ^ 2 = A - c * a0 ^ 2) (eβ1 : β1 ^ 2 = A - c * a1 ^ 2)
    (ha : a0 ≠ a1) (hb : b0 ≠ b1) :
    (a1 * α0 - a0 * α0) * (b1 * β0 + b1 * β1 - b0 * β0 - b0 * β1) - (b0 * β1 - b0 * β0) * (a0 * α1 + a1 * α1 - a0 * α0 - a1 * α0) ≠ 0 := by
  have lo : ∀ x : ℝ, x ^ 2 ≤ 1 → 1 / 3 ≤ A - c * x ^ 2 := fun x hx => by
    have := mul_le_mul_of_nonneg_left hx hc
    linarith
  have qα0 : 1 / 3 ≤ α0 ^ 2 := eα0 ▸ lo b0 hb0
  have qα1 : 1 / 3 ≤ α1 ^ 2 := eα1 ▸ lo b1 hb1
  have qβ0 : 1 / 3 ≤ β0 ^ 2 := eβ0 ▸ lo a0 ha0
  have qβ1 : 1 / 3 ≤ β1 ^ 2 := eβ1 ▸ lo a1 ha1
  have pr : ∀ x y : ℝ, 0 < x → 0 < y → 1 / 3 ≤ x ^ 2 → 1 / 3 ≤ y ^ 2 → 1 / 3 ≤ x * y := by
    intro x y hx hy h1 h2
    have : (1 / 3 : ℝ) ^ 2 ≤ (x * y) ^ 2 := by
      rw [mul_pow, sq]
      exact mul_le_mul h1 h2 (by norm_num) (sq_nonneg _)
    exact le_of_sq_le_sq this (by positivity)
  have f1 : 2 / 3 ≤ α0 * (α0 + α1) := by
    have := pr α0 α1 α0p α1p qα0 qα1
    linarith [(by ring : α0 * (α0 + α1) = α0 ^ 2 + α0 * α1)]
  have f2 : 4 / 3 ≤ (β0 + β1) ^ 2 := by
    have := pr β0 β1 β0p β1p qβ0 qβ1
    linarith [(by ring : (β0 + β1) ^ 2 = β0 ^ 2 + 2 * (β0 * β1) + β1 ^ 2)]
  have f3 : 8 / 9 ≤ α0 * (α0 + α1) * (β0 + β1) ^ 2 := by
    calc (8 / 9 : ℝ) = 2 / 3 * (4 / 3) := by norm_num
      _ ≤ _ := mul_le_mul f1 f2 (by norm_num) (by positivity)
  have g1 : b0 * (b0 + b1) ≤ 2 := by linarith [sq_nonneg (b0 - b1), (by ring : (b0 - b1) ^ 2 = b0 ^ 2 + b1 ^ 2 - 2 * (b0 * b1)), (by ring : b0 * (b0 + b1) = b0 ^ 2 + b0 * b1)]
  have g2 : (a0 + a1) ^ 2 ≤ 4 := by linarith [sq_nonneg (a0 - a1), (by ring : (a0 - a1) ^ 2 = 2 * a0 ^ 2 + 2 * a1 ^ 2 - (a0 + a1) ^ 2)]
  have g3 : b0 * (b0 + b1) * (a0 + a1) ^ 2 ≤ 8 := by
    rcases le_total (b0 * (b0 + b1)) 0 with h | h
    · have := mul_nonpos_of_nonpos_of_nonneg h (sq_nonneg (a0 + a1))
      linarith
    · calc _ ≤ (2 : ℝ) * 4 := mul_le_mul g1 g2 (sq_nonneg _) (by norm_num)
        _ = 8 := by norm_num
  have g4 : c ^ 2 ≤ 1 / 36 := by
    calc c ^ 2 ≤ (1 / 6) ^ 2 := pow_le_pow_left₀ hc hc' 2
      _ = 1 / 36 := by norm_num
  have g5 : c ^ 2 * (b0 * (b0 + b1) * (a0 + a1) ^ 2) ≤ 2 / 9 := by
    rcases le_total (b0 * (b0 + b1) * (a0 + a1) ^ 2) 0 with h | h
    · have := mul_nonpos_of_nonneg_of_nonpos (sq_nonneg c) h
      linarith
    · calc _ ≤ (1 / 36 : ℝ) * 8 := mul_le_mul g4 g3 h (by norm_num)
        _ = 2 / 9 := by norm_num
  have e1 : (α1 - α0) * (α0 + α1) = -(c * (b1 - b0) * (b0 + b1)) := by linear_combination eα1 - eα0
  have e2 : (β1 - β0) * (β0 + β1) = -(c * (a1 - a0) * (a0 + a1)) := by linear_combination eβ1 - eβ0
  intro h
  have key : (a1 - a0) * (b1 - b0) * (α0 * (α0 + α1) * (β0 + β1) ^ 2 - c ^ 2 * (b0 * (b0 + b1) * (a0 + a1) ^ 2)) = 0 := by
    have : (a1 - a0) * (b1 - b0) * (α0 * (α0 + α1) * (β0 + β1) ^ 2) - b0 * (a0 + a1) * ((α1 - α0) * (α0 + α1)) * ((β1 - β0) * (β0 + β1)) = 0 := by
      linear_combination ((α0 + α1) * (β0 + β1)) * h
    rw [e1, e2] at this
    linear_combination this
  rcases mul_eq_zero.1 key with k | k
  · rcases mul_eq_zero.1 k with k | k
    · exact ha (by linarith)
    · exact hb (by linarith)
  · linarith

/-- A face whose points are displaced from a plane grid by factors that depend on the other coordinate. -/
structure Bulge (c A r : ℝ) (g : ℝ → ℝ) : Prop where
  lo : 0 ≤ c
  hi : c ≤ 1 / 6
  big : 1 / 3 ≤ A - c
  pos : ∀ x : ℝ, x ^ 2 ≤ 1 → 0 < g x
  sq : ∀ x : ℝ, x ^ 2 ≤ 1 → g x ^ 2 = A - c * x ^ 2
  size : r ≠ 0

theorem bulge_spread {c A r : ℝ} {g : ℝ → ℝ} (h : Bulge c A r g) (k : Fin 3) (u v : V → ℝ) (σ : ℝ) (hσ : σ ≠ 0)
    (harea : ∀ t : Tri ℝ, triArea2 t k = σ * ((u t.v1 - u t.v0) * (v t.v2 - v t.v0) - (v t.v1 - v t.v0) * (u t.v2 - u t.v0)))
    {p00 p10 p01 p11 : V} {a0 a1 b0 b1 cu cv : ℝ} (ha0 : a0 ^ 2 ≤ 1) (ha1 : a1 ^ 2 ≤ 1) (hb0 : b0 ^ 2 ≤ 1) (hb1 : b1 ^ 2 ≤ 1)
    (ha : a0 ≠ a1) (hb : b0 ≠ b1)
    (hu : u ⟨(p00.x + p10.x + p01.x + p11.x) / 4, (p00.y + p10.y + p01.y + p11.y) / 4, (p00.z + p10.z + p01.z + p11.z) / 4⟩ =
      (u p00 + u p10 + u p01 + u p11) / 4)
    (hv : v ⟨(p00.x + p10.x + p01.x + p11.x) / 4, (p00.y + p10.y + p01.y + p11.y) / 4, (p00.z + p10.z + p01.z + p11.z) / 4⟩ =
      (v p00 + v p10 + v p01 + v p11) / 4)
    (u00 : u p00 = a0 * g b0 * r + cu) (u10 : u p10 = a1 * g b0 * r + cu) (u01 : u p01 = a0 * g b1 * r + cu) (u11 : u p11 = a1 * g b1 * r + cu)
    (v00 : v p00 = b0 * g a0 * r + cv) (v10 : v p10 = b0 * g a1 * r + cv) (v01 : v p01 = b1 * g a0 * r + cv) (v11 : v p11 = b1 * g a1 * r + cv) :
    ∀ t ∈ cellTris MeshArith.real false p00 p10 p01 p11, ¬ Degenerate t := by
  have K := fun {a0 a1 b0 b1 : ℝ} (ha0 : a0 ^ 2 ≤ 1) (ha1 : a1 ^ 2 ≤ 1) (hb0 : b0 ^ 2 ≤ 1) (hb1 : b1 ^ 2 ≤ 1) =>
    cell_cross h.lo h.hi h.big ha0 ha1 hb0 hb1 (h.pos _ hb0) (h.pos _ hb1) (h.pos _ ha0) (h.pos _ ha1) (h.sq _ hb0) (h.sq _ hb1)
      (h.sq _ ha0) (h.sq _ ha1)
  have hr : σ * (r ^ 2 / 4) ≠ 0 := mul_ne_zero hσ (div_ne_zero (pow_ne_zero _ h.size) (by norm_num))
  intro t ht hd
  have h0 := hd.area k
  rw [harea] at h0
  rw [cellTris_eq] at ht
  simp only [List.mem_cons, List.not_mem_nil, or_false] at ht
  rcases ht with rfl | rfl | rfl | rfl <;> simp only [hu, hv, u00, u10, u01, u11, v00, v10, v01, v11] at h0
  · refine K ha0 ha1 hb0 hb1 ha hb ((mul_eq_zero.1 (?_ : σ * (r ^ 2 / 4) * _ = 0)).resolve_left hr)
    linear_combination h0
  · refine K hb0 hb1 ha1 ha0 hb ha.symm ((mul_eq_zero.1 (?_ : σ * (r ^ 2 / 4) * _ = 0)).resolve_left hr)
    linear_combination -h0
  · refine K ha1 ha0 hb1 hb0 ha.symm hb.symm ((mul_eq_zero.1 (?_ : σ * (r ^ 2 / 4) * _ = 0)).resolve_left hr)
    linear_combination h0
  · refine K hb1 hb0 ha0 ha1 hb.symm ha ((mul_eq_zero.1 (?_ : σ * (r ^ 2 / 4) * _ = 0)).resolve_left hr)
    linear_combination -h0

theorem gridT_sq (n i : ℕ) (hn : 1 ≤ n) (hi : i ≤ n) : gridT n i ^ 2 ≤ 1 := by
  obtain ⟨a1, a2⟩ := gridT_mem n i hn hi
  nlinarith

/-- The faces of a cube or sphere have no degenerate triangles. -/
theorem faces_spread {c A r : ℝ} (G : ℝ → ℝ → ℝ) (h : Bulge c A r (G 1)) (hs : ∀ x y, G x y = G y x) (hm : ∀ x, G (-1) x = G 1 x)
    (centre : V) (n : ℕ) (hn : 1 ≤ n) (f : String) :
    ∀ t ∈ gridMesh MeshArith.real false n n (fun i j => (fun p : V => (⟨p.x * G p.y p.z * r + centre.x, p.y * G p.x p.z * r + centre.y,
      p.z * G p.x p.y * r + centre.z⟩ : V)) (facePt n f i j)), ¬ Degenerate t := by
  intro t ht
  obtain ⟨i, hi, j, hj, ht⟩ := (mem_gridMesh _ _ _ _ _ _).1 ht
  have qi := gridT_sq n i hn hi.le
  have qi' := gridT_sq n (i + 1) hn hi
  have qj := gridT_sq n j hn hj.le
  have qj' := gridT_sq n (j + 1) hn hj
  have ni := (gridT_lt n i hn).ne
  have nj := (gridT_lt n j hn).ne
  have s1 : ∀ x, G x 1 = G 1 x := fun x => hs _ _
  have s2 : ∀ x, G x (-1) = G 1 x := fun x => by rw [hs, hm]
  have yz := fun {p00 p10 p01 p11 : V} => bulge_spread (p00 := p00) (p10 := p10) (p01 := p01) (p11 := p11) h 0 Vec.y Vec.z 1 one_ne_zero (fun t => by simp [triArea2]) (cu := centre.y) (cv := centre.z) qi qi' qj qj' ni nj
  have xz := fun {p00 p10 p01 p11 : V} => bulge_spread (p00 := p00) (p10 := p10) (p01 := p01) (p11 := p11) h 1 Vec.x Vec.z (-1) (by norm_num) (fun t => by simp [triArea2]) (cu := centre.x) (cv := centre.z) qi qi' qj qj' ni nj
  have xy := fun {p00 p10 p01 p11 : V} => bulge_spread (p00 := p00) (p10 := p10) (p01 := p01) (p11 := p11) h 2 Vec.x Vec.y 1 one_ne_zero (fun t => by simp [triArea2]) (cu := centre.x) (cv := centre.y) qi qi' qj qj' ni nj
  unfold facePt at ht
  split_ifs at ht
  · exact yz (by rfl) (by rfl) rfl rfl rfl rfl rfl rfl rfl rfl t ht
  · exact yz (by rfl) (by rfl) (by simp only [hm]) (by simp only [hm]) (by simp only [hm]) (by simp only [hm]) (by simp only [hm]) (by simp only [hm])
      (by simp only [hm]) (by simp only [hm]) t ht
  · exact xz (by rfl) (by rfl) (by simp only [hm]) (by simp only [hm]) (by simp only [hm]) (by simp only [hm]) (by simp only [s2]) (by simp only [s2])
      (by simp only [s2]) (by simp only [s2]) t ht
  · exact xz (by rfl) (by rfl) rfl rfl rfl rfl (by simp only [s1]) (by simp only [s1]) (by simp only [s1]) (by simp only [s1]) t ht
  · exact xy (by rfl) (by rfl) (by simp only [s2]) (by simp only [s2]) (by simp only [s2]) (by simp only [s2]) (by simp only [s2]) (by simp only [s2])
      (by simp only [s2]) (by simp only [s2]) t ht
  · exact xy (by rfl) (by rfl) (by simp only [s1]) (by simp only [s1]) (by simp only [s1]) (by simp only [s1]) (by simp only [s1]) (by simp only [s1])
      (by simp only [s1]) (by simp only [s1]) t ht

/-- C149 for cubes: whatever the resolution, no triangle of the mesh of a cube is degenerate. -/
theorem C149_cube (a : ℝ) (ha : a ≠ 0) (centre : V) (n : ℕ) (hn : 1 ≤ n) (name : Option String) (h : Heap) (id : ℕ)
    (hid : h id = Cube a centre n name) :
    ∃ h' M c', generatePatches h id = (.ok (), h') ∧ (h' id).mesh = (.ok M, c') ∧ ∀ t ∈ M.tris, ¬ Degenerate t := by
  obtain ⟨h', M, c', hg, hM, -, -, ht⟩ := faces_mesh h id (CubePatch a centre)
    (fun p => ⟨p.x * (fun _ _ => 1 : ℝ → ℝ → ℝ) p.y p.z * a + centre.x, p.y * (fun _ _ => 1 : ℝ → ℝ → ℝ) p.x p.z * a + centre.y,
      p.z * (fun _ _ => 1 : ℝ → ℝ → ℝ) p.x p.y * a + centre.z⟩) n hn
    (by
      intro f hf i _ j _
      simp only [CubePatch, cubeFace_grid n f hf, bind, Except.bind, pure, Except.pure, mul_one])
    (by rw [hid]; rfl) (by rw [hid]; rfl) (by rw [hid]; rfl) (by rw [hid]; rfl) (by rw [hid]; rfl) (by rw [hid]; rfl)
  refine ⟨h', M, c', hg, hM, fun t h1 => ?_⟩
  rw [ht, List.mem_flatten] at h1
  obtain ⟨l, hl, h1⟩ := h1
  obtain ⟨P, hP, rfl⟩ := List.mem_map.1 hl
  obtain ⟨f, -, rfl⟩ := List.mem_map.1 hP
  exact faces_spread (c := 0) (A := 1) (r := a) (fun _ _ => 1) ⟨le_rfl, by norm_num, by norm_num, fun _ _ => one_pos, fun _ _ => by norm_num, ha⟩
    (fun _ _ => rfl) (fun _ => rfl) centre n hn f t h1

/-- C149 for spheres. -/
theorem C149_sphere (r : ℝ) (hr : r ≠ 0) (centre : V) (n : ℕ) (hn : 1 ≤ n) (name : Option String) (h : Heap) (id : ℕ)
    (hid : h id = Sphere r centre n name) :
    ∃ h' M c', generatePatches h id = (.ok (), h') ∧ (h' id).mesh = (.ok M, c') ∧ ∀ t ∈ M.tris, ¬ Degenerate t := by
  obtain ⟨h', M, c', hg, hM, -, -, ht⟩ := faces_mesh h id (SpherePatch r centre)
    (fun p => ⟨p.x * sphereG p.y p.z * r + centre.x, p.y * sphereG p.x p.z * r + centre.y,
      p.z * sphereG p.x p.y * r + centre.z⟩) n hn
    (fun f hf i hi j hj => SpherePatch_grid r centre n hn f hf i hi j hj)
    (by rw [hid]; rfl) (by rw [hid]; rfl) (by rw [hid]; rfl) (by rw [hid]; rfl) (by rw [hid]; rfl) (by rw [hid]; rfl)
  refine ⟨h', M, c', hg, hM, fun t h1 => ?_⟩
  rw [ht, List.mem_flatten] at h1
  obtain ⟨l, hl, h1⟩ := h1
  obtain ⟨P, hP, rfl⟩ := List.mem_map.1 hl
  obtain ⟨f, -, rfl⟩ := List.mem_map.1 hP
  have pos : ∀ x : ℝ, x ^ 2 ≤ 1 → 0 < 1 - 0.5 * 1 * 1 - 0.5 * x * x + 1 * 1 * x * x / 3 := fun x hx => by nlinarith
  refine faces_spread (c := 1 / 6) (A := 1 / 2) (r := r) sphereG ⟨by norm_num, le_rfl, by norm_num, fun x hx => Real.sqrt_pos.2 (pos x hx), fun x hx => ?_, hr⟩
    sphereG_symm (fun x => by unfold sphereG; congr 1; ring) centre n hn f t h1
  rw [sphereG, Real.sq_sqrt (pos x hx).le]
  ring

example : ∃ h' M c', generatePatches (fun _ => Cube 1 ⟨0, 0, 0⟩ 5 none) 0 = (.ok (), h') ∧ (h' 0).mesh = (.ok M, c') ∧ ∀ t ∈ M.tris, ¬ Degenerate t :=
  C149_cube 1 one_ne_zero _ 5 (by norm_num) none _ 0 rfl

/-! ### Bodies of revolution -/

/-- The four triangles of a cell of a body of revolution: a degenerate one lies on an edge around the axis whose end points
agree, unless the two sections are both on the axis or the same. -/
theorem revolved_cell {x0 y0 x1 y1 θ0 θ1 : ℝ} (hy0 : 0 ≤ y0) (hy1 : 0 ≤ y1) (hy : 0 < y0 + y1) (hne : ¬ (x0 = x1 ∧ y0 = y1))
    (hs : 0 < Real.sin (θ1 - θ0)) (t : Tri ℝ)
    (ht : t ∈ cellTris MeshArith.real false (revolveRot θ0 ⟨x0, y0, 0⟩) (revolveRot θ0 ⟨x1, y1, 0⟩) (revolveRot θ1 ⟨x0, y0, 0⟩)
      (revolveRot θ1 ⟨x1, y1, 0⟩)) (hd : Degenerate t) :
    (y1 = 0 ∧ t.v0 = ⟨x1, 0, 0⟩ ∧ t.v1 = ⟨x1, 0, 0⟩) ∨ (y0 = 0 ∧ t.v0 = ⟨x0, 0, 0⟩ ∧ t.v1 = ⟨x0, 0, 0⟩) := by
  have e : Real.sin θ1 * Real.cos θ0 - Real.cos θ1 * Real.sin θ0 = Real.sin (θ1 - θ0) := (Real.sin_sub _ _).symm
  have q0 := Real.sin_sq_add_cos_sq θ0
  have q1 := Real.sin_sq_add_cos_sq θ1
  have A0 := hd.area 0
  have A1 := hd.area 1
  have A2 := hd.area 2
  generalize Real.sin (θ1 - θ0) = σ at hs e
  simp only [revolveRot] at ht
  generalize Real.sin θ0 = s0 at *
  generalize Real.cos θ0 = c0 at *
  generalize Real.sin θ1 = s1 at *
  generalize Real.cos θ1 = c1 at *
  -- what the three components say once the factor `m` does not vanish
  have fin : ∀ m : ℝ, m ≠ 0 → m * ((y1 - y0) * σ) = 0 → m * ((x1 - x0) * (c1 - c0)) = 0 → m * ((x1 - x0) * (s1 - s0)) = 0 → False := by
    intro m hm h0 h1 h2
    have h0 := (mul_eq_zero.1 h0).resolve_left hm
    have h1 := (mul_eq_zero.1 h1).resolve_left hm
    have h2 := (mul_eq_zero.1 h2).resolve_left hm
    have dy : y1 - y0 = 0 := (mul_eq_zero.1 h0).resolve_right hs.ne'
    by_cases dx : x1 - x0 = 0
    · exact hne ⟨by linarith, by linarith⟩
    · have k1 : c1 = c0 := by linarith [(mul_eq_zero.1 h1).resolve_left dx]
      have k2 : s1 = s0 := by linarith [(mul_eq_zero.1 h2).resolve_left dx]
      rw [k1, k2] at e
      linarith
  rw [cellTris_eq] at ht
  simp only [List.mem_cons, List.not_mem_nil, or_false] at ht
  rcases ht with rfl | rfl | rfl | rfl <;> simp only [triArea2, Matrix.cons_val_zero, Matrix.cons_val_one, Matrix.cons_val] at A0 A1 A2
  · exfalso
    refine fin (y0 + y1) hy.ne' ?_ ?_ ?_
    · rw [← e]; first | linear_combination 4 * A0 | linear_combination -4 * A0
    · first | linear_combination 4 * A2 | linear_combination -4 * A2
    · first | linear_combination 4 * A1 | linear_combination -4 * A1
  · by_cases h1 : y1 = 0
    · left
      subst h1
      exact ⟨rfl, by simp, by simp⟩
    · exfalso
      refine fin y1 h1 ?_ ?_ ?_
      · rw [← e]; first | linear_combination 2 * A0 | linear_combination -2 * A0
      · first | linear_combination 2 * A2 | linear_combination -2 * A2
      · first | linear_combination 2 * A1 | linear_combination -2 * A1
  · exfalso
    refine fin (y0 + y1) hy.ne' ?_ ?_ ?_
    · rw [← e]; first | linear_combination 4 * A0 | linear_combination -4 * A0
    · first | linear_combination 4 * A2 | linear_combination -4 * A2
    · first | linear_combination 4 * A1 | linear_combination -4 * A1
  · by_cases h1 : y0 = 0
    · right
      subst h1
      exact ⟨rfl, by simp, by simp⟩
    · exfalso
      refine fin y0 h1 ?_ ?_ ?_
      · rw [← e]; first | linear_combination 2 * A0 | linear_combination -2 * A0
      · first | linear_combination 2 * A2 | linear_combination -2 * A2
      · first | linear_combination 2 * A1 | linear_combination -2 * A1

/-- Degenerate triangles of a body of revolution sit at the ends of the profile. -/
theorem revolved_grid {f : ℝ → V} {n : ℕ} (hn : 1 ≤ n) (hz : ∀ t ∈ Set.Icc (0 : ℝ) 1, (f t).z = 0)
    (hinj : Set.InjOn f (Set.Icc 0 1)) (hy : ∀ t ∈ Set.Icc (0 : ℝ) 1, 0 ≤ (f t).y)
    (hp : ∀ i < n, 0 < (f ((i : ℝ) / n)).y + (f (((i + 1 : ℕ) : ℝ) / n)).y) (t : Tri ℝ)
    (ht : t ∈ (((List.range 4).map (revolveGrid f n)).map (gridMesh MeshArith.real false n n)).flatten) (hd : Degenerate t) :
    ∃ i ≤ n, (f ((i : ℝ) / n)).y = 0 ∧ t.v0 = f ((i : ℝ) / n) ∧ t.v1 = f ((i : ℝ) / n) := by
  have hn0 : (0 : ℝ) < n := by positivity
  rw [List.mem_flatten] at ht
  obtain ⟨l, hl, h1⟩ := ht
  obtain ⟨P, hP, rfl⟩ := List.mem_map.1 hl
  obtain ⟨k, -, rfl⟩ := List.mem_map.1 hP
  obtain ⟨i, hi, j, hj, h1⟩ := (mem_gridMesh _ _ _ _ _ _).1 h1
  have m0 : ((i : ℝ) / n) ∈ Set.Icc (0 : ℝ) 1 := frac_mem hn hi.le
  have m1 : (((i + 1 : ℕ) : ℝ) / n) ∈ Set.Icc (0 : ℝ) 1 := frac_mem hn hi
  have e0 : f ((i : ℝ) / n) = ⟨(f ((i : ℝ) / n)).x, (f ((i : ℝ) / n)).y, 0⟩ := by ext <;> simp [hz _ m0]
  have e1 : f (((i + 1 : ℕ) : ℝ) / n) = ⟨(f (((i + 1 : ℕ) : ℝ) / n)).x, (f (((i + 1 : ℕ) : ℝ) / n)).y, 0⟩ := by rw [← hz _ m1]
  have hne : ¬ ((f ((i : ℝ) / n)).x = (f (((i + 1 : ℕ) : ℝ) / n)).x ∧ (f ((i : ℝ) / n)).y = (f (((i + 1 : ℕ) : ℝ) / n)).y) := by
    rintro ⟨h2, h3⟩
    have : f ((i : ℝ) / n) = f (((i + 1 : ℕ) : ℝ) / n) := by rw [e0, e1, h2, h3]
    have := hinj m0 m1 this
    rw [div_left_inj' hn0.ne'] at this
    push_cast at this
    linarith
  unfold revolveGrid at h1
  rw [e0, e1] at h1
  have hs : 0 < Real.sin (((k * Real.pi / 2) * (1 - ((j + 1 : ℕ) : ℝ) / n) + (((k : ℝ) + 1) * Real.pi / 2) * (((j + 1 : ℕ) : ℝ) / n)) -
      ((k * Real.pi / 2) * (1 - (j : ℝ) / n) + (((k : ℝ) + 1) * Real.pi / 2) * ((j : ℝ) / n))) := by
    have e : ((k * Real.pi / 2) * (1 - ((j + 1 : ℕ) : ℝ) / n) + (((k : ℝ) + 1) * Real.pi / 2) * (((j + 1 : ℕ) : ℝ) / n)) -
      ((k * Real.pi / 2) * (1 - (j : ℝ) / n) + (((k : ℝ) + 1) * Real.pi / 2) * ((j : ℝ) / n)) = Real.pi / 2 / n := by
      push_cast; field_simp; ring
    rw [e]
    have n1 : (1 : ℝ) ≤ n := by exact_mod_cast hn
    apply Real.sin_pos_of_pos_of_lt_pi (by positivity)
    rw [div_lt_iff₀ hn0]
    nlinarith [Real.pi_pos]
  rcases revolved_cell (hy _ m0) (hy _ m1) (hp i hi) hne hs t h1 hd with ⟨h2, h3, h4⟩ | ⟨h2, h3, h4⟩
  · refine ⟨i + 1, hi, h2, ?_, ?_⟩ <;> rw [e1, h2] <;> assumption
  · refine ⟨i, hi.le, h2, ?_, ?_⟩ <;> rw [e0, h2] <;> assumption

/-- C149 for bodies of revolution whose profile stays off the axis: no triangle is degenerate. -/
theorem C149_revolved_open (line : PathObj) (f : ℝ → V) (hl : ∀ t, 0 ≤ t → t ≤ 1 → line.call t = .ok (f t))
    (hz : ∀ t ∈ Set.Icc (0 : ℝ) 1, (f t).z = 0) (hinj : Set.InjOn f (Set.Icc 0 1)) (hy : ∀ t ∈ Set.Icc (0 : ℝ) 1, 0 < (f t).y)
    (n : ℕ) (hn : 1 ≤ n) (name : Option String) (h : Heap) (id : ℕ) (hid : h id = RevolvedComponent line n name) :
    ∃ h' M c', generatePatches h id = (.ok (), h') ∧ (h' id).mesh = (.ok M, c') ∧ ∀ t ∈ M.tris, ¬ Degenerate t := by
  obtain ⟨h', M, c', g1, g2, g3⟩ := revolved_mesh line f hl n hn name h id hid
  refine ⟨h', M, c', g1, g2, fun t ht hd => ?_⟩
  rw [g3] at ht
  obtain ⟨i, hi, h1, -⟩ := revolved_grid hn hz hinj (fun t ht => (hy t ht).le)
    (fun i hi => add_pos (hy _ (frac_mem hn hi.le)) (hy _ (frac_mem hn hi))) t ht hd
  exact (hy _ (frac_mem hn hi)).ne' h1

/-- C149 for bodies of revolution in general: apart from slivers at the two ends of the profile, with two corners in the
same point of the axis, no triangle is degenerate. -/
theorem C149_revolved_partial (line : PathObj) (f : ℝ → V) (hl : ∀ t, 0 ≤ t → t ≤ 1 → line.call t = .ok (f t))
    (hz : ∀ t ∈ Set.Icc (0 : ℝ) 1, (f t).z = 0) (hinj : Set.InjOn f (Set.Icc 0 1)) (hy : ∀ t ∈ Set.Ioo (0 : ℝ) 1, 0 < (f t).y)
    (hy0 : 0 ≤ (f 0).y) (hy1 : 0 ≤ (f 1).y)
    (n : ℕ) (hn : 2 ≤ n) (name : Option String) (h : Heap) (id : ℕ) (hid : h id = RevolvedComponent line n name) :
    ∃ h' M c', generatePatches h id = (.ok (), h') ∧ (h' id).mesh = (.ok M, c') ∧
      ∀ t ∈ M.tris, Degenerate t → OnXAxis t.v0 ∧ t.v1 = t.v0 ∧ (t.v0 = f 0 ∨ t.v0 = f 1) := by
  obtain ⟨h', M, c', g1, g2, g3⟩ := revolved_mesh line f hl n (by omega) name h id hid
  have hn0 : (0 : ℝ) < n := by positivity
  have sgn : ∀ t ∈ Set.Icc (0 : ℝ) 1, 0 ≤ (f t).y := by
    rintro t ⟨h1, h2⟩
    rcases h1.eq_or_lt with rfl | h1
    · exact hy0
    rcases h2.eq_or_lt with rfl | h2
    · exact hy1
    exact (hy t ⟨h1, h2⟩).le
  have inner : ∀ i : ℕ, 0 < i → i < n → 0 < (f ((i : ℝ) / n)).y := by
    intro i h1 h2
    apply hy
    constructor
    · positivity
    · rw [div_lt_one hn0]; exact_mod_cast h2
  refine ⟨h', M, c', g1, g2, fun t ht hd => ?_⟩
  rw [g3] at ht
  obtain ⟨i, hi, h1, h2, h3⟩ := revolved_grid (by omega) hz hinj sgn (fun i hi => by
    have a0 := sgn _ (frac_mem (n := n) (by omega) hi.le)
    have a1 := sgn _ (frac_mem (n := n) (i := i + 1) (by omega) hi)
    rcases Nat.eq_zero_or_pos i with rfl | h0
    · have := inner 1 one_pos hn
      simp only [zero_add] at a1 ⊢
      linarith
    · have := inner i h0 hi
      linarith) t ht hd
  have m := frac_mem (n := n) (by omega) hi
  refine ⟨?_, by rw [h2, h3], ?_⟩
  · rw [h2]; exact ⟨h1, hz _ m⟩
  · rcases Nat.eq_zero_or_pos i with rfl | h0
    · left; rw [h2]; simp
    · rcases hi.eq_or_lt with rfl | hi
      · right; rw [h2, div_self hn0.ne']
      · exact absurd h1 (inner i h0 hi).ne'

/-- C149 fails for every body of revolution that is closed at one of its ends, at every resolution: the mesh contains a
triangle two of whose corners are the same point. -/
theorem C149_revolved_violated (line : PathObj) (f : ℝ → V) (hl : ∀ t, 0 ≤ t → t ≤ 1 → line.call t = .ok (f t))
    (hend : OnXAxis (f 0) ∨ OnXAxis (f 1)) (n : ℕ) (hn : 1 ≤ n) (name : Option String) (h : Heap) (id : ℕ)
    (hid : h id = RevolvedComponent line n name) :
    ∃ h' M c', generatePatches h id = (.ok (), h') ∧ (h' id).mesh = (.ok M, c') ∧ ∃ t ∈ M.tris, Degenerate t ∧ t.v0 = t.v1 := by
  obtain ⟨h', M, c', g1, g2, g3⟩ := revolved_mesh line f hl n hn name h id hid
  have hn0 : (n : ℝ) ≠ 0 := by positivity
  have fix : ∀ (a : ℝ) (p : V), OnXAxis p → revolveRot a p = p := by
    rintro a p ⟨h1, h2⟩
    ext <;> simp [revolveRot, h1, h2]
  have mem : ∀ i < n, ∀ j < n, ∀ t ∈ cellTris MeshArith.real false (revolveGrid f n 0 i j) (revolveGrid f n 0 (i + 1) j)
      (revolveGrid f n 0 i (j + 1)) (revolveGrid f n 0 (i + 1) (j + 1)), t ∈ M.tris := by
    intro i hi j hj t ht
    rw [g3, List.mem_flatten]
    exact ⟨_, List.mem_map.2 ⟨_, List.mem_map.2 ⟨0, by simp, rfl⟩, rfl⟩, (mem_gridMesh _ _ _ _ _ _).2 ⟨i, hi, j, hj, ht⟩⟩
  refine ⟨h', M, c', g1, g2, ?_⟩
  rcases hend with h0 | h1
  · have e : ∀ j, revolveGrid f n 0 0 j = f 0 := by
      intro j
      rw [revolveGrid, Nat.cast_zero, zero_div]
      exact fix _ _ h0
    have hm := mem 0 hn 0 hn
    rw [cellTris_eq] at hm
    refine ⟨_, hm _ (List.mem_cons_of_mem _ (List.mem_cons_of_mem _ (List.mem_cons_of_mem _ List.mem_cons_self))), degenerate_of_eq ?_, ?_⟩ <;>
      simp only [e]
  · have e : ∀ j, revolveGrid f n 0 (n - 1 + 1) j = f 1 := by
      intro j
      rw [revolveGrid, Nat.sub_add_cancel hn, div_self hn0]
      exact fix _ _ h1
    have hm := mem (n - 1) (by omega) 0 hn
    rw [cellTris_eq] at hm
    refine ⟨_, hm _ (List.mem_cons_of_mem _ List.mem_cons_self), degenerate_of_eq ?_, ?_⟩ <;> simp only [e]

/-- A frustum has none, a cone has one. -/
example : (∃ h' M c', generatePatches (fun _ => RevolvedComponent (Line ⟨0, 1, 0⟩ ⟨2, 3, 0⟩) 4 none) 0 = (.ok (), h') ∧
      (h' 0).mesh = (.ok M, c') ∧ ∀ t ∈ M.tris, ¬ Degenerate t) ∧
    ∃ h' M c', generatePatches (fun _ => RevolvedComponent (Line ⟨0, 0, 0⟩ ⟨2, 3, 0⟩) 4 none) 0 = (.ok (), h') ∧
      (h' 0).mesh = (.ok M, c') ∧ ∃ t ∈ M.tris, Degenerate t ∧ t.v0 = t.v1 := by
  constructor
  · refine C149_revolved_open _ (fun t => ⟨2 * t, 1 + 2 * t, 0⟩) (fun t _ _ => ?_) (fun _ _ => rfl) ?_ (fun t ht => ?_) 4 (by norm_num) none _ 0 rfl
    · simp only [Line, lineAt, Except.ok.injEq]; ext <;> simp <;> ring
    · intro s _ t _ h
      have := congrArg Vec.x h
      simpa using this
    · show (0 : ℝ) < 1 + 2 * t
      linarith [ht.1]
  · refine C149_revolved_violated _ (fun t => ⟨2 * t, 3 * t, 0⟩) (fun t _ _ => ?_) (.inl ⟨by simp, rfl⟩) 4 (by norm_num) none _ 0 rfl
    simp only [Line, lineAt, Except.ok.injEq]; ext <;> simp <;> ring

/-- A spindle: degenerate triangles only at its tips. -/
example (line : PathObj) (hl : ∀ t, 0 ≤ t → t ≤ 1 → line.call t = .ok ⟨t, t * (1 - t), 0⟩) :
    ∃ h' M c', generatePatches (fun _ => RevolvedComponent line 3 none) 0 = (.ok (), h') ∧ (h' 0).mesh = (.ok M, c') ∧
      ∀ t ∈ M.tris, Degenerate t → OnXAxis t.v0 ∧ t.v1 = t.v0 ∧ (t.v0 = ⟨0, 0, 0⟩ ∨ t.v0 = ⟨1, 0, 0⟩) := by
  obtain ⟨h', M, c', h1, h2, h3⟩ := C149_revolved_partial line (fun t => ⟨t, t * (1 - t), 0⟩) hl (fun _ _ => rfl)
    (fun s _ t _ h => congrArg Vec.x h) (fun t ht => mul_pos ht.1 (sub_pos.2 ht.2)) (by simp) (by simp) 3 (by norm_num) none
    (fun _ => RevolvedComponent line 3 none) 0 rfl
  exact ⟨h', M, c', h1, h2, fun t ht hd => by simpa using h3 t ht hd⟩

end HV
