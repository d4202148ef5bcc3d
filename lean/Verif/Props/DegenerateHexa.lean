import Verif.Props.PhysicalFinner
import Verif.Props.Degenerate

/-!
# C149: triangles without area in swept bodies and in the Finner
-/

namespace HV
open Spec Veh

theorem nondegenerate_of_normal {t : Tri ℝ} {N : V} {J : ℝ} (hN : N ≠ ⟨0, 0, 0⟩) (hJ : J ≠ 0) (h : (t.v1 - t.v0).cross (t.v2 - t.v0) = N * J) :
    ¬ Degenerate t := by
  rintro ⟨p, d, ⟨a, ha⟩, ⟨b, hb⟩, c, hc⟩
  apply hN
  have hx := congrArg Vec.x h
  have hy := congrArg Vec.y h
  have hz := congrArg Vec.z h
  rw [ha, hb, hc] at hx hy hz
  simp only [Vec.cross, Vec.mul_x, Vec.mul_y, Vec.mul_z, Vec.sub_x, Vec.sub_y, Vec.sub_z, Vec.add_x, Vec.add_y, Vec.add_z] at hx hy hz
  ext
  · exact (mul_eq_zero.1 (show N.x * J = 0 by rw [← hx]; ring)).resolve_right hJ
  · exact (mul_eq_zero.1 (show N.y * J = 0 by rw [← hy]; ring)).resolve_right hJ
  · exact (mul_eq_zero.1 (show N.z * J = 0 by rw [← hz]; ring)).resolve_right hJ

/-- C149 for convex bodies swept between two quadrilaterals: at every resolution the mesh of a convex hexahedron has no triangle without area. -/
theorem C149_hexahedron (P Q : ℕ → V) (hPQ : ConvexHexahedron P Q) (n : ℕ) (hn : 1 ≤ n) (name : Option String) :
    ∃ c, Swept.init [cornerSection P, cornerSection Q] true (.int n) name = .ok c ∧ ∀ (hp : Heap) (id : ℕ), hp id = c →
    ∃ h' M c', generatePatches hp id = (.ok (), h') ∧ (h' id).mesh = (.ok M, c') ∧ ∀ t ∈ M.tris, ¬ Degenerate t := by
  obtain ⟨c, hinit, hh⟩ := hexahedron_mesh P Q n hn name
  refine ⟨c, hinit, fun hp id hid => ?_⟩
  obtain ⟨h', M, c', g1, g2, -, -, -, -, -, -, ht⟩ := hh hp id hid
  refine ⟨h', M, c', g1, g2, fun t htm => ?_⟩
  obtain ⟨τ, ⟨N0, T0, o0⟩, ⟨N1, T1, o1⟩, ⟨N2, T2, o2⟩, ⟨N3, T3, o3⟩, ⟨N4, T4, o4⟩, ⟨N5, T5, o5⟩⟩ := hPQ
  set fs : List NFace := [⟨N0, P 0, Q 0, P 1, Q 1⟩, ⟨N1, P 1, Q 1, P 2, Q 2⟩, ⟨N2, P 2, Q 2, P 3, Q 3⟩, ⟨N3, P 3, Q 3, P 0, Q 0⟩,
    ⟨N4, P 0, P 1, P 3, P 2⟩, ⟨N5, Q 1, Q 0, Q 2, Q 3⟩] with hfs
  have htris : M.tris = (fs.map (NFace.mesh n)).flatten := ht
  have nz : ∀ (N A x : V), 0 < N.dot (x - A) → N ≠ ⟨0, 0, 0⟩ := by
    rintro N A x h rfl
    simp [Vec.dot] at h
  simp only [List.mem_cons, List.not_mem_nil, or_false, forall_eq_or_imp, forall_eq] at o0 o1 o2 o3 o4 o5
  have hT : ∀ f ∈ fs, f.Turns τ := by
    intro f hf
    simp only [hfs, List.mem_cons, List.not_mem_nil, or_false] at hf
    rcases hf with rfl | rfl | rfl | rfl | rfl | rfl
    · exact ⟨nz _ _ _ o0.1, T0⟩
    · exact ⟨nz _ _ _ o1.1, T1⟩
    · exact ⟨nz _ _ _ o2.1, T2⟩
    · exact ⟨nz _ _ _ o3.1, T3⟩
    · exact ⟨nz _ _ _ o4.1, T4⟩
    · exact ⟨nz _ _ _ o5.1, T5⟩
  rw [htris, List.mem_flatten] at htm
  obtain ⟨m, hm, htm⟩ := htm
  obtain ⟨f, hf, rfl⟩ := List.mem_map.1 hm
  obtain ⟨J, hJ, e⟩ := face_normal (hT f hf).2 n hn t htm
  exact nondegenerate_of_normal (hT f hf).1 (fun h0 => by rw [h0, mul_zero] at hJ; exact lt_irrefl _ hJ) e

/-! ## Faces with one flat corner -/

namespace Spec

/-- As `TurnsRound`, with flat corners allowed that are not next to each other. -/
def TurnsFlat (τ : ℝ) (N A B D C : V) : Prop :=
  ∃ j00 j10 j01 j11 : ℝ, 0 ≤ τ * j00 ∧ 0 ≤ τ * j10 ∧ 0 ≤ τ * j01 ∧ 0 ≤ τ * j11 ∧
    (0 < τ * j00 ∨ 0 < τ * j10) ∧ (0 < τ * j01 ∨ 0 < τ * j11) ∧ (0 < τ * j00 ∨ 0 < τ * j01) ∧ (0 < τ * j10 ∨ 0 < τ * j11) ∧
    (B - A).cross (D - A) = N * j00 ∧ (B - A).cross (C - B) = N * j10 ∧
    (C - D).cross (D - A) = N * j01 ∧ (C - D).cross (C - B) = N * j11

end Spec

theorem Spec.TurnsRound.flat {τ : ℝ} {N A B D C : V} (h : TurnsRound τ N A B D C) : TurnsFlat τ N A B D C := by
  obtain ⟨j00, j10, j01, j11, a, b, c, d, r⟩ := h
  exact ⟨j00, j10, j01, j11, a.le, b.le, c.le, d.le, .inl a, .inl c, .inl a, .inl b, r⟩

theorem flat_jacobian {τ : ℝ} {N A B D C : V} (h : TurnsFlat τ N A B D C) (u v : ℝ) (u0 : 0 ≤ u) (u1 : u ≤ 1) (v0 : 0 ≤ v) (v1 : v ≤ 1)
    (huv : (0 < u ∧ u < 1) ∨ (0 < v ∧ v < 1)) :
    ∃ J : ℝ, 0 < τ * J ∧ ((B - A) * (1 - v) + (C - D) * v).cross ((D - A) * (1 - u) + (C - B) * u) = N * J := by
  obtain ⟨j00, j10, j01, j11, a, b, c, d, s1, s2, s3, s4, ha, hb, hc, hd⟩ := h
  refine ⟨(1 - u) * (1 - v) * j00 + u * (1 - v) * j10 + (1 - u) * v * j01 + u * v * j11, ?_, ?_⟩
  · have pos : ∀ w x y : ℝ, 0 < w → w < 1 → 0 ≤ x → 0 ≤ y → 0 < x ∨ 0 < y → 0 < (1 - w) * x + w * y := by
      intro w x y w0 w1 x0 y0 h
      have w1' := sub_pos.2 w1
      rcases h with h | h
      · have := mul_pos w1' h; have := mul_nonneg w0.le y0; linarith
      · have := mul_pos w0 h; have := mul_nonneg w1'.le x0; linarith
    have mix : ∀ w x y : ℝ, 0 ≤ w → w ≤ 1 → 0 < x → 0 < y → 0 < (1 - w) * x + w * y := by
      intro w x y w0 w1 x0 y0
      rcases w0.lt_or_eq with h | h
      · have := mul_pos h y0; have := mul_nonneg (sub_nonneg.2 w1) x0.le; linarith
      · rw [← h]; linarith
    have e : τ * ((1 - u) * (1 - v) * j00 + u * (1 - v) * j10 + (1 - u) * v * j01 + u * v * j11) =
        (1 - v) * ((1 - u) * (τ * j00) + u * (τ * j10)) + v * ((1 - u) * (τ * j01) + u * (τ * j11)) := by ring
    have e' : τ * ((1 - u) * (1 - v) * j00 + u * (1 - v) * j10 + (1 - u) * v * j01 + u * v * j11) =
        (1 - u) * ((1 - v) * (τ * j00) + v * (τ * j01)) + u * ((1 - v) * (τ * j10) + v * (τ * j11)) := by ring
    rcases huv with ⟨h0, h1⟩ | ⟨h0, h1⟩
    · rw [e]
      exact mix v _ _ v0 v1 (pos u _ _ h0 h1 a b s1) (pos u _ _ h0 h1 c d s2)
    · rw [e']
      exact mix u _ _ u0 u1 (pos v _ _ h0 h1 a c s3) (pos v _ _ h0 h1 b d s4)
  · have hx := And.intro (congrArg Vec.x ha) (And.intro (congrArg Vec.x hb) (And.intro (congrArg Vec.x hc) (congrArg Vec.x hd)))
    have hy := And.intro (congrArg Vec.y ha) (And.intro (congrArg Vec.y hb) (And.intro (congrArg Vec.y hc) (congrArg Vec.y hd)))
    have hz := And.intro (congrArg Vec.z ha) (And.intro (congrArg Vec.z hb) (And.intro (congrArg Vec.z hc) (congrArg Vec.z hd)))
    simp only [Vec.cross, Vec.mul_x, Vec.mul_y, Vec.mul_z, Vec.sub_x, Vec.sub_y, Vec.sub_z] at hx hy hz
    ext
    · simp only [Vec.cross, Vec.mul_x, Vec.mul_y, Vec.mul_z, Vec.sub_x, Vec.sub_y, Vec.sub_z, Vec.add_x, Vec.add_y, Vec.add_z]
      linear_combination (1 - u) * (1 - v) * hx.1 + u * (1 - v) * hx.2.1 + (1 - u) * v * hx.2.2.1 + u * v * hx.2.2.2
    · simp only [Vec.cross, Vec.mul_x, Vec.mul_y, Vec.mul_z, Vec.sub_x, Vec.sub_y, Vec.sub_z, Vec.add_x, Vec.add_y, Vec.add_z]
      linear_combination (1 - u) * (1 - v) * hy.1 + u * (1 - v) * hy.2.1 + (1 - u) * v * hy.2.2.1 + u * v * hy.2.2.2
    · simp only [Vec.cross, Vec.mul_x, Vec.mul_y, Vec.mul_z, Vec.sub_x, Vec.sub_y, Vec.sub_z, Vec.add_x, Vec.add_y, Vec.add_z]
      linear_combination (1 - u) * (1 - v) * hz.1 + u * (1 - v) * hz.2.1 + (1 - u) * v * hz.2.2.1 + u * v * hz.2.2.2

/-- No triangle of a face with a flat corner is without area: none has two sides along the corner. -/
theorem flat_normal {τ : ℝ} {N A B D C : V} (h : TurnsFlat τ N A B D C) (n : ℕ) (hn : 1 ≤ n) (t : Tri ℝ)
    (ht : t ∈ gridMesh MeshArith.real false n n (quadGrid n A B D C)) :
    ∃ J : ℝ, 0 < τ * J ∧ (t.v1 - t.v0).cross (t.v2 - t.v0) = N * J := by
  obtain ⟨i, hi, j, hj, ht⟩ := (mem_gridMesh _ _ _ _ _ _).1 ht
  have hn0 : (0 : ℝ) < n := by positivity
  have hi' : (i : ℝ) + 1 ≤ n := by exact_mod_cast hi
  have hj' : (j : ℝ) + 1 ≤ n := by exact_mod_cast hj
  have hi0 : (0 : ℝ) ≤ i := by positivity
  have hj0 : (0 : ℝ) ≤ j := by positivity
  have fin : ∀ a b : ℝ, 0 ≤ a → a ≤ 1 → 0 ≤ b → b ≤ 1 → (a = 1 / 2 ∨ b = 1 / 2) → (t.v1 - t.v0).cross (t.v2 - t.v0) =
      ((B - A) * (1 - ((j : ℝ) + b) / (n : ℝ)) + (C - D) * (((j : ℝ) + b) / (n : ℝ))).cross ((D - A) * (1 - ((i : ℝ) + a) / (n : ℝ)) + (C - B) * (((i : ℝ) + a) / (n : ℝ))) * (1 / (2 * (n : ℝ) ^ 2)) →
      ∃ J : ℝ, 0 < τ * J ∧ (t.v1 - t.v0).cross (t.v2 - t.v0) = N * J := by
    intro a b a0 a1 b0 b1 hab e
    obtain ⟨J, hJ, hc⟩ := flat_jacobian h (((i : ℝ) + a) / (n : ℝ)) (((j : ℝ) + b) / (n : ℝ)) (by positivity) (by rw [div_le_one hn0]; linarith)
      (by positivity) (by rw [div_le_one hn0]; linarith) (by
        rcases hab with rfl | rfl
        · exact .inl ⟨by positivity, by rw [div_lt_one hn0]; linarith⟩
        · exact .inr ⟨by positivity, by rw [div_lt_one hn0]; linarith⟩)
    refine ⟨J * (1 / (2 * (n : ℝ) ^ 2)), by rw [← mul_assoc]; positivity, ?_⟩
    rw [e, hc]
    ext <;> simp <;> ring
  simp only [cellTris, meshVertex_real, List.mem_cons, List.not_mem_nil, or_false] at ht
  rcases ht with rfl | rfl | rfl | rfl
  · refine fin (1 / 2) 0 (by norm_num) (by norm_num) le_rfl zero_le_one (.inl rfl) ?_
    ext <;> simp only [Vec.cross, cellCentre, MeshArith.real, quadGrid, quadPt, Vec.mul_x, Vec.mul_y, Vec.mul_z, Vec.sub_x, Vec.sub_y, Vec.sub_z, Vec.add_x, Vec.add_y, Vec.add_z] <;>
      push_cast <;> field_simp <;> ring
  · refine fin 1 (1 / 2) zero_le_one le_rfl (by norm_num) (by norm_num) (.inr rfl) ?_
    ext <;> simp only [Vec.cross, cellCentre, MeshArith.real, quadGrid, quadPt, Vec.mul_x, Vec.mul_y, Vec.mul_z, Vec.sub_x, Vec.sub_y, Vec.sub_z, Vec.add_x, Vec.add_y, Vec.add_z] <;>
      push_cast <;> field_simp <;> ring
  · refine fin (1 / 2) 1 (by norm_num) (by norm_num) zero_le_one le_rfl (.inl rfl) ?_
    ext <;> simp only [Vec.cross, cellCentre, MeshArith.real, quadGrid, quadPt, Vec.mul_x, Vec.mul_y, Vec.mul_z, Vec.sub_x, Vec.sub_y, Vec.sub_z, Vec.add_x, Vec.add_y, Vec.add_z] <;>
      push_cast <;> field_simp <;> ring
  · refine fin 0 (1 / 2) le_rfl zero_le_one (by norm_num) (by norm_num) (.inr rfl) ?_
    ext <;> simp only [Vec.cross, cellCentre, MeshArith.real, quadGrid, quadPt, Vec.mul_x, Vec.mul_y, Vec.mul_z, Vec.sub_x, Vec.sub_y, Vec.sub_z, Vec.add_x, Vec.add_y, Vec.add_z] <;>
      push_cast <;> field_simp <;> ring

/-! ## The Finner -/

theorem fin_nondegenerate (p : Finner.Params) (ht : 0 < p.max_fin_thickness) (hL : 0 < p.fin_length) (hh : 0 < p.fin_height) (g : Heap) (M : StlMesh)
    (d : Comp) (e1 : generatePatches (fun _ => Swept.comp (Finner.finSections p) 4 true (.int 4) none) 0 = (.ok (), g))
    (e2 : (g 0).mesh = (.ok M, d)) : ∀ x ∈ M.tris, ¬ Degenerate x := by
  set t := p.max_fin_thickness
  set L := p.fin_length
  set H := p.fin_height
  obtain ⟨c1, i1, m1⟩ := hexahedron_mesh (fun k => ⟨finX t k, finY L k, 0⟩) (fun k => ⟨finX t k, finY L k, H⟩) 4 (by norm_num) none
  have same' : Swept.init (Finner.finSections p) true (.int 4) none =
      Swept.init [cornerSection (fun k => ⟨finX t k, finY L k, 0⟩), cornerSection (fun k => ⟨finX t k, finY L k, H⟩)] true (.int 4) none := by
    rw [fin_sections]; rfl
  rw [← same', (fin_mesh p).1] at i1
  obtain rfl := Except.ok.inj i1
  obtain ⟨h1, M1, d1, a1, a2, a3, -, -, -, -, -, a4⟩ := m1 (fun _ => Swept.comp (Finner.finSections p) 4 true (.int 4) none) 0 rfl
  rw [e1] at a1
  obtain rfl : g = h1 := congrArg Prod.snd a1
  rw [e2] at a2
  obtain rfl : M = M1 := by have := congrArg Prod.fst a2; simpa using this
  have x0 : finX t 0 = 0 := by simp [finX]
  have x1 : finX t 1 = t / 2 := by simp [finX]
  have x2 : finX t 2 = 0 := by simp [finX]
  have x3 : finX t 3 = -(t / 2) := by simp [finX]
  have y0 : finY L 0 = L := by simp [finY]
  have y1 : finY L 1 = 0 := by simp [finY]
  have y2 : finY L 2 = 0 := by simp [finY]
  have y3 : finY L 3 = 0 := by simp [finY]
  simp only [x0, x1, x2, x3, y0, y1, y2, y3] at a4
  have htL := mul_pos ht hL
  have hHt := mul_pos hh ht
  set fs : List NFace := [⟨⟨-L, -(t / 2), 0⟩, ⟨0, L, 0⟩, ⟨0, L, H⟩, ⟨t / 2, 0, 0⟩, ⟨t / 2, 0, H⟩⟩, ⟨⟨0, 1, 0⟩, ⟨t / 2, 0, 0⟩, ⟨t / 2, 0, H⟩, ⟨0, 0, 0⟩, ⟨0, 0, H⟩⟩,
    ⟨⟨0, 1, 0⟩, ⟨0, 0, 0⟩, ⟨0, 0, H⟩, ⟨-(t / 2), 0, 0⟩, ⟨-(t / 2), 0, H⟩⟩, ⟨⟨L, -(t / 2), 0⟩, ⟨-(t / 2), 0, 0⟩, ⟨-(t / 2), 0, H⟩, ⟨0, L, 0⟩, ⟨0, L, H⟩⟩,
    ⟨⟨0, 0, 1⟩, ⟨0, L, 0⟩, ⟨t / 2, 0, 0⟩, ⟨-(t / 2), 0, 0⟩, ⟨0, 0, 0⟩⟩, ⟨⟨0, 0, -1⟩, ⟨t / 2, 0, H⟩, ⟨0, L, H⟩, ⟨0, 0, H⟩, ⟨-(t / 2), 0, H⟩⟩] with hfs
  have htris : M.tris = (fs.map (NFace.mesh 4)).flatten := a4
  have s0 : TurnsRound (-1) ⟨-L, -(t / 2), 0⟩ ⟨0, L, 0⟩ ⟨0, L, H⟩ ⟨t / 2, 0, 0⟩ ⟨t / 2, 0, H⟩ := by
    refine ⟨-H, -H, -H, -H, by linarith, by linarith, by linarith, by linarith, ?_, ?_, ?_, ?_⟩ <;> ext <;> simp [Vec.cross] <;> ring
  have s1 : TurnsRound (-1) ⟨0, 1, 0⟩ ⟨t / 2, 0, 0⟩ ⟨t / 2, 0, H⟩ ⟨0, 0, 0⟩ ⟨0, 0, H⟩ := by
    refine ⟨-(H * t / 2), -(H * t / 2), -(H * t / 2), -(H * t / 2), by linarith, by linarith, by linarith, by linarith, ?_, ?_, ?_, ?_⟩ <;>
      ext <;> simp [Vec.cross] <;> ring
  have s2 : TurnsRound (-1) ⟨0, 1, 0⟩ ⟨0, 0, 0⟩ ⟨0, 0, H⟩ ⟨-(t / 2), 0, 0⟩ ⟨-(t / 2), 0, H⟩ := by
    refine ⟨-(H * t / 2), -(H * t / 2), -(H * t / 2), -(H * t / 2), by linarith, by linarith, by linarith, by linarith, ?_, ?_, ?_, ?_⟩ <;>
      ext <;> simp [Vec.cross] <;> ring
  have s3 : TurnsRound (-1) ⟨L, -(t / 2), 0⟩ ⟨-(t / 2), 0, 0⟩ ⟨-(t / 2), 0, H⟩ ⟨0, L, 0⟩ ⟨0, L, H⟩ := by
    refine ⟨-H, -H, -H, -H, by linarith, by linarith, by linarith, by linarith, ?_, ?_, ?_, ?_⟩ <;> ext <;> simp [Vec.cross] <;> ring
  have s4 : TurnsFlat (-1) ⟨0, 0, 1⟩ ⟨0, L, 0⟩ ⟨t / 2, 0, 0⟩ ⟨-(t / 2), 0, 0⟩ ⟨0, 0, 0⟩ := by
    refine ⟨-(t * L), -(t * L / 2), -(t * L / 2), 0, by linarith, by linarith, by linarith, by linarith, .inl (by linarith), .inl (by linarith),
      .inl (by linarith), .inl (by linarith), ?_, ?_, ?_, ?_⟩ <;> ext <;> simp [Vec.cross] <;> ring
  have s5 : TurnsFlat (-1) ⟨0, 0, -1⟩ ⟨t / 2, 0, H⟩ ⟨0, L, H⟩ ⟨0, 0, H⟩ ⟨-(t / 2), 0, H⟩ := by
    refine ⟨-(t * L / 2), -(t * L), 0, -(t * L / 2), by linarith, by linarith, by linarith, by linarith, .inl (by linarith), .inr (by linarith),
      .inl (by linarith), .inl (by linarith), ?_, ?_, ?_, ?_⟩ <;> ext <;> simp [Vec.cross] <;> ring
  intro x hx
  rw [htris, List.mem_flatten] at hx
  obtain ⟨m, hm, hx⟩ := hx
  obtain ⟨f, hf, rfl⟩ := List.mem_map.1 hm
  have hT : f.N ≠ ⟨0, 0, 0⟩ ∧ TurnsFlat (-1) f.N f.A f.B f.D f.C := by
    simp only [hfs, List.mem_cons, List.not_mem_nil, or_false] at hf
    rcases hf with rfl | rfl | rfl | rfl | rfl | rfl
    · exact ⟨fun e => by have := congrArg Vec.x e; simp only at this; linarith, s0.flat⟩
    · exact ⟨fun e => by have := congrArg Vec.y e; simp at this, s1.flat⟩
    · exact ⟨fun e => by have := congrArg Vec.y e; simp at this, s2.flat⟩
    · exact ⟨fun e => by have := congrArg Vec.x e; simp only at this; linarith, s3.flat⟩
    · exact ⟨fun e => by have := congrArg Vec.z e; simp at this, s4⟩
    · exact ⟨fun e => by have := congrArg Vec.z e; simp at this, s5⟩
  obtain ⟨J, hJ, e⟩ := flat_normal hT.2 4 (by norm_num) x hx
  exact nondegenerate_of_normal hT.1 (fun h0 => by rw [h0, mul_zero] at hJ; exact lt_irrefl _ hJ) e

/-- Maps that keep volumes do not flatten triangles. -/
theorem nondegenerate_image {t : Tri ℝ} (F : V → V)
    (hF : ∀ p q r o, det3 (F p - F o) (F q - F o) (F r - F o) = det3 (p - o) (q - o) (r - o)) (h : ¬ Degenerate t) :
    ¬ Degenerate ⟨F t.v0, F t.v1, F t.v2⟩ := by
  rintro ⟨p, d, ⟨a, ha⟩, ⟨b, hb⟩, c, hc⟩
  simp only at ha hb hc
  apply h
  have zero : ∀ o : V, det3 (t.v0 - o) (t.v1 - o) (t.v2 - o) = 0 := by
    intro o
    rw [← hF t.v0 t.v1 t.v2 o, ha, hb, hc]
    simp only [det3, Vec.sub_x, Vec.sub_y, Vec.sub_z, Vec.add_x, Vec.add_y, Vec.add_z, Vec.mul_x, Vec.mul_y, Vec.mul_z]
    ring
  have key : ∀ w : V, w.dot ((t.v1 - t.v0).cross (t.v2 - t.v0)) = 0 := by
    intro w
    have := zero (t.v0 - w)
    simp only [det3, Vec.dot, Vec.cross, Vec.sub_x, Vec.sub_y, Vec.sub_z] at this ⊢
    rw [← this]
    ring
  have kx := key ⟨1, 0, 0⟩
  have ky := key ⟨0, 1, 0⟩
  have kz := key ⟨0, 0, 1⟩
  simp only [Vec.dot, Vec.cross, Vec.sub_x, Vec.sub_y, Vec.sub_z, one_mul, zero_mul, zero_add, add_zero] at kx ky kz
  by_cases e : t.v0 = t.v1
  · exact degenerate_of_eq e
  · -- the third corner lies on the line through the first two
    set u := t.v1 - t.v0 with hu
    have hne : u.x ^ 2 + u.y ^ 2 + u.z ^ 2 ≠ 0 := by
      intro h0
      have h1 : u.x = 0 := by nlinarith [sq_nonneg u.x, sq_nonneg u.y, sq_nonneg u.z]
      have h2 : u.y = 0 := by nlinarith [sq_nonneg u.x, sq_nonneg u.y, sq_nonneg u.z]
      have h3 : u.z = 0 := by nlinarith [sq_nonneg u.x, sq_nonneg u.y, sq_nonneg u.z]
      apply e
      simp only [hu, Vec.sub_x, Vec.sub_y, Vec.sub_z] at h1 h2 h3
      ext <;> linarith
    have ux : u.x = t.v1.x - t.v0.x := rfl
    have uy : u.y = t.v1.y - t.v0.y := rfl
    have uz : u.z = t.v1.z - t.v0.z := rfl
    rw [← uy, ← uz] at kx
    rw [← ux, ← uz] at ky
    rw [← ux, ← uy] at kz
    refine ⟨t.v0, u, ⟨0, by ext <;> simp⟩, ⟨1, by ext <;> simp [ux, uy, uz]⟩,
      (u.x * (t.v2.x - t.v0.x) + u.y * (t.v2.y - t.v0.y) + u.z * (t.v2.z - t.v0.z)) / (u.x ^ 2 + u.y ^ 2 + u.z ^ 2), ?_⟩
    ext
    · simp only [Vec.add_x, Vec.mul_x]
      field_simp
      linear_combination u.z * ky - u.y * kz
    · simp only [Vec.add_y, Vec.mul_y]
      field_simp
      linear_combination u.x * kz - u.z * kx
    · simp only [Vec.add_z, Vec.mul_z]
      field_simp
      linear_combination u.y * kx - u.x * ky

/-- C149 for the Finner, in part: whatever its (positive) dimensions, no fin has a triangle without area.  Missing: the body
(`C149_finner_violated`). -/
theorem C149_finner_partial (h : Heap) (ids : ℕ → ℕ) (hi : Function.Injective ids) (kwargs : Dict String ℝ) (p : Finner.Params)
    (ha : FinnerArgs kwargs p) (ht : 0 < p.max_fin_thickness) (hL : 0 < p.fin_length) (hh : 0 < p.fin_height) (lib : Lib) (depth : ℕ)
    (n : ℕ) (hn : 1 ≤ n) :
    ∃ st st', Finner.instanceOf h ids kwargs = .ok st ∧ generate lib depth (withResolution st (ids 0) n) = (.ok (), st') ∧
      ∀ i < 4, ∃ M c, st.veh.named.get? ("fin_" ++ toString (i + 1)) = some (ids (4 + i)) ∧ (st'.heap (ids (4 + i))).mesh = (.ok M, c) ∧
        ∀ t ∈ M.tris, ¬ Degenerate t := by
  obtain ⟨st, s1, -, s2, s3, s4, fin, h0, M0, c0, f1, f2, f3, f4⟩ := C103_finner h ids hi kwargs p ha
  obtain ⟨st', g1, -, g3⟩ := f4 n hn lib depth
  have hfin : fin = Swept.comp (Finner.finSections p) 4 true (.int 4) none := by
    have := (fin_mesh p).1
    rw [fin_sections] at this
    have e : ([0, p.fin_height].map fun z => [Line ⟨0, p.fin_length, z⟩ ⟨p.max_fin_thickness / 2, 0, z⟩,
        Line ⟨p.max_fin_thickness / 2, 0, z⟩ ⟨0, 0, z⟩, Line ⟨0, 0, z⟩ ⟨-(p.max_fin_thickness / 2), 0, z⟩,
        Line ⟨-(p.max_fin_thickness / 2), 0, z⟩ ⟨0, p.fin_length, z⟩]) =
        [0, p.fin_height].map (quadSection (finX p.max_fin_thickness) (finY p.fin_length)) := by simp [quadSection, finX, finY]
    rw [e, this] at f1
    rw [fin_sections]
    exact (Except.ok.inj f1).symm
  subst hfin
  have hnd := fin_nondegenerate p ht hL hh h0 M0 c0 f2 f3
  refine ⟨st, st', s1, g1, fun i h4 => ?_⟩
  obtain ⟨M, c, k1, -, -, k2⟩ := g3 i h4
  refine ⟨M, c, ?_, k1, fun t htm => ?_⟩
  · have n1 : "fin_" ++ toString (0 + 1) = "fin_1" := by decide
    have n2 : "fin_" ++ toString (1 + 1) = "fin_2" := by decide
    have n3 : "fin_" ++ toString (2 + 1) = "fin_3" := by decide
    have n4 : "fin_" ++ toString (3 + 1) = "fin_4" := by decide
    rw [s3]
    interval_cases i
    · rw [n1]; simp [Dict.get?]
    · rw [n2]; simp [Dict.get?]
    · rw [n3]; simp [Dict.get?]
    · rw [n4]; simp [Dict.get?]
  · rw [k2] at htm
    obtain ⟨t, ht', rfl⟩ := List.mem_map.1 htm
    exact nondegenerate_image _ (fun a b r o => place_det p i a b r o) (hnd t ht')

/-- C149 is violated by the body of the Finner: at every resolution its mesh has triangles without area at the tip of the nose. -/
theorem C149_finner_violated (h : Heap) (ids : ℕ → ℕ) (hi : Function.Injective ids) (kwargs : Dict String ℝ) (p : Finner.Params)
    (ha : FinnerArgs kwargs p) (lib : Lib) (depth : ℕ) (n : ℕ) (hn : 1 ≤ n) :
    ∃ st st' M c, Finner.instanceOf h ids kwargs = .ok st ∧ st.veh.named.get? "fuselage" = some (ids 0) ∧
      generate lib depth (withResolution st (ids 0) n) = (.ok (), st') ∧
      (st'.heap (ids 0)).mesh = (.ok M, c) ∧ ∃ t ∈ M.tris, Degenerate t ∧ t.v0 = ⟨0, 0, 0⟩ := by
  obtain ⟨st, s1, -, s2, s3, s4, fin, h0, M0, c0, f1, f2, f3, f4⟩ := C103_finner h ids hi kwargs p ha
  obtain ⟨st', g1, ⟨M, c, g2, g3, -⟩, -⟩ := f4 n hn lib depth
  have hF := finner_fuselage_grids h ids hi kwargs p ha st st' s1 n hn lib depth g1 M c g2
  refine ⟨st, st', M, c, s1, by rw [s3]; simp [Dict.get?], g1, g2, ?_⟩
  set G := revolveGrid (lineAt ⟨0, 0, 0⟩ ⟨p.nose_length, p.diameter / 2, 0⟩) n 0 with hG
  have mem : ∀ t ∈ cellTris MeshArith.real false (G 0 0) (G 1 0) (G 0 1) (G 1 1), t ∈ M.tris := by
    intro t ht
    rw [hF, List.mem_flatten]
    refine ⟨gridMesh MeshArith.real false n n G, List.mem_map.2 ⟨G, ?_, rfl⟩, (mem_gridMesh _ _ _ _ _ _).2 ⟨0, hn, 0, hn, ht⟩⟩
    rw [hG]
    exact List.mem_flatMap.2 ⟨_, List.mem_cons_self, List.mem_map.2 ⟨0, by simp, rfl⟩⟩
  have tip : ∀ j, G 0 j = ⟨0, 0, 0⟩ := by
    intro j
    simp [hG, revolveGrid, revolveRot, lineAt]
  have hex : ∃ t ∈ cellTris MeshArith.real false (G 0 0) (G 1 0) (G 0 1) (G 1 1), t.v0 = t.v1 ∧ t.v0 = ⟨0, 0, 0⟩ := by
    rw [tip 0, tip 1]
    simp only [cellTris, meshVertex_real]
    simp
  obtain ⟨t, ht, he, hv⟩ := hex
  exact ⟨t, mem t ht, degenerate_of_eq he, hv⟩

/-- A prism is a convex hexahedron, so that `C149_hexahedron` applies to it. -/
example : ConvexHexahedron (fun k => ⟨wedgeX 1 k, wedgeY 1 k, 1⟩) (fun k => ⟨wedgeX 1 k, wedgeY 1 k, -1⟩) :=
  convex_prism 1 _ _ 1 (-1) (by norm_num) (wedge_convex 1 1 one_pos one_pos)

/-- The default dimensions meet the hypotheses of `C149_finner_partial` and `C149_finner_violated`. -/
example : FinnerArgs [] ⟨1, 10, 2.84, 1, 1, 0.08⟩ ∧ (0 : ℝ) < 0.08 ∧ (0 : ℝ) < 1 ∧ Function.Injective (fun k : ℕ => k + 5) := by
  refine ⟨⟨by decide, .inr ⟨?_, rfl⟩, .inr ⟨?_, rfl⟩, .inr ⟨?_, rfl⟩, .inr ⟨?_, rfl⟩, .inr ⟨?_, rfl⟩, .inr ⟨?_, rfl⟩⟩, ?_, ?_, fun a b h => ?_⟩ <;>
    first | (simp only at h; omega) | norm_num

end HV
