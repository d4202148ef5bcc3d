import Verif.Props.PhysicalRevolved
import Verif.Props.FinnerCheck

/-!
# Possible mass properties: the Finner

The section of a fin has a flat corner, so that its ends are no strictly convex quadrilaterals and some of their triangles may have no area.
-/

namespace HV

open Spec Veh

/-! ## Faces with flat corners -/

namespace Spec

/-- As `TurnsRound`, with flat corners allowed. -/
def TurnsWeakly (τ : ℝ) (N A B D C : V) : Prop :=
  ∃ j00 j10 j01 j11 : ℝ, 0 ≤ τ * j00 ∧ 0 ≤ τ * j10 ∧ 0 ≤ τ * j01 ∧ 0 ≤ τ * j11 ∧
    (B - A).cross (D - A) = N * j00 ∧ (B - A).cross (C - B) = N * j10 ∧
    (C - D).cross (D - A) = N * j01 ∧ (C - D).cross (C - B) = N * j11

end Spec

theorem Spec.TurnsRound.weakly {τ : ℝ} {N A B D C : V} (h : TurnsRound τ N A B D C) : TurnsWeakly τ N A B D C := by
  obtain ⟨j00, j10, j01, j11, a, b, c, d, r⟩ := h
  exact ⟨j00, j10, j01, j11, a.le, b.le, c.le, d.le, r⟩

theorem weak_jacobian {τ : ℝ} {N A B D C : V} (h : TurnsWeakly τ N A B D C) (u v : ℝ) (u0 : 0 ≤ u) (u1 : u ≤ 1) (v0 : 0 ≤ v) (v1 : v ≤ 1) :
    ∃ J : ℝ, 0 ≤ τ * J ∧ ((B - A) * (1 - v) + (C - D) * v).cross ((D - A) * (1 - u) + (C - B) * u) = N * J := by
  obtain ⟨j00, j10, j01, j11, a, b, c, d, ha, hb, hc, hd⟩ := h
  refine ⟨(1 - u) * (1 - v) * j00 + u * (1 - v) * j10 + (1 - u) * v * j01 + u * v * j11, ?_, ?_⟩
  · have u1' := sub_nonneg.2 u1
    have v1' := sub_nonneg.2 v1
    have i1 := mul_nonneg (mul_nonneg u1' v1') a
    have i2 := mul_nonneg (mul_nonneg u0 v1') b
    have i3 := mul_nonneg (mul_nonneg u1' v0) c
    have i4 := mul_nonneg (mul_nonneg u0 v0) d
    linarith
  · have hx := And.intro (congrArg Vec.x ha) (And.intro (congrArg Vec.x hb) (And.intro (congrArg Vec.x hc) (congrArg Vec.x hd)))
    have hy := And.intro (congrArg Vec.y ha) (And.intro (congrArg Vec.y hb) (And.intro (congrArg Vec.y hc) (congrArg Vec.y hd)))
    have hz := And.intro (congrArg Vec.z ha) (And.intro (congrArg Vec.z hb) (And.intro (congrArg Vec.z hc) (congrArg Vec.z hd)))
    simp only [Vec.cross, Vec.mul_x, Vec.mul_y, Vec.mul_z, Vec.sub_x, Vec.sub_y, Vec.sub_z] at hx hy hz
    ext
    · simp only [Vec.cross, Vec.mul_x, Vec.mul_y, Vec.mul_z, Vec.sub_x, Vec.sub_y, Vec.sub_z, Vec.add_x, Vec.add_y, Vec.add_z]
      linear_combination (1 - u) * (1 - v) * hx.1 + u * (1 - v) * hx.2.1 + (1 - u) * v * hx.2.2.1 + u * v * hx.2.2.2
    · simp only [Vec.cross, Vec.mul_x, Vec.mul_y, Vec.mul_z, Vec.sub_x, Vec.sub_y, Vec.sub_z, Vec.add_x, Vec.add_y, Vec.add_z]
      linear_combination (1 - u) * (1 - v) * hy.1 + u * (1 - v) * hy.2.1 + (1 - u) * v * hy.2.2.1 + u * v * hy.2.2.2
    · simp only [Vec.cross, Vec.mul_x, Vec.mul_y, Vec.mul_z, Vec.sub_x, Vec.sub_y, Vec.sub_z, Vec.add_x, Vec.add_y, Vec.add_z]
      linear_combination (1 - u) * (1 - v) * hz.1 + u * (1 - v) * hz.2.1 + (1 - u) * v * hz.2.2.1 + u * v * hz.2.2.2

/-- The normals of the triangles of a face with flat corners are multiples of `N`, not of the opposite sign of `τ`. -/
theorem weak_normal {τ : ℝ} {N A B D C : V} (h : TurnsWeakly τ N A B D C) (n : ℕ) (hn : 1 ≤ n) (t : Tri ℝ)
    (ht : t ∈ gridMesh MeshArith.real false n n (quadGrid n A B D C)) :
    ∃ J : ℝ, 0 ≤ τ * J ∧ (t.v1 - t.v0).cross (t.v2 - t.v0) = N * J := by
  obtain ⟨i, hi, j, hj, ht⟩ := (mem_gridMesh _ _ _ _ _ _).1 ht
  have hn0 : (0 : ℝ) < n := by positivity
  have hi' : (i : ℝ) + 1 ≤ n := by exact_mod_cast hi
  have hj' : (j : ℝ) + 1 ≤ n := by exact_mod_cast hj
  have fin : ∀ a b : ℝ, 0 ≤ a → a ≤ 1 → 0 ≤ b → b ≤ 1 → (t.v1 - t.v0).cross (t.v2 - t.v0) =
      ((B - A) * (1 - ((j : ℝ) + b) / (n : ℝ)) + (C - D) * (((j : ℝ) + b) / (n : ℝ))).cross ((D - A) * (1 - ((i : ℝ) + a) / (n : ℝ)) + (C - B) * (((i : ℝ) + a) / (n : ℝ))) * (1 / (2 * (n : ℝ) ^ 2)) →
      ∃ J : ℝ, 0 ≤ τ * J ∧ (t.v1 - t.v0).cross (t.v2 - t.v0) = N * J := by
    intro a b a0 a1 b0 b1 e
    obtain ⟨J, hJ, hc⟩ := weak_jacobian h (((i : ℝ) + a) / (n : ℝ)) (((j : ℝ) + b) / (n : ℝ)) (by positivity) (by rw [div_le_one hn0]; linarith)
      (by positivity) (by rw [div_le_one hn0]; linarith)
    refine ⟨J * (1 / (2 * (n : ℝ) ^ 2)), by rw [← mul_assoc]; positivity, ?_⟩
    rw [e, hc]
    ext <;> simp <;> ring
  simp only [cellTris, meshVertex_real, List.mem_cons, List.not_mem_nil, or_false] at ht
  rcases ht with rfl | rfl | rfl | rfl
  · refine fin (1 / 2) 0 (by norm_num) (by norm_num) le_rfl zero_le_one ?_
    ext <;> simp only [Vec.cross, cellCentre, MeshArith.real, quadGrid, quadPt, Vec.mul_x, Vec.mul_y, Vec.mul_z, Vec.sub_x, Vec.sub_y, Vec.sub_z, Vec.add_x, Vec.add_y, Vec.add_z] <;>
      push_cast <;> field_simp <;> ring
  · refine fin 1 (1 / 2) zero_le_one le_rfl (by norm_num) (by norm_num) ?_
    ext <;> simp only [Vec.cross, cellCentre, MeshArith.real, quadGrid, quadPt, Vec.mul_x, Vec.mul_y, Vec.mul_z, Vec.sub_x, Vec.sub_y, Vec.sub_z, Vec.add_x, Vec.add_y, Vec.add_z] <;>
      push_cast <;> field_simp <;> ring
  · refine fin (1 / 2) 1 (by norm_num) (by norm_num) zero_le_one le_rfl ?_
    ext <;> simp only [Vec.cross, cellCentre, MeshArith.real, quadGrid, quadPt, Vec.mul_x, Vec.mul_y, Vec.mul_z, Vec.sub_x, Vec.sub_y, Vec.sub_z, Vec.add_x, Vec.add_y, Vec.add_z] <;>
      push_cast <;> field_simp <;> ring
  · refine fin 0 (1 / 2) le_rfl zero_le_one (by norm_num) (by norm_num) ?_
    ext <;> simp only [Vec.cross, cellCentre, MeshArith.real, quadGrid, quadPt, Vec.mul_x, Vec.mul_y, Vec.mul_z, Vec.sub_x, Vec.sub_y, Vec.sub_z, Vec.add_x, Vec.add_y, Vec.add_z] <;>
      push_cast <;> field_simp <;> ring

/-- A body with plane faces whose corners do not turn in is star-shaped about every point that is inside of all faces. -/
theorem weak_star (n : ℕ) (hn : 1 ≤ n) (fs : List NFace) (c : V)
    (hT : ∀ f ∈ fs, TurnsWeakly (-1) f.N f.A f.B f.D f.C ∧ (∀ x ∈ f.corners, f.N.dot (x - f.A) = 0) ∧ 0 < f.N.dot (c - f.A))
    (f₀ : NFace) (h0 : f₀ ∈ fs) (h1 : TurnsRound (-1) f₀.N f₀.A f₀.B f₀.D f₀.C) : StarShaped 1 c (fs.map (NFace.mesh n)).flatten := by
  have value : ∀ f ∈ fs, ∀ t ∈ f.mesh n, ∀ J, (t.v1 - t.v0).cross (t.v2 - t.v0) = f.N * J →
      1 * det3 (t.v0 - c) (t.v1 - c) (t.v2 - c) = -J * f.N.dot (c - f.A) := by
    intro f hf t ht J e
    have hp : f.N.dot (t.v0 - f.A) = 0 := by
      have h := (hT f hf).2.1
      apply le_antisymm
      · have e : ∀ x : V, (f.N * (-1 : ℝ)).dot (x - f.A) = -(f.N.dot (x - f.A)) := by intro x; simp only [Vec.dot, Vec.mul_x, Vec.mul_y, Vec.mul_z]; ring
        have := face_inside n hn f (f.N * (-1 : ℝ)) f.A (fun x hx => by rw [e, h x hx, neg_zero]) t.v0 ⟨t, ht, .inl rfl⟩
        rw [e] at this
        linarith
      · exact face_inside n hn f f.N f.A (fun x hx => (h x hx).ge) t.v0 ⟨t, ht, .inl rfl⟩
    have e1 : f.N.dot (c - t.v0) = f.N.dot (c - f.A) := by
      have : f.N.dot (c - t.v0) = f.N.dot (c - f.A) - f.N.dot (t.v0 - f.A) := by
        simp only [Vec.dot, Vec.sub_x, Vec.sub_y, Vec.sub_z]; ring
      rw [this, hp, sub_zero]
    rw [det3_cross _ _ _ _ _ _ e, e1]
    ring
  refine ⟨fun t ht => ?_, ?_⟩
  · obtain ⟨m, hm, ht⟩ := List.mem_flatten.1 ht
    obtain ⟨f, hf, rfl⟩ := List.mem_map.1 hm
    obtain ⟨J, hJ, e⟩ := weak_normal (hT f hf).1 n hn t ht
    rw [value f hf t ht J e]
    exact mul_nonneg (by linarith) (hT f hf).2.2.le
  · obtain ⟨t, ht⟩ := List.exists_mem_of_ne_nil (cellTris MeshArith.real false (quadGrid n f₀.A f₀.B f₀.D f₀.C 0 0) (quadGrid n f₀.A f₀.B f₀.D f₀.C (0 + 1) 0)
      (quadGrid n f₀.A f₀.B f₀.D f₀.C 0 (0 + 1)) (quadGrid n f₀.A f₀.B f₀.D f₀.C (0 + 1) (0 + 1))) (by simp [cellTris])
    have ht : t ∈ f₀.mesh n := (mem_gridMesh _ _ _ _ _ _).2 ⟨0, hn, 0, hn, ht⟩
    obtain ⟨J, hJ, e⟩ := face_normal h1 n hn t ht
    refine ⟨t, List.mem_flatten.2 ⟨_, List.mem_map.2 ⟨f₀, h0, rfl⟩, ht⟩, ?_⟩
    rw [value f₀ h0 t ht J e]
    exact mul_pos (by linarith) (hT f₀ h0).2.2

/-! ## Fins -/

theorem fin_star (p : Finner.Params) (ht : 0 < p.max_fin_thickness) (hL : 0 < p.fin_length) (hh : 0 < p.fin_height) (g : Heap) (M : StlMesh)
    (d : Comp) (e1 : generatePatches (fun _ => Swept.comp (Finner.finSections p) 4 true (.int 4) none) 0 = (.ok (), g))
    (e2 : (g 0).mesh = (.ok M, d)) : StarShaped 1 ⟨0, p.fin_length / 3, p.fin_height / 2⟩ M.tris := by
  set t := p.max_fin_thickness
  set L := p.fin_length
  set H := p.fin_height
  obtain ⟨c1, i1, m1⟩ := hexahedron_mesh (fun k => ⟨finX t k, finY L k, 0⟩) (fun k => ⟨finX t k, finY L k, H⟩) 4 (by norm_num) none
  have same' : Swept.init (Finner.finSections p) true (.int 4) none =
      Swept.init [cornerSection (fun k => ⟨finX t k, finY L k, 0⟩), cornerSection (fun k => ⟨finX t k, finY L k, H⟩)] true (.int 4) none := by
    rw [fin_sections]; rfl
  rw [← same', (fin_mesh p).1] at i1
  obtain rfl := Except.ok.inj i1
  obtain ⟨h1, M1, d1, a1, a2, a3, -, -, -, -, -, a4⟩ := m1 (fun _ => Swept.comp (Finner.finSections p) 4 true (.int 4) none) 0 rfl
  rw [e1] at a1
  obtain rfl : g = h1 := congrArg Prod.snd a1
  rw [e2] at a2
  obtain rfl : M = M1 := by have := congrArg Prod.fst a2; simpa using this
  have x0 : finX t 0 = 0 := by simp [finX]
  have x1 : finX t 1 = t / 2 := by simp [finX]
  have x2 : finX t 2 = 0 := by simp [finX]
  have x3 : finX t 3 = -(t / 2) := by simp [finX]
  have y0 : finY L 0 = L := by simp [finY]
  have y1 : finY L 1 = 0 := by simp [finY]
  have y2 : finY L 2 = 0 := by simp [finY]
  have y3 : finY L 3 = 0 := by simp [finY]
  simp only [x0, x1, x2, x3, y0, y1, y2, y3] at a4
  have hHL := mul_pos hh hL
  have htL := mul_pos ht hL
  have hHt := mul_pos hh ht
  set fs : List NFace := [⟨⟨-L, -(t / 2), 0⟩, ⟨0, L, 0⟩, ⟨0, L, H⟩, ⟨t / 2, 0, 0⟩, ⟨t / 2, 0, H⟩⟩, ⟨⟨0, 1, 0⟩, ⟨t / 2, 0, 0⟩, ⟨t / 2, 0, H⟩, ⟨0, 0, 0⟩, ⟨0, 0, H⟩⟩,
    ⟨⟨0, 1, 0⟩, ⟨0, 0, 0⟩, ⟨0, 0, H⟩, ⟨-(t / 2), 0, 0⟩, ⟨-(t / 2), 0, H⟩⟩, ⟨⟨L, -(t / 2), 0⟩, ⟨-(t / 2), 0, 0⟩, ⟨-(t / 2), 0, H⟩, ⟨0, L, 0⟩, ⟨0, L, H⟩⟩,
    ⟨⟨0, 0, 1⟩, ⟨0, L, 0⟩, ⟨t / 2, 0, 0⟩, ⟨-(t / 2), 0, 0⟩, ⟨0, 0, 0⟩⟩, ⟨⟨0, 0, -1⟩, ⟨t / 2, 0, H⟩, ⟨0, L, H⟩, ⟨0, 0, H⟩, ⟨-(t / 2), 0, H⟩⟩] with hfs
  have htris : M.tris = (fs.map (NFace.mesh 4)).flatten := a4
  have s0 : TurnsRound (-1) ⟨-L, -(t / 2), 0⟩ ⟨0, L, 0⟩ ⟨0, L, H⟩ ⟨t / 2, 0, 0⟩ ⟨t / 2, 0, H⟩ := by
    refine ⟨-H, -H, -H, -H, by linarith, by linarith, by linarith, by linarith, ?_, ?_, ?_, ?_⟩ <;> ext <;> simp [Vec.cross] <;> ring
  have s1 : TurnsRound (-1) ⟨0, 1, 0⟩ ⟨t / 2, 0, 0⟩ ⟨t / 2, 0, H⟩ ⟨0, 0, 0⟩ ⟨0, 0, H⟩ := by
    refine ⟨-(H * t / 2), -(H * t / 2), -(H * t / 2), -(H * t / 2), by linarith, by linarith, by linarith, by linarith, ?_, ?_, ?_, ?_⟩ <;>
      ext <;> simp [Vec.cross] <;> ring
  have s2 : TurnsRound (-1) ⟨0, 1, 0⟩ ⟨0, 0, 0⟩ ⟨0, 0, H⟩ ⟨-(t / 2), 0, 0⟩ ⟨-(t / 2), 0, H⟩ := by
    refine ⟨-(H * t / 2), -(H * t / 2), -(H * t / 2), -(H * t / 2), by linarith, by linarith, by linarith, by linarith, ?_, ?_, ?_, ?_⟩ <;>
      ext <;> simp [Vec.cross] <;> ring
  have s3 : TurnsRound (-1) ⟨L, -(t / 2), 0⟩ ⟨-(t / 2), 0, 0⟩ ⟨-(t / 2), 0, H⟩ ⟨0, L, 0⟩ ⟨0, L, H⟩ := by
    refine ⟨-H, -H, -H, -H, by linarith, by linarith, by linarith, by linarith, ?_, ?_, ?_, ?_⟩ <;> ext <;> simp [Vec.cross] <;> ring
  have s4 : TurnsWeakly (-1) ⟨0, 0, 1⟩ ⟨0, L, 0⟩ ⟨t / 2, 0, 0⟩ ⟨-(t / 2), 0, 0⟩ ⟨0, 0, 0⟩ := by
    refine ⟨-(t * L), -(t * L / 2), -(t * L / 2), 0, by linarith, by linarith, by linarith, by linarith, ?_, ?_, ?_, ?_⟩ <;>
      ext <;> simp [Vec.cross] <;> ring
  have s5 : TurnsWeakly (-1) ⟨0, 0, -1⟩ ⟨t / 2, 0, H⟩ ⟨0, L, H⟩ ⟨0, 0, H⟩ ⟨-(t / 2), 0, H⟩ := by
    refine ⟨-(t * L / 2), -(t * L), 0, -(t * L / 2), by linarith, by linarith, by linarith, by linarith, ?_, ?_, ?_, ?_⟩ <;>
      ext <;> simp [Vec.cross] <;> ring
  rw [htris]
  refine weak_star 4 (by norm_num) fs _ (fun f hf => ?_) _ (by rw [hfs]; exact List.mem_cons_self) s0
  simp only [hfs, List.mem_cons, List.not_mem_nil, or_false] at hf
  rcases hf with rfl | rfl | rfl | rfl | rfl | rfl
  · refine ⟨s0.weakly, fun x hx => ?_, by simp [Vec.dot]; linarith⟩
    simp only [NFace.corners, List.mem_cons, List.not_mem_nil, or_false] at hx
    rcases hx with rfl | rfl | rfl | rfl <;> simp [Vec.dot] <;> ring
  · refine ⟨s1.weakly, fun x hx => ?_, by simp [Vec.dot]; linarith⟩
    simp only [NFace.corners, List.mem_cons, List.not_mem_nil, or_false] at hx
    rcases hx with rfl | rfl | rfl | rfl <;> simp [Vec.dot]
  · refine ⟨s2.weakly, fun x hx => ?_, by simp [Vec.dot]; linarith⟩
    simp only [NFace.corners, List.mem_cons, List.not_mem_nil, or_false] at hx
    rcases hx with rfl | rfl | rfl | rfl <;> simp [Vec.dot]
  · refine ⟨s3.weakly, fun x hx => ?_, by simp [Vec.dot]; linarith⟩
    simp only [NFace.corners, List.mem_cons, List.not_mem_nil, or_false] at hx
    rcases hx with rfl | rfl | rfl | rfl <;> simp [Vec.dot] <;> ring
  · refine ⟨s4, fun x hx => ?_, by simp [Vec.dot]; linarith⟩
    simp only [NFace.corners, List.mem_cons, List.not_mem_nil, or_false] at hx
    rcases hx with rfl | rfl | rfl | rfl <;> simp [Vec.dot]
  · refine ⟨s5, fun x hx => ?_, by simp [Vec.dot]; linarith⟩
    simp only [NFace.corners, List.mem_cons, List.not_mem_nil, or_false] at hx
    rcases hx with rfl | rfl | rfl | rfl <;> simp [Vec.dot]

/-- Star-shaped meshes stay so under maps that keep volumes. -/
theorem star_image {s : ℝ} {c : V} {m : TriMesh ℝ} (F : V → V)
    (hF : ∀ p q r o, det3 (F p - F o) (F q - F o) (F r - F o) = det3 (p - o) (q - o) (r - o)) (h : StarShaped s c m) : StarShaped s (F c) (mapVerts F m) := by
  obtain ⟨h1, t, ht, h2⟩ := h
  refine ⟨fun t ht => ?_, ⟨F t.v0, F t.v1, F t.v2⟩, List.mem_map.2 ⟨t, ht, rfl⟩, by simp only [hF]; exact h2⟩
  obtain ⟨t, ht', rfl⟩ := List.mem_map.1 ht
  simp only [hF]
  exact h1 t ht'

theorem place_det (p : Finner.Params) (i : ℕ) (a b r o : V) : let F := fun v => quarterTurn^[i] (finPlace p.diameter p.total_length v)
    det3 (F a - F o) (F b - F o) (F r - F o) = det3 (a - o) (b - o) (r - o) := by
  have turn : ∀ i (a b r o : V), det3 (quarterTurn^[i] a - quarterTurn^[i] o) (quarterTurn^[i] b - quarterTurn^[i] o) (quarterTurn^[i] r - quarterTurn^[i] o) =
      det3 (a - o) (b - o) (r - o) := by
    intro i
    induction i with
    | zero => intros; rfl
    | succ i ih =>
      intro a b r o
      rw [Function.iterate_succ_apply, Function.iterate_succ_apply, Function.iterate_succ_apply, Function.iterate_succ_apply, ih]
      simp only [det3, quarterTurn, Vec.sub_x, Vec.sub_y, Vec.sub_z]
      ring
  intro F
  simp only [F, turn]
  simp only [det3, finPlace, Vec.sub_x, Vec.sub_y, Vec.sub_z]
  ring

/-! ## The vehicle -/

theorem finner_meet (p : Finner.Params) : EndsMeet (finnerLines p) := by
  refine endToEnd_meet _ ⟨0, 0, 0⟩ ⟨p.total_length, 0, 0⟩ ?_ ⟨rfl, rfl⟩ ⟨rfl, rfl⟩
  refine ⟨?_, ?_, ?_, ?_⟩ <;> ext <;> simp [lineAt]

/-- C166 for the Finner, in part: whatever its dimensions (positive, with the nose not longer than the rocket), the resolution of its body and the
densities, the analysis reports for every part the properties of a possible body, and positive volume and mass and a centre of gravity inside of
the hull of all vertices for the vehicle.  Missing: the tensor reported for the vehicle, as for `C166_parts_partial`. -/
theorem C166_finner_partial (h : Heap) (ids : ℕ → ℕ) (hi : Function.Injective ids) (kwargs : Dict String ℝ) (p : Finner.Params)
    (ha : FinnerArgs kwargs p) (ht : 0 < p.max_fin_thickness) (hL : 0 < p.fin_length) (hh : 0 < p.fin_height) (hD : 0 < p.diameter)
    (hN : 0 < p.nose_length) (hT : p.nose_length ≤ p.total_length) (lib : Lib) (hl : NumpyStlInertia lib) (hlib : ∀ M ρ, ∃ q, lib.massProps M ρ = .ok q)
    (depth : ℕ) (n : ℕ) (hn : 1 ≤ n) (dens : Dict String ℝ)
    (hd : ∀ name ∈ ["fuselage", "fin_1", "fin_2", "fin_3", "fin_4"], ∃ ρ, dens.get? name = some ρ ∧ 0 < ρ) :
    ∃ st st' a st1, Finner.instanceOf h ids kwargs = .ok st ∧ generate lib depth (withResolution st (ids 0) n) = (.ok (), st') ∧
      (∀ e ∈ st'.veh.named, PossiblePart lib dens st'.heap e) ∧ analyse lib (depth + 1) st' dens = (.ok a, st1) ∧
      0 < a.volume ∧ 0 < a.mass ∧ (∀ q ∈ a.components, 0 < q.2.props.mass ∧ IsInertia q.2.props.moi) ∧
      ∃ g, a.cog = some g ∧ IsInertia (inertia a g) ∧ ∀ u : V, u ≠ ⟨0, 0, 0⟩ →
        ∃ e ∈ st'.veh.named, ∃ M d v, (st'.heap e.2).mesh = (.ok M, d) ∧ IsVertex v M.tris ∧ u.dot g < u.dot v := by
  obtain ⟨st, s1, -, s2, s3, s4, fin, h0, M0, c0, f1, f2, f3, f4⟩ := C103_finner h ids hi kwargs p ha
  obtain ⟨st', g1, ⟨M, c, g2, g2', -⟩, g3⟩ := f4 n hn lib depth
  have hfin : fin = Swept.comp (Finner.finSections p) 4 true (.int 4) none := by
    have := (fin_mesh p).1
    rw [fin_sections] at this
    have e : ([0, p.fin_height].map fun z => [Line ⟨0, p.fin_length, z⟩ ⟨p.max_fin_thickness / 2, 0, z⟩,
        Line ⟨p.max_fin_thickness / 2, 0, z⟩ ⟨0, 0, z⟩, Line ⟨0, 0, z⟩ ⟨-(p.max_fin_thickness / 2), 0, z⟩,
        Line ⟨-(p.max_fin_thickness / 2), 0, z⟩ ⟨0, p.fin_length, z⟩]) =
        [0, p.fin_height].map (quadSection (finX p.max_fin_thickness) (finY p.fin_length)) := by simp [quadSection, finX, finY]
    rw [e, this] at f1
    rw [fin_sections]
    exact (Except.ok.inj f1).symm
  subst hfin
  have hs0 := fin_star p ht hL hh h0 M0 c0 f2 f3
  have hF := finner_fuselage_grids h ids hi kwargs p ha st st' s1 n hn lib depth g1 M c g2
  have hgen : st'.veh.generated = true ∧ st'.veh.named = [("fuselage", ids 0), ("fin_1", ids 4), ("fin_2", ids 5), ("fin_3", ids 6), ("fin_4", ids 7)] := by
    obtain ⟨-, -, -, -, -, -, x, y, hv⟩ := generate_steps lib depth _ st' g1
    rw [hv]
    exact ⟨rfl, s3⟩
  have finPart : ∀ i < 4, ∀ name, (∃ ρ, dens.get? name = some ρ ∧ 0 < ρ) → PossiblePart lib dens st'.heap (name, ids (4 + i)) := by
    intro i h4 name hρ
    obtain ⟨Mi, ci, k1, k2, -, k3⟩ := g3 i h4
    obtain ⟨ρ, hρ1, hρ2⟩ := hρ
    have := star_image _ (place_det p i) hs0
    rw [← k3] at this
    exact StarPart.possible hl ⟨Mi, ci, _, ρ, k1, k2, this, hρ1, hρ2⟩
  have hparts : ∀ e ∈ st'.veh.named, PossiblePart lib dens st'.heap e := by
    rw [hgen.2]
    intro e he
    simp only [List.mem_cons, List.not_mem_nil, or_false] at he
    rcases he with rfl | rfl | rfl | rfl | rfl
    · obtain ⟨ρ, hρ1, hρ2⟩ := hd "fuselage" (by simp)
      refine ⟨M, c, ρ, g2, hρ1, fun q hq => ?_⟩
      have ho := outline_straight [((⟨0, 0, 0⟩ : V), ⟨p.nose_length, p.diameter / 2, 0⟩),
        (⟨p.nose_length, p.diameter / 2, 0⟩, ⟨p.total_length, p.diameter / 2, 0⟩), (⟨p.total_length, p.diameter / 2, 0⟩, ⟨p.total_length, 0, 0⟩)]
        (by simp; exact ⟨hN.le, hT⟩) ⟨(⟨0, 0, 0⟩, ⟨p.nose_length, p.diameter / 2, 0⟩), by simp, hN.ne, .inr (by simp; exact hD.ne')⟩ n hn
      have hz : ∀ f ∈ finnerLines p, ∀ t, 0 ≤ t → t ≤ 1 → (f t).z = 0 := by
        intro f hf t _ _
        simp only [finnerLines, List.mem_cons, List.not_mem_nil, or_false] at hf
        rcases hf with rfl | rfl | rfl <;> simp [lineAt]
      have := body_possible lib hl (finnerLines p) hz (finner_meet p) n hn 1 ho ρ hρ2 M hF q hq
      simp only [one_mul] at this
      exact this
    · exact finPart 0 (by norm_num) _ (hd _ (by simp))
    · exact finPart 1 (by norm_num) _ (hd _ (by simp))
    · exact finPart 2 (by norm_num) _ (hd _ (by simp))
    · exact finPart 3 (by norm_num) _ (hd _ (by simp))
  obtain ⟨a, st1, han⟩ := analyse_succeeds lib hlib st' dens depth hgen.1 (by rw [hgen.2]; simp)
    (fun e he => by obtain ⟨M, d, -, hN, -⟩ := hparts e he; exact ⟨M, d, hN⟩)
    (fun e he => by obtain ⟨-, -, ρ, -, hd, -⟩ := hparts e he; exact ⟨ρ, hd⟩)
  obtain ⟨v1, v2, v3, g, -, v4, -, v5, -, v6⟩ := C166_parts_partial lib depth st' st1 dens a hgen.1 hparts han
  exact ⟨st, st', a, st1, s1, g1, hparts, han, v1, v2, v3, g, v4, v5, v6⟩

/-- The default dimensions meet the hypotheses of `C166_finner_partial`. -/
example : FinnerArgs [] ⟨1, 10, 2.84, 1, 1, 0.08⟩ ∧ (0 : ℝ) < 0.08 ∧ (0 : ℝ) < 1 ∧ (0 : ℝ) < 2.84 ∧ (2.84 : ℝ) ≤ 10 := by
  refine ⟨⟨by decide, .inr ⟨?_, rfl⟩, .inr ⟨?_, rfl⟩, .inr ⟨?_, rfl⟩, .inr ⟨?_, rfl⟩, .inr ⟨?_, rfl⟩, .inr ⟨?_, rfl⟩⟩, ?_, ?_, ?_, ?_⟩ <;>
    norm_num

end HV
