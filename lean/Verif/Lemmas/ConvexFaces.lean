import Verif.Props.Check
import Verif.Props.Size

/-!
# Meshes of convex bodies with plane quadrilateral faces
-/

namespace HV
open Spec

/-- The point of the bilinear patch with corners `A` at `(0,0)`, `B` at `(1,0)`, `D` at `(0,1)` and `C` at `(1,1)`. -/
noncomputable def quadPt (A B D C : V) (u v : ℝ) : V :=
  A * ((1 - u) * (1 - v)) + B * (u * (1 - v)) + D * ((1 - u) * v) + C * (u * v)

/-- The grid of that patch. -/
noncomputable def quadGrid (n : ℕ) (A B D C : V) (i j : ℕ) : V := quadPt A B D C ((i : ℝ) / n) ((j : ℝ) / n)

/-- The corners turn round `N` in the direction given by the sign of `τ`. -/
def Spec.TurnsRound (τ : ℝ) (N A B D C : V) : Prop :=
  ∃ j00 j10 j01 j11 : ℝ, 0 < τ * j00 ∧ 0 < τ * j10 ∧ 0 < τ * j01 ∧ 0 < τ * j11 ∧
    (B - A).cross (D - A) = N * j00 ∧ (B - A).cross (C - B) = N * j10 ∧
    (C - D).cross (D - A) = N * j01 ∧ (C - D).cross (C - B) = N * j11

/-! ## Indices -/

abbrev Idx := ℤ × ℤ

/-- The triangles of a cell in terms of indices: grid points have even, centres odd indices. -/
def cellIdx (i j : ℕ) : List (Idx × Idx × Idx) :=
  [((2 * i, 2 * j), (2 * i + 2, 2 * j), (2 * i + 1, 2 * j + 1)), ((2 * i + 2, 2 * j), (2 * i + 2, 2 * j + 2), (2 * i + 1, 2 * j + 1)),
   ((2 * i + 2, 2 * j + 2), (2 * i, 2 * j + 2), (2 * i + 1, 2 * j + 1)), ((2 * i, 2 * j + 2), (2 * i, 2 * j), (2 * i + 1, 2 * j + 1))]

def idxEdges (t : Idx × Idx × Idx) : List (Idx × Idx) := [(t.1, t.2.1), (t.2.1, t.2.2), (t.2.2, t.1)]

def cellEdges (i j : ℕ) : List (Idx × Idx) := (cellIdx i j).flatMap idxEdges

def gridEdges (n : ℕ) : List (Idx × Idx) := (List.range n).flatMap fun i => (List.range n).flatMap fun j => cellEdges i j

/-- The cell on the left of an edge. -/
def leftCell (e : Idx × Idx) : ℤ × ℤ :=
  ((2 * (e.1.1 + e.2.1) - (e.2.2 - e.1.2)) / 8, (2 * (e.1.2 + e.2.2) + (e.2.1 - e.1.1)) / 8)

theorem leftCell_cell (i j : ℕ) (e : Idx × Idx) (he : e ∈ cellEdges i j) : leftCell e = ((i : ℤ), (j : ℤ)) := by
  simp only [cellEdges, cellIdx, idxEdges, List.flatMap_cons, List.flatMap_nil, List.cons_append, List.nil_append, List.mem_cons,
    List.not_mem_nil, or_false] at he
  rcases he with rfl | rfl | rfl | rfl | rfl | rfl | rfl | rfl | rfl | rfl | rfl | rfl <;>
    (simp only [leftCell, Prod.mk.injEq]; constructor <;> omega)

theorem cellEdges_nodup (i j : ℕ) : (cellEdges i j).Nodup := by
  simp only [cellEdges, cellIdx, idxEdges, List.flatMap_cons, List.flatMap_nil, List.cons_append, List.nil_append]
  simp only [List.nodup_cons, List.mem_cons, List.not_mem_nil, or_false, not_false_eq_true, List.nodup_nil, and_true, Prod.mk.injEq]
  refine ⟨?_, ?_, ?_, ?_, ?_, ?_, ?_, ?_, ?_, ?_, ?_⟩ <;> omega

theorem gridEdges_nodup (n : ℕ) : (gridEdges n).Nodup := by
  unfold gridEdges
  rw [List.nodup_flatMap]
  refine ⟨fun i _ => ?_, ?_⟩
  · rw [List.nodup_flatMap]
    refine ⟨fun j _ => cellEdges_nodup i j, ?_⟩
    refine List.Pairwise.imp (fun {j j'} (h : j < j') => ?_) List.pairwise_lt_range
    intro e he he'
    have := (leftCell_cell i j e he).symm.trans (leftCell_cell i j' e he')
    simp only [Prod.mk.injEq, Nat.cast_inj, true_and] at this
    omega
  · refine List.Pairwise.imp (fun {i i'} (h : i < i') => ?_) List.pairwise_lt_range
    intro e he he'
    obtain ⟨j, -, hj⟩ := List.mem_flatMap.1 he
    obtain ⟨j', -, hj'⟩ := List.mem_flatMap.1 he'
    have := (leftCell_cell i j e hj).symm.trans (leftCell_cell i' j' e hj')
    simp only [Prod.mk.injEq, Nat.cast_inj] at this
    omega

theorem gridEdges_range (n : ℕ) (e : Idx × Idx) (he : e ∈ gridEdges n) :
    (0 ≤ e.1.1 ∧ e.1.1 ≤ 2 * n ∧ 0 ≤ e.1.2 ∧ e.1.2 ≤ 2 * n) ∧ 0 ≤ e.2.1 ∧ e.2.1 ≤ 2 * n ∧ 0 ≤ e.2.2 ∧ e.2.2 ≤ 2 * n := by
  obtain ⟨i, hi, he⟩ := List.mem_flatMap.1 he
  obtain ⟨j, hj, he⟩ := List.mem_flatMap.1 he
  have hi := List.mem_range.1 hi
  have hj := List.mem_range.1 hj
  simp only [cellEdges, cellIdx, idxEdges, List.flatMap_cons, List.flatMap_nil, List.cons_append, List.nil_append, List.mem_cons,
    List.not_mem_nil, or_false] at he
  rcases he with rfl | rfl | rfl | rfl | rfl | rfl | rfl | rfl | rfl | rfl | rfl | rfl <;> simp only <;> omega

/-- The point with index `(a, b)`. -/
noncomputable def idxPt (n : ℕ) (A B D C : V) (k : Idx) : V := quadPt A B D C ((k.1 : ℝ) / (2 * n)) ((k.2 : ℝ) / (2 * n))

theorem idxPt_even (n : ℕ) (A B D C : V) (i j : ℕ) : idxPt n A B D C (2 * i, 2 * j) = quadGrid n A B D C i j := by
  unfold idxPt quadGrid
  push_cast
  rw [mul_div_mul_left _ _ two_ne_zero, mul_div_mul_left _ _ two_ne_zero]

theorem idxPt_centre (n : ℕ) (hn : 1 ≤ n) (A B D C : V) (i j : ℕ) : idxPt n A B D C (2 * i + 1, 2 * j + 1) =
    cellCentre MeshArith.real (quadGrid n A B D C i j) (quadGrid n A B D C (i + 1) j) (quadGrid n A B D C i (j + 1))
      (quadGrid n A B D C (i + 1) (j + 1)) := by
  have : (n : ℝ) ≠ 0 := by positivity
  unfold idxPt quadGrid quadPt cellCentre MeshArith.real
  push_cast
  ext <;> simp <;> field_simp <;> ring

theorem cell_idx (n : ℕ) (hn : 1 ≤ n) (A B D C : V) (i j : ℕ) :
    cellTris MeshArith.real false (quadGrid n A B D C i j) (quadGrid n A B D C (i + 1) j) (quadGrid n A B D C i (j + 1))
      (quadGrid n A B D C (i + 1) (j + 1)) =
    (cellIdx i j).map fun t => ⟨idxPt n A B D C t.1, idxPt n A B D C t.2.1, idxPt n A B D C t.2.2⟩ := by
  have e1 := idxPt_even n A B D C i j
  have e2 := idxPt_even n A B D C (i + 1) j
  have e3 := idxPt_even n A B D C i (j + 1)
  have e4 := idxPt_even n A B D C (i + 1) (j + 1)
  push_cast [mul_add, mul_one] at e1 e2 e3 e4
  simp only [cellTris, meshVertex_real, cellIdx, List.map_cons, List.map_nil, idxPt_centre n hn, e1, e2, e3, e4]

theorem edges_cell (n : ℕ) (hn : 1 ≤ n) (A B D C : V) (i j : ℕ) :
    edges (cellTris MeshArith.real false (quadGrid n A B D C i j) (quadGrid n A B D C (i + 1) j) (quadGrid n A B D C i (j + 1))
      (quadGrid n A B D C (i + 1) (j + 1))) = (cellEdges i j).map fun e => (idxPt n A B D C e.1, idxPt n A B D C e.2) := by
  rw [cell_idx n hn]
  rfl

theorem edges_quadGrid (n : ℕ) (hn : 1 ≤ n) (A B D C : V) :
    edges (gridMesh MeshArith.real false n n (quadGrid n A B D C)) =
      (gridEdges n).map fun e => (idxPt n A B D C e.1, idxPt n A B D C e.2) := by
  unfold gridMesh gridEdges
  rw [edges_flatten, List.map_map, List.flatMap, List.map_flatten, List.map_map]
  congr 1
  apply List.map_congr_left
  intro i _
  simp only [Function.comp_apply]
  rw [edges_flatten, List.map_map, List.flatMap, List.map_flatten, List.map_map]
  congr 1
  apply List.map_congr_left
  intro j _
  exact edges_cell n hn A B D C i j

/-! ## Geometry of a face -/

/-- The determinant of the derivatives at `(u, v)`. -/
theorem quad_jacobian {τ : ℝ} {N A B D C : V} (h : TurnsRound τ N A B D C) (u v : ℝ) (u0 : 0 ≤ u) (u1 : u ≤ 1) (v0 : 0 ≤ v) (v1 : v ≤ 1) :
    ∃ J : ℝ, 0 < τ * J ∧ ((B - A) * (1 - v) + (C - D) * v).cross ((D - A) * (1 - u) + (C - B) * u) = N * J := by
  obtain ⟨j00, j10, j01, j11, a, b, c, d, ha, hb, hc, hd⟩ := h
  refine ⟨(1 - u) * (1 - v) * j00 + u * (1 - v) * j10 + (1 - u) * v * j01 + u * v * j11, ?_, ?_⟩
  · have e : τ * ((1 - u) * (1 - v) * j00 + u * (1 - v) * j10 + (1 - u) * v * j01 + u * v * j11) =
      (1 - u) * (1 - v) * (τ * j00) + u * (1 - v) * (τ * j10) + (1 - u) * v * (τ * j01) + u * v * (τ * j11) := by ring
    rw [e]
    generalize τ * j00 = w at *
    generalize τ * j10 = x at *
    generalize τ * j01 = y at *
    generalize τ * j11 = z at *
    have u1' := sub_nonneg.2 u1
    have v1' := sub_nonneg.2 v1
    set m := min (min w x) (min y z) with hm
    have hm0 : 0 < m := by simp only [hm, lt_min_iff]; exact ⟨⟨a, b⟩, c, d⟩
    have mw : m ≤ w := (min_le_left _ _).trans (min_le_left _ _)
    have mx : m ≤ x := (min_le_left _ _).trans (min_le_right _ _)
    have my : m ≤ y := (min_le_right _ _).trans (min_le_left _ _)
    have mz : m ≤ z := (min_le_right _ _).trans (min_le_right _ _)
    have i1 := mul_le_mul_of_nonneg_left mw (mul_nonneg u1' v1')
    have i2 := mul_le_mul_of_nonneg_left mx (mul_nonneg u0 v1')
    have i3 := mul_le_mul_of_nonneg_left my (mul_nonneg u1' v0)
    have i4 := mul_le_mul_of_nonneg_left mz (mul_nonneg u0 v0)
    have : (1 - u) * (1 - v) * m + u * (1 - v) * m + (1 - u) * v * m + u * v * m = m := by ring
    linarith
  · have hx := And.intro (congrArg Vec.x ha) (And.intro (congrArg Vec.x hb) (And.intro (congrArg Vec.x hc) (congrArg Vec.x hd)))
    have hy := And.intro (congrArg Vec.y ha) (And.intro (congrArg Vec.y hb) (And.intro (congrArg Vec.y hc) (congrArg Vec.y hd)))
    have hz := And.intro (congrArg Vec.z ha) (And.intro (congrArg Vec.z hb) (And.intro (congrArg Vec.z hc) (congrArg Vec.z hd)))
    simp only [Vec.cross, Vec.mul_x, Vec.mul_y, Vec.mul_z, Vec.sub_x, Vec.sub_y, Vec.sub_z] at hx hy hz
    ext
    · simp only [Vec.cross, Vec.mul_x, Vec.mul_y, Vec.mul_z, Vec.sub_x, Vec.sub_y, Vec.sub_z, Vec.add_x, Vec.add_y, Vec.add_z]
      linear_combination (1 - u) * (1 - v) * hx.1 + u * (1 - v) * hx.2.1 + (1 - u) * v * hx.2.2.1 + u * v * hx.2.2.2
    · simp only [Vec.cross, Vec.mul_x, Vec.mul_y, Vec.mul_z, Vec.sub_x, Vec.sub_y, Vec.sub_z, Vec.add_x, Vec.add_y, Vec.add_z]
      linear_combination (1 - u) * (1 - v) * hy.1 + u * (1 - v) * hy.2.1 + (1 - u) * v * hy.2.2.1 + u * v * hy.2.2.2
    · simp only [Vec.cross, Vec.mul_x, Vec.mul_y, Vec.mul_z, Vec.sub_x, Vec.sub_y, Vec.sub_z, Vec.add_x, Vec.add_y, Vec.add_z]
      linear_combination (1 - u) * (1 - v) * hz.1 + u * (1 - v) * hz.2.1 + (1 - u) * v * hz.2.2.1 + u * v * hz.2.2.2

/-- Two different points of the square go to two different points. -/
theorem quad_injective {τ : ℝ} {N A B D C : V} (hN : N ≠ ⟨0, 0, 0⟩) (h : TurnsRound τ N A B D C) (u v u' v' : ℝ)
    (hu : 0 ≤ u ∧ u ≤ 1) (hv : 0 ≤ v ∧ v ≤ 1) (hu' : 0 ≤ u' ∧ u' ≤ 1) (hv' : 0 ≤ v' ∧ v' ≤ 1)
    (e : quadPt A B D C u v = quadPt A B D C u' v') : u = u' ∧ v = v' := by
  obtain ⟨J, hJ, hc⟩ := quad_jacobian h ((u + u') / 2) ((v + v') / 2) (by linarith [hu.1, hu'.1]) (by linarith [hu.2, hu'.2])
    (by linarith [hv.1, hv'.1]) (by linarith [hv.2, hv'.2])
  set S := (B - A) * (1 - (v + v') / 2) + (C - D) * ((v + v') / 2) with hS
  set T := (D - A) * (1 - (u + u') / 2) + (C - B) * ((u + u') / 2) with hT
  have hx : (u' - u) * S.x + (v' - v) * T.x = 0 := by
    have := congrArg Vec.x e
    simp only [quadPt, Vec.mul_x, Vec.add_x, hS, hT, Vec.sub_x] at this ⊢
    linear_combination -this
  have hy : (u' - u) * S.y + (v' - v) * T.y = 0 := by
    have := congrArg Vec.y e
    simp only [quadPt, Vec.mul_y, Vec.add_y, hS, hT, Vec.sub_y] at this ⊢
    linear_combination -this
  have hz : (u' - u) * S.z + (v' - v) * T.z = 0 := by
    have := congrArg Vec.z e
    simp only [quadPt, Vec.mul_z, Vec.add_z, hS, hT, Vec.sub_z] at this ⊢
    linear_combination -this
  have cx := congrArg Vec.x hc
  have cy := congrArg Vec.y hc
  have cz := congrArg Vec.z hc
  simp only [Vec.cross, Vec.mul_x, Vec.mul_y, Vec.mul_z] at cx cy cz
  have hJ0 : J ≠ 0 := by rintro rfl; simp at hJ
  have hne : N.x ≠ 0 ∨ N.y ≠ 0 ∨ N.z ≠ 0 := by
    by_contra hh
    push Not at hh
    exact hN (Vec.ext hh.1 hh.2.1 hh.2.2)
  have du : ∀ k : ℝ, k ≠ 0 → (u' - u) * (k * J) = 0 → u = u' := by
    intro k hk h0
    rcases mul_eq_zero.1 h0 with h | h
    · linarith
    · exact absurd h (mul_ne_zero hk hJ0)
  have dv : ∀ k : ℝ, k ≠ 0 → (v' - v) * (k * J) = 0 → v = v' := by
    intro k hk h0
    rcases mul_eq_zero.1 h0 with h | h
    · linarith
    · exact absurd h (mul_ne_zero hk hJ0)
  rcases hne with hk | hk | hk
  · exact ⟨du _ hk (by rw [← cx]; linear_combination T.z * hy - T.y * hz), dv _ hk (by rw [← cx]; linear_combination S.y * hz - S.z * hy)⟩
  · exact ⟨du _ hk (by rw [← cy]; linear_combination T.x * hz - T.z * hx), dv _ hk (by rw [← cy]; linear_combination S.z * hx - S.x * hz)⟩
  · exact ⟨du _ hk (by rw [← cz]; linear_combination T.y * hx - T.x * hy), dv _ hk (by rw [← cz]; linear_combination S.x * hy - S.y * hx)⟩

/-- No directed edge occurs twice in the mesh of a face. -/
theorem face_nodup {τ : ℝ} {N A B D C : V} (hN : N ≠ ⟨0, 0, 0⟩) (h : TurnsRound τ N A B D C) (n : ℕ) (hn : 1 ≤ n) :
    (edges (gridMesh MeshArith.real false n n (quadGrid n A B D C))).Nodup := by
  rw [edges_quadGrid n hn]
  have hn0 : (0 : ℝ) < 2 * n := by positivity
  have unit : ∀ a : ℤ, 0 ≤ a → a ≤ 2 * n → 0 ≤ (a : ℝ) / (2 * n) ∧ (a : ℝ) / (2 * n) ≤ 1 := by
    intro a h0 h1
    have h0' : (0 : ℝ) ≤ a := by exact_mod_cast h0
    have h1' : (a : ℝ) ≤ 2 * n := by exact_mod_cast h1
    exact ⟨by positivity, by rw [div_le_one hn0]; exact h1'⟩
  have inj : ∀ k k' : Idx, (0 ≤ k.1 ∧ k.1 ≤ 2 * n ∧ 0 ≤ k.2 ∧ k.2 ≤ 2 * n) → (0 ≤ k'.1 ∧ k'.1 ≤ 2 * n ∧ 0 ≤ k'.2 ∧ k'.2 ≤ 2 * n) →
      idxPt n A B D C k = idxPt n A B D C k' → k = k' := by
    rintro k k' ⟨a1, a2, a3, a4⟩ ⟨b1, b2, b3, b4⟩ e
    obtain ⟨e1, e2⟩ := quad_injective hN h _ _ _ _ (unit _ a1 a2) (unit _ a3 a4) (unit _ b1 b2) (unit _ b3 b4) e
    rw [div_left_inj' hn0.ne'] at e1 e2
    exact Prod.ext (by exact_mod_cast e1) (by exact_mod_cast e2)
  refine (List.nodup_map_iff_inj_on (gridEdges_nodup n)).2 ?_
  intro e he f hf hef
  rw [Prod.mk.injEq] at hef
  have re := gridEdges_range n e he
  have rf := gridEdges_range n f hf
  exact Prod.ext (inj _ _ re.1 rf.1 hef.1) (inj _ _ re.2 rf.2 hef.2)

/-- The normals of the triangles of a face are multiples of `N` with the sign of `τ`. -/
theorem face_normal {τ : ℝ} {N A B D C : V} (h : TurnsRound τ N A B D C) (n : ℕ) (hn : 1 ≤ n) (t : Tri ℝ)
    (ht : t ∈ gridMesh MeshArith.real false n n (quadGrid n A B D C)) :
    ∃ J : ℝ, 0 < τ * J ∧ (t.v1 - t.v0).cross (t.v2 - t.v0) = N * J := by
  obtain ⟨i, hi, j, hj, ht⟩ := (mem_gridMesh _ _ _ _ _ _).1 ht
  have hn0 : (0 : ℝ) < n := by positivity
  have hi' : (i : ℝ) + 1 ≤ n := by exact_mod_cast hi
  have hj' : (j : ℝ) + 1 ≤ n := by exact_mod_cast hj
  have hi0 : (0 : ℝ) ≤ i := by positivity
  have hj0 : (0 : ℝ) ≤ j := by positivity
  have key : ∀ a b : ℝ, 0 ≤ a → a ≤ 1 → 0 ≤ b → b ≤ 1 → ∃ J : ℝ, 0 < τ * J ∧
      ((B - A) * (1 - ((j : ℝ) + b) / (n : ℝ)) + (C - D) * (((j : ℝ) + b) / (n : ℝ))).cross ((D - A) * (1 - ((i : ℝ) + a) / (n : ℝ)) + (C - B) * (((i : ℝ) + a) / (n : ℝ))) = N * J := by
    intro a b a0 a1 b0 b1
    exact quad_jacobian h _ _ (by positivity) (by rw [div_le_one hn0]; linarith) (by positivity) (by rw [div_le_one hn0]; linarith)
  have fin : ∀ a b : ℝ, 0 ≤ a → a ≤ 1 → 0 ≤ b → b ≤ 1 → (t.v1 - t.v0).cross (t.v2 - t.v0) =
      ((B - A) * (1 - ((j : ℝ) + b) / (n : ℝ)) + (C - D) * (((j : ℝ) + b) / (n : ℝ))).cross ((D - A) * (1 - ((i : ℝ) + a) / (n : ℝ)) + (C - B) * (((i : ℝ) + a) / (n : ℝ))) * (1 / (2 * (n : ℝ) ^ 2)) →
      ∃ J : ℝ, 0 < τ * J ∧ (t.v1 - t.v0).cross (t.v2 - t.v0) = N * J := by
    intro a b a0 a1 b0 b1 e
    obtain ⟨J, hJ, hc⟩ := key a b a0 a1 b0 b1
    refine ⟨J * (1 / (2 * (n : ℝ) ^ 2)), by rw [← mul_assoc]; positivity, ?_⟩
    rw [e, hc]
    ext <;> simp <;> ring
  simp only [cellTris, meshVertex_real, List.mem_cons, List.not_mem_nil, or_false] at ht
  rcases ht with rfl | rfl | rfl | rfl
  · refine fin (1 / 2) 0 (by norm_num) (by norm_num) le_rfl zero_le_one ?_
    ext <;> simp only [Vec.cross, cellCentre, MeshArith.real, quadGrid, quadPt, Vec.mul_x, Vec.mul_y, Vec.mul_z, Vec.sub_x, Vec.sub_y, Vec.sub_z, Vec.add_x, Vec.add_y, Vec.add_z] <;>
      push_cast <;> field_simp <;> ring
  · refine fin 1 (1 / 2) zero_le_one le_rfl (by norm_num) (by norm_num) ?_
    ext <;> simp only [Vec.cross, cellCentre, MeshArith.real, quadGrid, quadPt, Vec.mul_x, Vec.mul_y, Vec.mul_z, Vec.sub_x, Vec.sub_y, Vec.sub_z, Vec.add_x, Vec.add_y, Vec.add_z] <;>
      push_cast <;> field_simp <;> ring
  · refine fin (1 / 2) 1 (by norm_num) (by norm_num) zero_le_one le_rfl ?_
    ext <;> simp only [Vec.cross, cellCentre, MeshArith.real, quadGrid, quadPt, Vec.mul_x, Vec.mul_y, Vec.mul_z, Vec.sub_x, Vec.sub_y, Vec.sub_z, Vec.add_x, Vec.add_y, Vec.add_z] <;>
      push_cast <;> field_simp <;> ring
  · refine fin 0 (1 / 2) le_rfl zero_le_one (by norm_num) (by norm_num) ?_
    ext <;> simp only [Vec.cross, cellCentre, MeshArith.real, quadGrid, quadPt, Vec.mul_x, Vec.mul_y, Vec.mul_z, Vec.sub_x, Vec.sub_y, Vec.sub_z, Vec.add_x, Vec.add_y, Vec.add_z] <;>
      push_cast <;> field_simp <;> ring

/-- The vertices of a face have every property that its corners have and that passes to weighted means. -/
theorem face_vertices (n : ℕ) (hn : 1 ≤ n) (A B D C : V) (a b c d : ℝ) (L : ℝ) (hA : L ≤ aff a b c d A) (hB : L ≤ aff a b c d B)
    (hD : L ≤ aff a b c d D) (hC : L ≤ aff a b c d C) (v : V) (hv : IsVertex v (gridMesh MeshArith.real false n n (quadGrid n A B D C))) :
    L ≤ aff a b c d v := by
  refine grid_keeps n _ (fun v => L ≤ aff a b c d v) ?_ ?_ v hv
  · intro p q r s hp hq hr hs
    rw [aff_centre]
    linarith
  · intro i hi j hj
    obtain ⟨a1, a2⟩ := unit_div n i hn hi
    obtain ⟨b1, b2⟩ := unit_div n j hn hj
    have := bilinear_nonneg a1 a2 b1 b2 (sub_nonneg.2 hA) (sub_nonneg.2 hB) (sub_nonneg.2 hD) (sub_nonneg.2 hC)
    rw [← sub_nonneg]
    refine this.trans_eq ?_
    simp only [aff, quadGrid, quadPt, Vec.mul_x, Vec.mul_y, Vec.mul_z, Vec.add_x, Vec.add_y, Vec.add_z]
    ring

end HV
