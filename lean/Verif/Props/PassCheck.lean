import Verif.Lemmas.ConvexFaces
import Verif.Props.Degenerate
import Verif.Props.Wedge

/-!
# C160: which generated bodies pass `stl_check`
-/

namespace HV
open Spec

/-- A plane quadrilateral face with corners `A`, `B`, `C`, `D` in this order; the other corners of the body are on the side
of its normal `N`.  The corners turn round `N` in the direction given by the sign of `τ`, which is the same for all faces. -/
def Spec.FaceOf (τ : ℝ) (A B D C : V) (others : List V) : Prop :=
  ∃ N : V, TurnsRound τ N A B D C ∧ ∀ x ∈ others, 0 < N.dot (x - A)

/-- The eight points are the corners of a convex body with six plane faces: the quadrilateral of the `P`, that of the `Q`, and four
walls. -/
def Spec.ConvexHexahedron (P Q : ℕ → V) : Prop := ∃ τ : ℝ,
  FaceOf τ (P 0) (Q 0) (P 1) (Q 1) [P 2, P 3, Q 2, Q 3] ∧ FaceOf τ (P 1) (Q 1) (P 2) (Q 2) [P 3, P 0, Q 3, Q 0] ∧
  FaceOf τ (P 2) (Q 2) (P 3) (Q 3) [P 0, P 1, Q 0, Q 1] ∧ FaceOf τ (P 3) (Q 3) (P 0) (Q 0) [P 1, P 2, Q 1, Q 2] ∧
  FaceOf τ (P 0) (P 1) (P 3) (P 2) [Q 0, Q 1, Q 2, Q 3] ∧ FaceOf τ (Q 1) (Q 0) (Q 2) (Q 3) [P 0, P 1, P 2, P 3]

/-- The cross section with straight edges between four corners. -/
noncomputable def cornerSection (P : ℕ → V) : List PathObj :=
  [Line (P 0) (P 1), Line (P 1) (P 2), Line (P 2) (P 3), Line (P 3) (P 0)]

/-! ## Convex bodies in general -/

/-- A face with its normal. -/
structure NFace where
  N : V
  A : V
  B : V
  D : V
  C : V

noncomputable def NFace.mesh (n : ℕ) (f : NFace) : TriMesh ℝ := gridMesh MeshArith.real false n n (quadGrid n f.A f.B f.D f.C)

def NFace.corners (f : NFace) : List V := [f.A, f.B, f.D, f.C]

def NFace.Turns (τ : ℝ) (f : NFace) : Prop := f.N ≠ ⟨0, 0, 0⟩ ∧ TurnsRound τ f.N f.A f.B f.D f.C

/-- Each of two faces is inside of the other, the second not in the plane of the first. -/
def NFace.Apart (f g : NFace) : Prop := (∀ x ∈ g.corners, 0 ≤ f.N.dot (x - f.A)) ∧ (∀ x ∈ f.corners, 0 ≤ g.N.dot (x - g.A)) ∧
  ∃ x ∈ g.corners, 0 < f.N.dot (x - f.A)

theorem dot_aff (N A v : V) : N.dot (v - A) = aff N.x N.y N.z (-(N.dot A)) v := by
  simp only [Vec.dot, aff, Vec.sub_x, Vec.sub_y, Vec.sub_z]
  ring

theorem turns_plane {τ : ℝ} {f : NFace} (h : f.Turns τ) : ∀ x ∈ f.corners, f.N.dot (x - f.A) = 0 := by
  obtain ⟨-, j00, j10, j01, j11, a, b, c, d, ha, hb, hc, hd⟩ := h
  have n0 : j00 ≠ 0 := by rintro rfl; simp at a
  have n1 : j10 ≠ 0 := by rintro rfl; simp at b
  have key : ∀ (j : ℝ) (u v : V), j ≠ 0 → u.cross v = f.N * j → f.N.dot u = 0 ∧ f.N.dot v = 0 := by
    intro j u v hj e
    have ex := congrArg Vec.x e
    have ey := congrArg Vec.y e
    have ez := congrArg Vec.z e
    simp only [Vec.cross, Vec.mul_x, Vec.mul_y, Vec.mul_z] at ex ey ez
    constructor
    · apply mul_left_cancel₀ hj
      rw [mul_zero]
      simp only [Vec.dot]
      linear_combination -(u.x * ex + u.y * ey + u.z * ez)
    · apply mul_left_cancel₀ hj
      rw [mul_zero]
      simp only [Vec.dot]
      linear_combination -(v.x * ex + v.y * ey + v.z * ez)
  obtain ⟨k1, k2⟩ := key _ _ _ n0 ha
  obtain ⟨-, k3⟩ := key _ _ _ n1 hb
  intro x hx
  simp only [NFace.corners, List.mem_cons, List.not_mem_nil, or_false] at hx
  rcases hx with rfl | rfl | rfl | rfl
  · simp [Vec.dot]
  · exact k1
  · exact k2
  · have : f.N.dot (f.C - f.A) = f.N.dot (f.B - f.A) + f.N.dot (f.C - f.B) := by simp only [Vec.dot, Vec.sub_x, Vec.sub_y, Vec.sub_z]; ring
    rw [this, k1, k3, add_zero]

theorem face_inside (n : ℕ) (hn : 1 ≤ n) (g : NFace) (N A : V) (h : ∀ x ∈ g.corners, 0 ≤ N.dot (x - A)) (v : V)
    (hv : IsVertex v (g.mesh n)) : 0 ≤ N.dot (v - A) := by
  rw [dot_aff]
  simp only [NFace.corners, List.mem_cons, List.not_mem_nil, or_false, forall_eq_or_imp, forall_eq, dot_aff] at h
  exact face_vertices n hn g.A g.B g.D g.C _ _ _ _ 0 h.1 h.2.1 h.2.2.1 h.2.2.2 v hv

theorem face_in_plane {τ : ℝ} (n : ℕ) (hn : 1 ≤ n) (g : NFace) (hg : g.Turns τ) (v : V) (hv : IsVertex v (g.mesh n)) :
    g.N.dot (v - g.A) = 0 := by
  have h := turns_plane hg
  apply le_antisymm
  · have e : ∀ x : V, (g.N * (-1 : ℝ)).dot (x - g.A) = -(g.N.dot (x - g.A)) := by intro x; simp only [Vec.dot, Vec.mul_x, Vec.mul_y, Vec.mul_z]; ring
    have := face_inside n hn g (g.N * (-1 : ℝ)) g.A (fun x hx => by rw [e, h x hx, neg_zero]) v hv
    rw [e] at this
    linarith
  · exact face_inside n hn g g.N g.A (fun x hx => (h x hx).ge) v hv

theorem edge_third (t : Tri ℝ) (e : V × V) (he : e ∈ triEdges t) :
    ∃ w ∈ [t.v0, t.v1, t.v2], (e.2 - e.1).cross (w - e.1) = (t.v1 - t.v0).cross (t.v2 - t.v0) := by
  simp only [triEdges, List.mem_cons, List.not_mem_nil, or_false] at he
  rcases he with rfl | rfl | rfl
  · exact ⟨t.v2, by simp, rfl⟩
  · exact ⟨t.v0, by simp, by ext <;> simp [Vec.cross] <;> ring⟩
  · exact ⟨t.v1, by simp, by ext <;> simp [Vec.cross] <;> ring⟩

theorem edge_of_face {τ : ℝ} (n : ℕ) (hn : 1 ≤ n) (f : NFace) (hf : f.Turns τ) (e : V × V) (he : e ∈ edges (f.mesh n)) :
    IsVertex e.1 (f.mesh n) ∧ ∃ w J, IsVertex w (f.mesh n) ∧ 0 < τ * J ∧ (e.2 - e.1).cross (w - e.1) = f.N * J := by
  obtain ⟨t, ht, he⟩ := List.mem_flatMap.1 he
  obtain ⟨w, hw, hc⟩ := edge_third t e he
  obtain ⟨J, hJ, hn'⟩ := face_normal hf.2 n hn t ht
  have vert : ∀ v ∈ [t.v0, t.v1, t.v2], IsVertex v (f.mesh n) := by
    intro v hv
    refine ⟨t, ht, ?_⟩
    simpa using hv
  refine ⟨vert _ ?_, w, J, vert w hw, hJ, hc.trans hn'⟩
  simp only [triEdges, List.mem_cons, List.not_mem_nil, or_false] at he
  rcases he with rfl | rfl | rfl <;> simp

/-- Two faces of a convex body do not have a directed edge in common. -/
theorem faces_disjoint {τ : ℝ} (n : ℕ) (hn : 1 ≤ n) (f g : NFace) (hf : f.Turns τ) (hg : g.Turns τ) (h : f.Apart g) :
    List.Disjoint (edges (f.mesh n)) (edges (g.mesh n)) := by
  intro e hef heg
  obtain ⟨va, w1, J1, v1, p1, c1⟩ := edge_of_face n hn f hf e hef
  obtain ⟨va', w2, J2, v2, p2, c2⟩ := edge_of_face n hn g hg e heg
  obtain ⟨h1, h2, x, hx, hx0⟩ := h
  have fa := face_in_plane n hn f hf e.1 va
  have ga := face_in_plane n hn g hg e.1 va'
  have i1 := face_inside n hn g f.N f.A h1 w2 v2
  have i2 := face_inside n hn f g.N g.A h2 w1 v1
  have s : ∀ N A p q : V, N.dot (p - A) = N.dot (q - A) + N.dot (p - q) := by
    intro N A p q; simp only [Vec.dot, Vec.sub_x, Vec.sub_y, Vec.sub_z]; ring
  rw [s _ _ _ e.1, fa, zero_add] at i1
  rw [s _ _ _ e.1, ga, zero_add] at i2
  have gx := turns_plane hg x hx
  rw [s _ _ _ e.1, ga, zero_add] at gx
  rw [s _ _ _ e.1, fa, zero_add] at hx0
  generalize e.2 - e.1 = u at c1 c2
  generalize w1 - e.1 = d1 at c1 i2
  generalize w2 - e.1 = d2 at c2 i1
  generalize x - e.1 = y at gx hx0
  have j1 : J1 ≠ 0 := by rintro rfl; simp at p1
  have j2 : J2 ≠ 0 := by rintro rfl; simp at p2
  have c1x := congrArg Vec.x c1
  have c1y := congrArg Vec.y c1
  have c1z := congrArg Vec.z c1
  have c2x := congrArg Vec.x c2
  have c2y := congrArg Vec.y c2
  have c2z := congrArg Vec.z c2
  simp only [Vec.cross, Vec.mul_x, Vec.mul_y, Vec.mul_z] at c1x c1y c1z c2x c2y c2z
  have hsum : τ * J1 * f.N.dot d2 + τ * J2 * g.N.dot d1 = 0 := by
    simp only [Vec.dot]
    linear_combination -τ * (d2.x * c1x + d2.y * c1y + d2.z * c1z + d1.x * c2x + d1.y * c2y + d1.z * c2z)
  have q1 := mul_nonneg p1.le i1
  have q2 := mul_nonneg p2.le i2
  have hz : f.N.dot d2 = 0 := by
    have : τ * J1 * f.N.dot d2 = 0 := by linarith
    exact (mul_eq_zero.1 this).resolve_left p1.ne'
  have hdet : J1 * f.N.dot d2 = 0 := by rw [hz, mul_zero]
  simp only [Vec.dot] at hdet
  -- the normals are parallel
  have kx : f.N.y * g.N.z - f.N.z * g.N.y = 0 := by
    apply mul_left_cancel₀ (mul_ne_zero j1 j2)
    have : J1 * J2 * (f.N.y * g.N.z - f.N.z * g.N.y) = (J1 * (f.N.x * d2.x + f.N.y * d2.y + f.N.z * d2.z)) * u.x := by
      have a1 : J1 * f.N.x = _ := (mul_comm _ _).trans c1x.symm
      have a2 : J1 * f.N.y = _ := (mul_comm _ _).trans c1y.symm
      have a3 : J1 * f.N.z = _ := (mul_comm _ _).trans c1z.symm
      have b2 : J2 * g.N.y = _ := (mul_comm _ _).trans c2y.symm
      have b3 : J2 * g.N.z = _ := (mul_comm _ _).trans c2z.symm
      calc _ = (J1 * f.N.y) * (J2 * g.N.z) - (J1 * f.N.z) * (J2 * g.N.y) := by ring
        _ = ((J1 * f.N.x) * d2.x + (J1 * f.N.y) * d2.y + (J1 * f.N.z) * d2.z) * u.x := by rw [a1, a2, a3, b2, b3]; ring
        _ = _ := by ring
    rw [this, hdet]; ring
  have ky : f.N.z * g.N.x - f.N.x * g.N.z = 0 := by
    apply mul_left_cancel₀ (mul_ne_zero j1 j2)
    have : J1 * J2 * (f.N.z * g.N.x - f.N.x * g.N.z) = (J1 * (f.N.x * d2.x + f.N.y * d2.y + f.N.z * d2.z)) * u.y := by
      have a1 : J1 * f.N.x = _ := (mul_comm _ _).trans c1x.symm
      have a2 : J1 * f.N.y = _ := (mul_comm _ _).trans c1y.symm
      have a3 : J1 * f.N.z = _ := (mul_comm _ _).trans c1z.symm
      have b1 : J2 * g.N.x = _ := (mul_comm _ _).trans c2x.symm
      have b3 : J2 * g.N.z = _ := (mul_comm _ _).trans c2z.symm
      calc _ = (J1 * f.N.z) * (J2 * g.N.x) - (J1 * f.N.x) * (J2 * g.N.z) := by ring
        _ = ((J1 * f.N.x) * d2.x + (J1 * f.N.y) * d2.y + (J1 * f.N.z) * d2.z) * u.y := by rw [a1, a2, a3, b1, b3]; ring
        _ = _ := by ring
    rw [this, hdet]; ring
  have kz : f.N.x * g.N.y - f.N.y * g.N.x = 0 := by
    apply mul_left_cancel₀ (mul_ne_zero j1 j2)
    have : J1 * J2 * (f.N.x * g.N.y - f.N.y * g.N.x) = (J1 * (f.N.x * d2.x + f.N.y * d2.y + f.N.z * d2.z)) * u.z := by
      have a1 : J1 * f.N.x = _ := (mul_comm _ _).trans c1x.symm
      have a2 : J1 * f.N.y = _ := (mul_comm _ _).trans c1y.symm
      have a3 : J1 * f.N.z = _ := (mul_comm _ _).trans c1z.symm
      have b1 : J2 * g.N.x = _ := (mul_comm _ _).trans c2x.symm
      have b2 : J2 * g.N.y = _ := (mul_comm _ _).trans c2y.symm
      calc _ = (J1 * f.N.x) * (J2 * g.N.y) - (J1 * f.N.y) * (J2 * g.N.x) := by ring
        _ = ((J1 * f.N.x) * d2.x + (J1 * f.N.y) * d2.y + (J1 * f.N.z) * d2.z) * u.z := by rw [a1, a2, a3, b1, b2]; ring
        _ = _ := by ring
    rw [this, hdet]; ring
  have hgg : g.N.dot g.N ≠ 0 := by
    intro h0
    simp only [Vec.dot] at h0
    have q1 := mul_self_nonneg g.N.x
    have q2 := mul_self_nonneg g.N.y
    have q3 := mul_self_nonneg g.N.z
    exact hg.1 (Vec.ext (mul_self_eq_zero.1 (by linarith)) (mul_self_eq_zero.1 (by linarith)) (mul_self_eq_zero.1 (by linarith)))
  have : g.N.dot g.N * f.N.dot y = 0 := by
    simp only [Vec.dot] at gx ⊢
    linear_combination (f.N.x * g.N.x + f.N.y * g.N.y + f.N.z * g.N.z) * gx + (g.N.y * y.z - g.N.z * y.y) * (-kx) + (g.N.z * y.x - g.N.x * y.z) * (-ky) +
      (g.N.x * y.y - g.N.y * y.x) * (-kz)
  rcases mul_eq_zero.1 this with h | h
  · exact hgg h
  · linarith

/-- The mesh of the faces of a convex body has no directed edge twice and no degenerate one. -/
theorem convex_edges {τ : ℝ} (n : ℕ) (hn : 1 ≤ n) (fs : List NFace) (ht : ∀ f ∈ fs, f.Turns τ) (hp : fs.Pairwise NFace.Apart) :
    (edges (fs.map (NFace.mesh n)).flatten).Nodup ∧ ∀ e ∈ edges (fs.map (NFace.mesh n)).flatten, e.1 ≠ e.2 := by
  constructor
  · rw [edges_flatten, List.nodup_flatten, List.map_map]
    constructor
    · intro l hl
      obtain ⟨f, hf, rfl⟩ := List.mem_map.1 hl
      exact face_nodup (ht f hf).1 (ht f hf).2 n hn
    · rw [List.pairwise_map]
      exact hp.imp_of_mem fun hf hg h => faces_disjoint n hn _ _ (ht _ hf) (ht _ hg) h
  · intro e he
    rw [edges_flatten, List.mem_flatten] at he
    obtain ⟨l, hl, he⟩ := he
    rw [List.map_map] at hl
    obtain ⟨f, hf, rfl⟩ := List.mem_map.1 hl
    obtain ⟨-, w, J, -, p, c⟩ := edge_of_face n hn f (ht f hf) e he
    intro h
    have hJ : J ≠ 0 := by rintro rfl; simp at p
    apply (ht f hf).1
    rw [h] at c
    have cx := congrArg Vec.x c
    have cy := congrArg Vec.y c
    have cz := congrArg Vec.z c
    simp only [Vec.cross, Vec.mul_x, Vec.mul_y, Vec.mul_z, Vec.sub_x, Vec.sub_y, Vec.sub_z, sub_self, zero_mul, mul_zero] at cx cy cz
    exact Vec.ext ((mul_eq_zero.1 cx.symm).resolve_right hJ) ((mul_eq_zero.1 cy.symm).resolve_right hJ) ((mul_eq_zero.1 cz.symm).resolve_right hJ)

theorem watertight_of_closed (m : TriMesh ℝ) (h1 : (edges m).Nodup) (h2 : ∀ e ∈ edges m, e.1 ≠ e.2) (h3 : Closed m) : Watertight m := by
  refine ⟨h1, fun e he => ⟨h2 e he, ?_⟩⟩
  by_contra hno
  have a := edgeCount_eq_one h1 (show (e.1, e.2) ∈ edges m from he)
  have b := edgeCount_eq_zero hno
  have := h3 e.1 e.2
  omega

/-! ## The verdict -/

/-- A component without mesh computes its normals from the triangles. -/
theorem mesh_ofTris (c : Comp) (hm : c.mesh_ = none) (M : StlMesh) (c' : Comp) (hM : c.mesh = (.ok M, c')) : M = StlMesh.ofTris M.tris := by
  have comb : ∀ c1 : Comp, c1.combine = (.ok M, c') → M = StlMesh.ofTris M.tris := by
    intro c1 h
    unfold Comp.combine at h
    split at h
    · simp at h
    · simp at h
    · simp only [Prod.mk.injEq, Except.ok.injEq] at h
      rw [← h.1]
      rfl
  unfold Comp.mesh at hM
  simp only [hm] at hM
  unfold Comp.buildMesh at hM
  split at hM
  · exact comb _ hM
  · split at hM
    · simp at hM
    · exact comb _ hM

/-- Generating the patches of a component that is no composite changes nothing but its patches. -/
theorem leaf_keeps (h h' : Heap) (id : ℕ) (hc : ∀ l, (h id).gen ≠ .composite l) (r : Res Unit) (hg : generatePatches h id = (r, h')) :
    (h' id).mesh_ = (h id).mesh_ ∧ (h' id).surfaces = (h id).surfaces ∧ (h' id).clustering = (h id).clustering ∧
      (h' id).stl_resolution = (h id).stl_resolution := by
  unfold generatePatches at hg
  split at hg
  · exact absurd ‹_› (hc _)
  · unfold Composite.genLeaf at hg
    split at hg
    · simp only [Prod.mk.injEq] at hg
      rw [← hg.2, upd_self]
      exact ⟨rfl, rfl, rfl, rfl⟩
    · simp only [Prod.mk.injEq] at hg
      rw [← hg.2, upd_self]
      unfold Comp.genReplace
      split <;> exact ⟨rfl, rfl, rfl, rfl⟩
    · simp only [Prod.mk.injEq] at hg
      rw [← hg.2]
      exact ⟨rfl, rfl, rfl, rfl⟩

theorem swept_init_new (S : List (List PathObj)) (b : Bool) (res : Reso) (name : Option String) (c : Comp)
    (h : Swept.init S b res name = .ok c) : c.mesh_ = none ∧ c.surfaces = none ∧ c.clustering = {} ∧ c.stl_resolution = res ∧
      ∀ l, c.gen ≠ .composite l := by
  unfold Swept.init at h
  rw [bind_ok] at h
  obtain ⟨a, -, h⟩ := h
  rw [bind_ok] at h
  obtain ⟨u, -, h⟩ := h
  cases h
  exact ⟨rfl, rfl, rfl, rfl, fun l => by simp [Swept.comp]⟩

/-- The verdict on a mesh with fresh normals, with or without the area test. -/
theorem verdict (eps : ℝ) (heps : 0 ≤ eps) (m : TriMesh ℝ) (pa : Bool) : ∃ b, stlCheck eps (StlMesh.ofTris m) pa true = .ok b ∧
    (b = true ↔ Watertight m) := by
  obtain ⟨b, hb, h⟩ := C44_matching_lines eps m
  refine ⟨b, ?_, h⟩
  cases pa
  · exact hb
  · rw [C45_full_check eps heps]
    exact hb

/-! ## Swept bodies -/

theorem gridMesh_congr (n : ℕ) {P P' : ℕ → ℕ → V} (h : ∀ i ≤ n, ∀ j ≤ n, P i j = P' i j) :
    gridMesh MeshArith.real false n n P = gridMesh MeshArith.real false n n P' := by
  unfold gridMesh
  congr 1
  apply List.map_congr_left
  intro i hi
  have hi := List.mem_range.1 hi
  congr 1
  apply List.map_congr_left
  intro j hj
  have hj := List.mem_range.1 hj
  rw [h i hi.le j hj.le, h (i + 1) hi j hj.le, h i hi.le (j + 1) hj, h (i + 1) hi (j + 1) hj]

theorem section_edge (P : ℕ → V) (ne : ℕ) (hne : ne < 4) (t : ℝ) :
    (edgeOf ne (cornerSection P)).call t = .ok (lineAt (P ne) (P ((ne + 1) % 4)) t) := by
  interval_cases ne <;> rfl

/-- The mesh of a body swept between two quadrilaterals with straight edges consists of six bilinear patches. -/
theorem hexahedron_mesh (P Q : ℕ → V) (n : ℕ) (hn : 1 ≤ n) (name : Option String) :
    ∃ c, Swept.init [cornerSection P, cornerSection Q] true (.int n) name = .ok c ∧ ∀ (hp : Heap) (id : ℕ), hp id = c →
    ∃ h' M c', generatePatches hp id = (.ok (), h') ∧ (h' id).mesh = (.ok M, c') ∧ Closed M.tris ∧
      (h' id).mesh_ = none ∧ (h' id).surfaces = none ∧ (h' id).clustering = {} ∧ (h' id).stl_resolution = .int n ∧
      ((h' id).patches.map Prod.fst).Nodup ∧ M.tris =
        ([gridMesh MeshArith.real false n n (quadGrid n (P 0) (Q 0) (P 1) (Q 1)), gridMesh MeshArith.real false n n (quadGrid n (P 1) (Q 1) (P 2) (Q 2)),
          gridMesh MeshArith.real false n n (quadGrid n (P 2) (Q 2) (P 3) (Q 3)), gridMesh MeshArith.real false n n (quadGrid n (P 3) (Q 3) (P 0) (Q 0)),
          gridMesh MeshArith.real false n n (quadGrid n (P 0) (P 1) (P 3) (P 2)),
          gridMesh MeshArith.real false n n (quadGrid n (Q 1) (Q 0) (Q 2) (Q 3))] : List (TriMesh ℝ)).flatten := by
  have hlen : ∀ cs ∈ [cornerSection P, cornerSection Q], cs.length = 4 := by
    intro cs hcs
    simp only [List.mem_cons, List.not_mem_nil, or_false] at hcs
    rcases hcs with rfl | rfl <;> rfl
  have htot : EdgesTotal [cornerSection P, cornerSection Q] := by
    intro cs hcs e he t _ _
    simp only [List.mem_cons, List.not_mem_nil, or_false] at hcs
    rcases hcs with rfl | rfl <;> simp only [cornerSection, List.mem_cons, List.not_mem_nil, or_false] at he <;>
      rcases he with rfl | rfl | rfl | rfl <;> exact ⟨_, rfl⟩
  have hcl : ExactlyClosed [cornerSection P, cornerSection Q] := by
    have one : ∀ R : ℕ → V, ∀ i e e', (cornerSection R)[i]? = some e → (cornerSection R)[(i + 1) % (cornerSection R).length]? = some e' →
        e.call 1 = e'.call 0 := by
      intro R i e e' he he'
      have hi : i < 4 := (List.getElem?_eq_some_iff.1 he).1
      have hl : (cornerSection R).length = 4 := rfl
      rw [hl] at he'
      have e1 := getElem?_edgeOf (cs := cornerSection R) (ne := i) hi
      have e2 := getElem?_edgeOf (cs := cornerSection R) (ne := (i + 1) % 4) (Nat.mod_lt _ (by norm_num))
      rw [he] at e1
      rw [he'] at e2
      cases e1
      cases e2
      rw [section_edge R i hi, section_edge R _ (Nat.mod_lt _ (by norm_num))]
      congr 1
      ext <;> simp [lineAt]
    intro cs hcs
    simp only [List.mem_cons, List.not_mem_nil, or_false] at hcs
    rcases hcs with rfl | rfl <;> exact one _
  obtain ⟨c, hinit, hh⟩ := closed_swept_mesh [cornerSection P, cornerSection Q] (cornerSection P) (cornerSection Q) rfl rfl (by simp) hlen htot hcl
    (.int n) n n (Or.inl ⟨rfl, rfl⟩) hn hn name
  refine ⟨c, hinit, fun hp id hid => ?_⟩
  obtain ⟨h', M, c', g1, g2, g3, F0, F1, hF0, hF1, t0, t1, -, hpat, ht⟩ := hh hp id hid
  obtain ⟨n1, n2, n3, n4, n5⟩ := swept_init_new _ _ _ _ _ hinit
  obtain ⟨m1, m2, m3, m4⟩ := leaf_keeps hp h' id (by rw [hid]; exact n5) _ g1
  rw [hid, n1] at m1
  rw [hid, n2] at m2
  rw [hid, n3] at m3
  rw [hid, n4] at m4
  have hclosed : Closed M.tris := by
    rw [closed_iff_edgeSum]
    intro φ hφ
    rw [g3 _ φ hφ]
    ring
  -- the grids
  have hw : ∀ ne < 4, ∀ i ≤ n, ∀ j ≤ n, sweptGrid [cornerSection P, cornerSection Q] n ne i j =
      quadGrid n (P ne) (Q ne) (P ((ne + 1) % 4)) (Q ((ne + 1) % 4)) i j := by
    intro ne hne i hi j hj
    obtain ⟨a1, a2⟩ := unit_div n i hn hi
    obtain ⟨q, hq, hv⟩ := C30_between ([edgeOf ne (cornerSection P), edgeOf ne (cornerSection Q)]) 0 (by simp) ((i : ℝ) / n) a1 a2 ((j : ℝ) / n) _ _
      (section_edge P ne hne _) (section_edge Q ne hne _)
    unfold sweptGrid
    simp only [List.length_cons, List.length_nil, Nat.cast_zero, zero_add] at hq
    norm_num at hq
    simp only [List.map_cons, List.map_nil]
    rw [hq]
    show q = _
    apply Vec.toE_injective
    rw [hv, ← Vec.toE_mul, ← Vec.toE_mul, ← Vec.toE_add]
    congr 1
    unfold quadGrid quadPt lineAt
    ext <;> simp <;> ring
  have coons : ∀ (n e s w : PathObj) (F : Surf), CoonsPatch n e s w = .ok F → ∀ c00 c10 c01 c11 : V, (∀ t, s.call t = .ok (lineAt c00 c10 t)) →
      (∀ t, n.call t = .ok (lineAt c01 c11 t)) → (∀ t, w.call t = .ok (lineAt c00 c01 t)) → (∀ t, e.call t = .ok (lineAt c10 c11 t)) →
      ∀ (r t : ℝ) (q : V), F r t = .ok q → q = quadPt c00 c10 c01 c11 r t := by
    intro n e s w F hF c00 c10 c01 c11 hs hn hw he r t q hq
    have hx := coons_straight n e s w F hF c00 c10 c01 c11 hs hn hw he 1 0 0 0 r t q hq
    have hy := coons_straight n e s w F hF c00 c10 c01 c11 hs hn hw he 0 1 0 0 r t q hq
    have hz := coons_straight n e s w F hF c00 c10 c01 c11 hs hn hw he 0 0 1 0 r t q hq
    simp only [aff, zero_mul, one_mul, add_zero, zero_add] at hx hy hz
    unfold quadPt
    ext
    · simp [hx]; ring
    · simp [hy]; ring
    · simp [hz]; ring
  have hf0 : ∀ i ≤ n, ∀ j ≤ n, okv (F0 ((i : ℝ) / n) ((j : ℝ) / n)) = quadGrid n (P 0) (P 1) (P 3) (P 2) i j := by
    intro i hi j hj
    have hF : CoonsPatch (ReversedPath (Line (P 2) (P 3))) (Line (P 1) (P 2)) (Line (P 0) (P 1)) (ReversedPath (Line (P 3) (P 0))) = .ok F0 := hF0
    exact coons _ _ _ _ _ hF (P 0) (P 1) (P 3) (P 2) (fun t => rfl) (reversed_line _ _) (reversed_line _ _) (fun t => rfl) _ _ _ (okv_eq (t0 i hi j hj))
  have hf1 : ∀ i ≤ n, ∀ j ≤ n, okv (F1 ((i : ℝ) / n) ((j : ℝ) / n)) = quadGrid n (Q 1) (Q 0) (Q 2) (Q 3) i j := by
    intro i hi j hj
    have hF : CoonsPatch (Line (Q 2) (Q 3)) (ReversedPath (Line (Q 3) (Q 0))) (ReversedPath (Line (Q 0) (Q 1))) (Line (Q 1) (Q 2)) = .ok F1 := hF1
    exact coons _ _ _ _ _ hF (Q 1) (Q 0) (Q 2) (Q 3) (reversed_line _ _) (fun t => rfl) (fun t => rfl) (reversed_line _ _) _ _ _ (okv_eq (t1 i hi j hj))
  refine ⟨h', M, c', g1, g2, hclosed, m1, m2, m3, m4, ?_, ?_⟩
  · have hnames : ((List.range 4).map fun ne => "swept_patch_" ++ toString ne) =
        ["swept_patch_0", "swept_patch_1", "swept_patch_2", "swept_patch_3"] := by decide
    rw [hpat]
    simp only [List.map_append, List.map_map, Function.comp_def, hnames]
    simp
  · rw [ht]
    have r4 : List.range 4 = [0, 1, 2, 3] := rfl
    simp only [r4, List.map_cons, List.map_nil, List.cons_append, List.nil_append]
    rw [gridMesh_congr _ (hw 0 (by norm_num)), gridMesh_congr _ (hw 1 (by norm_num)), gridMesh_congr _ (hw 2 (by norm_num)),
      gridMesh_congr _ (hw 3 (by norm_num)), gridMesh_congr _ hf0, gridMesh_congr _ hf1]

/-- C160: a body swept between two quadrilaterals with straight edges passes the check, with and without the area test and at every
resolution, if it is convex with plane faces. -/
theorem C160_hexahedron_partial (P Q : ℕ → V) (hPQ : ConvexHexahedron P Q) (n : ℕ) (hn : 1 ≤ n) (name : Option String) :
    ∃ c, Swept.init [cornerSection P, cornerSection Q] true (.int n) name = .ok c ∧ ∀ (hp : Heap) (id : ℕ), hp id = c →
    ∃ h' M c', generatePatches hp id = (.ok (), h') ∧ (h' id).mesh = (.ok M, c') ∧ Watertight M.tris ∧
      ∀ (eps : ℝ) (pa : Bool), 0 ≤ eps → stlCheck eps M pa true = .ok true := by
  obtain ⟨c, hinit, hh⟩ := hexahedron_mesh P Q n hn name
  refine ⟨c, hinit, fun hp id hid => ?_⟩
  obtain ⟨h', M, c', g1, g2, hclosed, hm, -, -, -, -, ht⟩ := hh hp id hid
  have hof := mesh_ofTris _ hm M c' g2
  obtain ⟨τ, ⟨N0, T0, o0⟩, ⟨N1, T1, o1⟩, ⟨N2, T2, o2⟩, ⟨N3, T3, o3⟩, ⟨N4, T4, o4⟩, ⟨N5, T5, o5⟩⟩ := hPQ
  set fs : List NFace := [⟨N0, P 0, Q 0, P 1, Q 1⟩, ⟨N1, P 1, Q 1, P 2, Q 2⟩, ⟨N2, P 2, Q 2, P 3, Q 3⟩, ⟨N3, P 3, Q 3, P 0, Q 0⟩,
    ⟨N4, P 0, P 1, P 3, P 2⟩, ⟨N5, Q 1, Q 0, Q 2, Q 3⟩] with hfs
  have htris : M.tris = (fs.map (NFace.mesh n)).flatten := ht
  have nz : ∀ (N A x : V), 0 < N.dot (x - A) → N ≠ ⟨0, 0, 0⟩ := by
    rintro N A x h rfl
    simp [Vec.dot] at h
  simp only [List.mem_cons, List.not_mem_nil, or_false, forall_eq_or_imp, forall_eq] at o0 o1 o2 o3 o4 o5
  have k0 : NFace.Turns τ ⟨N0, P 0, Q 0, P 1, Q 1⟩ := ⟨nz _ _ _ o0.1, T0⟩
  have k1 : NFace.Turns τ ⟨N1, P 1, Q 1, P 2, Q 2⟩ := ⟨nz _ _ _ o1.1, T1⟩
  have k2 : NFace.Turns τ ⟨N2, P 2, Q 2, P 3, Q 3⟩ := ⟨nz _ _ _ o2.1, T2⟩
  have k3 : NFace.Turns τ ⟨N3, P 3, Q 3, P 0, Q 0⟩ := ⟨nz _ _ _ o3.1, T3⟩
  have k4 : NFace.Turns τ ⟨N4, P 0, P 1, P 3, P 2⟩ := ⟨nz _ _ _ o4.1, T4⟩
  have k5 : NFace.Turns τ ⟨N5, Q 1, Q 0, Q 2, Q 3⟩ := ⟨nz _ _ _ o5.1, T5⟩
  have p0 := turns_plane k0
  have p1 := turns_plane k1
  have p2 := turns_plane k2
  have p3 := turns_plane k3
  have p4 := turns_plane k4
  have p5 := turns_plane k5
  simp only [NFace.corners, List.mem_cons, List.not_mem_nil, or_false, forall_eq_or_imp, forall_eq] at p0 p1 p2 p3 p4 p5
  have hT : ∀ f ∈ fs, f.Turns τ := by
    intro f hf
    simp only [hfs, List.mem_cons, List.not_mem_nil, or_false] at hf
    rcases hf with rfl | rfl | rfl | rfl | rfl | rfl <;> assumption
  have hA : fs.Pairwise NFace.Apart := by
    simp only [hfs, List.pairwise_cons, List.mem_cons, List.not_mem_nil, or_false, forall_eq_or_imp, forall_eq, NFace.Apart, NFace.corners,
      exists_eq_or_imp, exists_eq_left, List.Pairwise.nil, and_true, false_imp_iff, implies_true]
    simp only [o0, o1, o2, o3, o4, o5, p0, p1, p2, p3, p4, p5, le_refl, lt_irrefl, le_of_lt, and_true, or_true, or_false]
  have hwt : Watertight M.tris := by
    obtain ⟨e1, e2⟩ := convex_edges n hn fs hT hA
    rw [← htris] at e1 e2
    exact watertight_of_closed _ e1 e2 hclosed
  refine ⟨h', M, c', g1, g2, hwt, fun eps pa heps => ?_⟩
  rw [hof]
  obtain ⟨b, hb, hbi⟩ := verdict eps heps M.tris pa
  rw [hb]
  congr 1
  exact hbi.2 hwt

/-- The corners of the section turn in one direction. -/
def Spec.StrictlyConvex (σ : ℝ) (cx cy : ℕ → ℝ) : Prop := ∀ k < 4,
  0 < σ * ((cx ((k + 1) % 4) - cx k) * (cy ((k + 3) % 4) - cy k) - (cy ((k + 1) % 4) - cy k) * (cx ((k + 3) % 4) - cx k))

theorem convex_prism (σ : ℝ) (cx cy : ℕ → ℝ) (z0 z1 : ℝ) (hz : z0 ≠ z1) (h : StrictlyConvex σ cx cy) :
    ConvexHexahedron (fun k => ⟨cx k, cy k, z0⟩) (fun k => ⟨cx k, cy k, z1⟩) := by
  have q0 := h 0 (by norm_num)
  have q1 := h 1 (by norm_num)
  have q2 := h 2 (by norm_num)
  have q3 := h 3 (by norm_num)
  norm_num at q0 q1 q2 q3
  have hσ : σ ≠ 0 := by rintro rfl; simp at q0
  have hd : z1 - z0 ≠ 0 := sub_ne_zero.2 hz.symm
  have hd2 : 0 < (z1 - z0) * (z1 - z0) := mul_self_pos.2 hd
  have wall : ∀ xa ya xb yb xc yc xd yd : ℝ, 0 < σ * ((xb - xa) * (yd - ya) - (yb - ya) * (xd - xa)) →
      0 < σ * ((xb - xa) * (yc - ya) - (yb - ya) * (xc - xa)) →
      FaceOf (σ * (z1 - z0)) ⟨xa, ya, z0⟩ ⟨xa, ya, z1⟩ ⟨xb, yb, z0⟩ ⟨xb, yb, z1⟩ [⟨xc, yc, z0⟩, ⟨xd, yd, z0⟩, ⟨xc, yc, z1⟩, ⟨xd, yd, z1⟩] := by
    intro xa ya xb yb xc yc xd yd h1 h2
    have hp : 0 < σ * (z1 - z0) * ((z1 - z0) / σ) := by
      have : σ * (z1 - z0) * ((z1 - z0) / σ) = (z1 - z0) * (z1 - z0) := by field_simp
      rw [this]; exact hd2
    refine ⟨⟨-σ * (yb - ya), σ * (xb - xa), 0⟩, ⟨(z1 - z0) / σ, (z1 - z0) / σ, (z1 - z0) / σ, (z1 - z0) / σ, hp, hp, hp, hp, ?_, ?_, ?_, ?_⟩, ?_⟩
    · ext <;> simp [Vec.cross] <;> field_simp
    · ext <;> simp [Vec.cross] <;> field_simp
    · ext <;> simp [Vec.cross] <;> field_simp
    · ext <;> simp [Vec.cross] <;> field_simp
    · intro x hx
      simp only [List.mem_cons, List.not_mem_nil, or_false] at hx
      rcases hx with rfl | rfl | rfl | rfl <;> simp only [Vec.dot, Vec.sub_x, Vec.sub_y, Vec.sub_z] <;> linarith
  have cap : ∀ o : ℝ, 0 < σ * o → 0 < σ * (z1 - z0) * (o / (z1 - z0)) := by
    intro o ho
    have : σ * (z1 - z0) * (o / (z1 - z0)) = σ * o := by field_simp
    rw [this]; exact ho
  refine ⟨σ * (z1 - z0), wall _ _ _ _ _ _ _ _ (by linarith) (by linarith), wall _ _ _ _ _ _ _ _ (by linarith) (by linarith),
    wall _ _ _ _ _ _ _ _ (by linarith) (by linarith), wall _ _ _ _ _ _ _ _ (by linarith) (by linarith), ?_, ?_⟩
  · refine ⟨⟨0, 0, z1 - z0⟩, ⟨_, _, _, _, cap _ q0, cap _ q1, cap _ q3, cap _ q2, ?_, ?_, ?_, ?_⟩, ?_⟩
    · ext <;> simp [Vec.cross]; field_simp
    · ext <;> simp [Vec.cross]; field_simp; ring
    · ext <;> simp [Vec.cross]; field_simp; ring
    · ext <;> simp [Vec.cross]; field_simp; ring
    · intro x hx
      simp only [List.mem_cons, List.not_mem_nil, or_false] at hx
      rcases hx with rfl | rfl | rfl | rfl <;> simp only [Vec.dot, Vec.sub_x, Vec.sub_y, Vec.sub_z] <;> linarith
  · refine ⟨⟨0, 0, -(z1 - z0)⟩, ⟨_, _, _, _, cap _ q1, cap _ q0, cap _ q2, cap _ q3, ?_, ?_, ?_, ?_⟩, ?_⟩
    · ext <;> simp [Vec.cross]; field_simp; ring
    · ext <;> simp [Vec.cross]; field_simp; ring
    · ext <;> simp [Vec.cross]; field_simp; ring
    · ext <;> simp [Vec.cross]; field_simp; ring
    · intro x hx
      simp only [List.mem_cons, List.not_mem_nil, or_false] at hx
      rcases hx with rfl | rfl | rfl | rfl <;> simp only [Vec.dot, Vec.sub_x, Vec.sub_y, Vec.sub_z] <;> linarith

/-- C160: in particular an extrusion of a convex quadrilateral passes. -/
theorem C160_prism_partial (σ : ℝ) (cx cy : ℕ → ℝ) (z0 z1 : ℝ) (hz : z0 ≠ z1) (h : StrictlyConvex σ cx cy) (n : ℕ) (hn : 1 ≤ n)
    (name : Option String) :
    ∃ c, Swept.init ([z0, z1].map (quadSection cx cy)) true (.int n) name = .ok c ∧ ∀ (hp : Heap) (id : ℕ), hp id = c →
    ∃ h' M c', generatePatches hp id = (.ok (), h') ∧ (h' id).mesh = (.ok M, c') ∧ Watertight M.tris ∧
      ∀ (eps : ℝ) (pa : Bool), 0 ≤ eps → stlCheck eps M pa true = .ok true :=
  C160_hexahedron_partial _ _ (convex_prism σ cx cy z0 z1 hz h) n hn name

/-! ## Bodies of revolution -/

/-- C160 fails for every body of revolution closed on the axis: at every resolution its mesh is closed, but the check rejects it
because of the degenerate triangles at its tips. -/
theorem C160_revolved_violated (line : PathObj) (f : ℝ → V) (hl : ∀ t, 0 ≤ t → t ≤ 1 → line.call t = .ok (f t))
    (h0 : OnXAxis (f 0)) (h1 : OnXAxis (f 1)) (n : ℕ) (hn : 1 ≤ n) (name : Option String) (h : Heap) (id : ℕ)
    (hid : h id = RevolvedComponent line n name) :
    ∃ h' M c', generatePatches h id = (.ok (), h') ∧ (h' id).mesh = (.ok M, c') ∧ Closed M.tris ∧
      ∀ (eps : ℝ) (pa : Bool), 0 ≤ eps → stlCheck eps M pa true = .ok false := by
  obtain ⟨h', M, c', g1, g2, g3⟩ := C60_watertight line f hl h0 h1 n hn name h id hid
  obtain ⟨h2, M2, c2, k1, k2, t, ht, -, e⟩ := C149_revolved_violated line f hl (.inl h0) n hn name h id hid
  rw [g1] at k1
  cases k1
  rw [g2] at k2
  cases k2
  refine ⟨h', M, c', g1, g2, g3, fun eps pa heps => ?_⟩
  have hm := (leaf_keeps h h' id (by rw [hid]; intro l; simp [RevolvedComponent]) _ g1).1
  rw [hid] at hm
  rw [mesh_ofTris _ hm M c' g2]
  obtain ⟨b, hb, hbi⟩ := verdict eps heps M.tris pa
  rw [hb]
  congr 1
  cases b with
  | false => rfl
  | true =>
    exfalso
    exact ((hbi.1 rfl).2 (t.v0, t.v1) (List.mem_flatMap.2 ⟨t, ht, by simp [triEdges]⟩)).1 e

/-! ## The parametric wedge -/

theorem wedge_convex (c t : ℝ) (hc : 0 < c) (ht : 0 < t) : StrictlyConvex 1 (wedgeX c) (wedgeY t) := by
  have h : 0 < c * t := mul_pos hc ht
  intro k hk
  interval_cases k <;> simp [wedgeX, wedgeY] <;> nlinarith

/-- C160: the body of the parametric wedge passes the check, at every resolution and whatever its size. -/
theorem C160_wedge_partial (w c t : ℝ) (hw : 0 < w) (hc : 0 < c) (ht : 0 < t) (n : ℕ) (hn : 1 ≤ n) (name : Option String) :
    ∃ k, Swept.init (Wedge.sections w c t) true (.int n) name = .ok k ∧ ∀ (hp : Heap) (id : ℕ), hp id = k →
    ∃ h' M c', generatePatches hp id = (.ok (), h') ∧ (h' id).mesh = (.ok M, c') ∧ Watertight M.tris ∧
      ∀ (eps : ℝ) (pa : Bool), 0 ≤ eps → stlCheck eps M pa true = .ok true := by
  rw [wedge_sections]
  exact C160_prism_partial 1 _ _ _ _ (by linarith) (wedge_convex c t hc ht) n hn name

/-- A frustum of a pyramid meets the hypotheses of `C160_hexahedron_partial`. -/
example : ConvexHexahedron (fun k => ⟨[2, -2, -2, 2].getD k 0, [2, 2, -2, -2].getD k 0, 0⟩)
    (fun k => ⟨[1, -1, -1, 1].getD k 0, [1, 1, -1, -1].getD k 0, 3⟩) := by
  refine ⟨1, ⟨⟨0, -3, -1⟩, ⟨4, 2, 4, 2, ?_⟩, ?_⟩, ⟨⟨3, 0, -1⟩, ⟨4, 2, 4, 2, ?_⟩, ?_⟩, ⟨⟨0, 3, -1⟩, ⟨4, 2, 4, 2, ?_⟩, ?_⟩, ⟨⟨-3, 0, -1⟩, ⟨4, 2, 4, 2, ?_⟩, ?_⟩,
    ⟨⟨0, 0, 1⟩, ⟨16, 16, 16, 16, ?_⟩, ?_⟩, ⟨⟨0, 0, -1⟩, ⟨4, 4, 4, 4, ?_⟩, ?_⟩⟩ <;>
    norm_num [Vec.cross, Vec.dot, Vec.ext_iff] <;> (rintro x (⟨a, b, c⟩ | ⟨a, b, c⟩ | ⟨a, b, c⟩ | ⟨a, b, c⟩) <;> linarith)

/-- A square section meets those of `C160_prism_partial`, in both directions. -/
example : StrictlyConvex 1 (fun k => [1, 0, 0, 1].getD k 0) (fun k => [1, 1, 0, 0].getD k 0) ∧
    StrictlyConvex (-1) (fun k => [0, 1, 1, 0].getD k 0) (fun k => [1, 1, 0, 0].getD k 0) := by
  constructor <;> intro k hk <;> interval_cases k <;> norm_num

/-- A spindle meets the hypotheses of `C160_revolved_violated`. -/
example (line : PathObj) (hl : ∀ t, 0 ≤ t → t ≤ 1 → line.call t = .ok ⟨t, t * (1 - t), 0⟩) :
    ∃ h' M c', generatePatches (fun _ => RevolvedComponent line 3 none) 0 = (.ok (), h') ∧ (h' 0).mesh = (.ok M, c') ∧ Closed M.tris ∧
      ∀ (eps : ℝ) (pa : Bool), 0 ≤ eps → stlCheck eps M pa true = .ok false :=
  C160_revolved_violated line (fun t => ⟨t, t * (1 - t), 0⟩) hl ⟨by simp, rfl⟩ ⟨by simp, rfl⟩ 3 (by norm_num) none _ 0 rfl

end HV
