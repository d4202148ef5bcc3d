import Verif.Props.Mesh
import Verif.Lemmas.Vec

/-!
# C44–C46: `stl_check`
-/

namespace HV

open Spec

/-! ## C44 -/

/-- Specification: the triangles as `stl_check` is to understand them, i.e. with the orientation given by the stored
normals. -/
noncomputable def Spec.oriented (tris : TriMesh ℝ) (normals : List V) : TriMesh ℝ :=
  open Classical in
  List.zipWith (fun t n => if t.normal.dot n < 0 then ⟨t.v0, t.v2, t.v1⟩ else t) tris normals

/-- Specification: all directed edges are distinct, none is degenerate, and with each its reverse is present. -/
def Spec.Watertight (m : TriMesh ℝ) : Prop :=
  (edges m).Nodup ∧ ∀ e ∈ edges m, e.1 ≠ e.2 ∧ (e.2, e.1) ∈ edges m

theorem edges_length {β : Type} (m : TriMesh β) : (edges m).length = 3 * m.length := by
  induction m with
  | nil => rfl
  | cons t m ih =>
    have : edges (t :: m) = triEdges t ++ edges m := rfl
    rw [this, List.length_append, ih]
    simp [triEdges]
    omega

theorem directedEdgeList_perm (tris : TriMesh ℝ) (normals : List V) (h : normals.length = tris.length) :
    (directedEdgeList (reversedTris ⟨tris, normals⟩) tris).Perm (edges (oriented tris normals)) := by
  classical
  induction tris generalizing normals with
  | nil => simp [directedEdgeList, edges, oriented]
  | cons t tris ih =>
    obtain ⟨n, normals, rfl⟩ : ∃ n ns, normals = n :: ns := by
      cases normals with
      | nil => simp at h
      | cons n ns => exact ⟨n, ns, rfl⟩
    have ih := ih normals (by simpa using h)
    simp only [directedEdgeList, reversedTris, oriented, List.zipWith_cons_cons] at ih ⊢
    have e : edges ((if t.normal.dot n < 0 then ⟨t.v0, t.v2, t.v1⟩ else t) ::
        List.zipWith (fun t n => if t.normal.dot n < 0 then ⟨t.v0, t.v2, t.v1⟩ else t) tris normals) =
        triEdges (if t.normal.dot n < 0 then ⟨t.v0, t.v2, t.v1⟩ else t) ++ edges
        (List.zipWith (fun t n => if t.normal.dot n < 0 then ⟨t.v0, t.v2, t.v1⟩ else t) tris normals) := rfl
    rw [e]
    generalize edges (List.zipWith (fun t n => if t.normal.dot n < 0 then ⟨t.v0, t.v2, t.v1⟩ else t) tris normals) = R at *
    generalize List.zipWith (fun r t => if r = true then (t.v1, t.v0) else (t.v0, t.v1))
      (List.zipWith (fun t n => decide (t.normal.dot n < 0)) tris normals) tris = A at *
    generalize List.zipWith (fun r t => if r = true then (t.v2, t.v1) else (t.v1, t.v2))
      (List.zipWith (fun t n => decide (t.normal.dot n < 0)) tris normals) tris = B at *
    generalize List.zipWith (fun r t => if r = true then (t.v0, t.v2) else (t.v2, t.v0))
      (List.zipWith (fun t n => decide (t.normal.dot n < 0)) tris normals) tris = C at *
    rw [List.perm_iff_count] at ih ⊢
    intro a
    have := ih a
    by_cases hn : t.normal.dot n < 0 <;>
      simp only [hn, decide_true, decide_false, if_true, if_false, triEdges, List.cons_append, List.count_append,
        List.count_cons, List.nil_append, Bool.false_eq_true] at this ⊢ <;> omega

theorem pair_card (D : Finset (V × V)) :
    D.card = 2 * (undirectedEdges D).card ↔ ∀ e ∈ D, e.1 ≠ e.2 ∧ (e.2, e.1) ∈ D := by
  classical
  have hU : undirectedEdges D = D.image fun e => ({e.1, e.2} : Finset V) := by
    unfold undirectedEdges; congr!
  rw [hU]
  set f : V × V → Finset V := fun e => {e.1, e.2} with hf
  have hfib : ∀ e e' : V × V, f e' = f e → e' = e ∨ e' = (e.2, e.1) := by
    rintro ⟨a, b⟩ ⟨c, d⟩ h
    simp only [hf] at h
    have h1 : c ∈ ({a, b} : Finset V) := by rw [← h]; simp
    have h2 : d ∈ ({a, b} : Finset V) := by rw [← h]; simp
    have h3 : a ∈ ({c, d} : Finset V) := by rw [h]; simp
    have h4 : b ∈ ({c, d} : Finset V) := by rw [h]; simp
    simp only [Finset.mem_insert, Finset.mem_singleton, Prod.mk.injEq] at h1 h2 h3 h4 ⊢
    rcases h1 with rfl | rfl <;> rcases h2 with rfl | rfl <;> simp_all
  have hsum : D.card = ∑ u ∈ D.image f, (D.filter fun e => f e = u).card :=
    Finset.card_eq_sum_card_image f D
  have hsub : ∀ e, (D.filter fun e' => f e' = f e) ⊆ {e, (e.2, e.1)} := by
    intro e e' he'
    rw [Finset.mem_filter] at he'
    rcases hfib e e' he'.2 with h | h <;> simp [h]
  have hle : ∀ u ∈ D.image f, (D.filter fun e => f e = u).card ≤ 2 := by
    intro u hu
    obtain ⟨e, he, rfl⟩ := Finset.mem_image.1 hu
    exact (Finset.card_le_card (hsub e)).trans Finset.card_le_two
  have h2 : 2 * (D.image f).card = ∑ u ∈ D.image f, 2 := by simp [mul_comm]
  rw [hsum, h2, Finset.sum_eq_sum_iff_of_le hle]
  constructor
  · intro h e he
    have hc := h (f e) (Finset.mem_image_of_mem f he)
    by_cases hee : e.1 = e.2
    · exfalso
      have : (D.filter fun e' => f e' = f e) ⊆ {e} := by
        intro e' he'
        have := hsub e he'
        obtain ⟨a, b⟩ := e
        simp only at hee
        subst hee
        simpa using this
      have := Finset.card_le_card this
      rw [hc] at this
      simp at this
    · refine ⟨hee, ?_⟩
      by_contra hno
      have : (D.filter fun e' => f e' = f e) ⊆ {e} := by
        intro e' he'
        have h1 := hsub e he'
        have h2 := (Finset.mem_filter.1 he').1
        simp only [Finset.mem_insert, Finset.mem_singleton] at h1 ⊢
        rcases h1 with h1 | h1
        · exact h1
        · exact absurd (h1 ▸ h2) hno
      have := Finset.card_le_card this
      rw [hc] at this
      simp at this
  · intro h u hu
    obtain ⟨e, he, rfl⟩ := Finset.mem_image.1 hu
    obtain ⟨hne, hr⟩ := h e he
    have : (D.filter fun e' => f e' = f e) = {e, (e.2, e.1)} := by
      apply Finset.Subset.antisymm (hsub e)
      intro e' he'
      simp only [Finset.mem_insert, Finset.mem_singleton] at he'
      rw [Finset.mem_filter]
      rcases he' with rfl | rfl
      · exact ⟨he, rfl⟩
      · exact ⟨hr, by simp [hf, Finset.pair_comm]⟩
    rw [this, Finset.card_pair]
    intro hc
    exact hne (congrArg Prod.fst hc)

theorem stlCheck_matching (eps : ℝ) (tris : TriMesh ℝ) (normals : List V) (h : normals.length = tris.length)
    (pa : Bool) : ∃ b, stlCheck eps ⟨tris, normals⟩ pa true = .ok b ∧
      (b = true ↔ (pa = true → areaTest eps ⟨tris, normals⟩ = true) ∧ Watertight (oriented tris normals)) := by
  classical
  have hperm := directedEdgeList_perm tris normals h
  have hlen : (oriented tris normals).length = tris.length := by simp [oriented, h]
  set L := directedEdgeList (reversedTris ⟨tris, normals⟩) tris with hL
  have hD : directedEdges ⟨tris, normals⟩ = L.toFinset := by unfold directedEdges; congr!
  have hmem : ∀ e, e ∈ directedEdges ⟨tris, normals⟩ ↔ e ∈ edges (oriented tris normals) := by
    intro e; rw [hD, List.mem_toFinset, hperm.mem_iff]
  have hcard : (directedEdges ⟨tris, normals⟩).card = 3 * tris.length ↔ (edges (oriented tris normals)).Nodup := by
    have hl : L.length = 3 * tris.length := by rw [hperm.length_eq, edges_length, hlen]
    rw [hD, ← hperm.nodup_iff, ← hl]
    constructor
    · intro hc
      exact List.dedup_eq_self.1 ((List.dedup_sublist L).eq_of_length (by rw [← hc, List.card_toFinset]))
    · intro hn; exact List.toFinset_card_of_nodup hn
  have hpair := pair_card (directedEdges ⟨tris, normals⟩)
  have hpair' : (directedEdges ⟨tris, normals⟩).card = 2 * (undirectedEdges (directedEdges ⟨tris, normals⟩)).card ↔
      ∀ e ∈ edges (oriented tris normals), e.1 ≠ e.2 ∧ (e.2, e.1) ∈ edges (oriented tris normals) := by
    rw [hpair]; simp only [hmem]
  unfold stlCheck Watertight
  simp only [if_true, pure_bind]
  by_cases hp : (directedEdges ⟨tris, normals⟩).card = 2 * (undirectedEdges (directedEdges ⟨tris, normals⟩)).card
  · simp only [hp, decide_true, if_true]
    refine ⟨_, rfl, ?_⟩
    rw [← hpair', ← hcard]
    simp only [hp]
    cases pa <;> simp
  · simp only [hp, decide_false, Bool.false_eq_true, if_false]
    refine ⟨_, rfl, ?_⟩
    rw [← hpair']
    simp [hp]

theorem oriented_fresh (m : TriMesh ℝ) : oriented m (m.map Tri.normal) = m := by
  unfold oriented
  induction m with
  | nil => rfl
  | cons t m ih =>
    rw [List.map_cons, List.zipWith_cons_cons, ih]
    have : ¬ t.normal.dot t.normal < 0 := by
      simp only [Vec.dot, not_lt]
      nlinarith [mul_self_nonneg t.normal.x, mul_self_nonneg t.normal.y, mul_self_nonneg t.normal.z]
    rw [if_neg this]

/-- C44: on a mesh as built by `Component.mesh` the matching-lines check gives a verdict, and it is positive exactly for
watertight, consistently oriented meshes. -/
theorem C44_matching_lines (eps : ℝ) (m : TriMesh ℝ) :
    ∃ b, stlCheck eps (StlMesh.ofTris m) false true = .ok b ∧
      (b = true ↔ (edges m).Nodup ∧ ∀ e ∈ edges m, e.1 ≠ e.2 ∧ (e.2, e.1) ∈ edges m) := by
  obtain ⟨b, hb, h⟩ := stlCheck_matching eps m (m.map Tri.normal) (by simp) false
  refine ⟨b, hb, ?_⟩
  rw [h, oriented_fresh]
  simp [Watertight]

/-- C44 with stored normals that may disagree with the triangles (e.g. after `stl_repair`): the verdict is that of
the triangles oriented by the stored normals. -/
theorem C44_stored_normals (eps : ℝ) (tris : TriMesh ℝ) (normals : List V) (h : normals.length = tris.length) :
    ∃ b, stlCheck eps ⟨tris, normals⟩ false true = .ok b ∧ (b = true ↔ Watertight (oriented tris normals)) := by
  obtain ⟨b, hb, h⟩ := stlCheck_matching eps tris normals h false
  exact ⟨b, hb, by rw [h]; simp⟩

/-- C44: a watertight mesh is closed in the sense that every directed edge occurs as often as its reverse. -/
theorem C44_closed (m : TriMesh ℝ) (h : Watertight m) : Closed m := by
  intro a b
  by_cases h1 : (a, b) ∈ edges m
  · have h2 := (h.2 _ h1).2
    rw [edgeCount_eq_one h.1 h1, edgeCount_eq_one h.1 h2]
  · have h2 : (b, a) ∉ edges m := fun h2 => h1 (h.2 _ h2).2
    rw [edgeCount_eq_zero h1, edgeCount_eq_zero h2]

/-- Witness: a tetrahedron passes. -/
example (eps : ℝ) : stlCheck eps (StlMesh.ofTris (tetra ⟨0, 0, 0⟩ ⟨1, 0, 0⟩ ⟨0, 1, 0⟩ ⟨0, 0, 1⟩)) false true = .ok true := by
  obtain ⟨b, hb, h⟩ := C44_matching_lines eps (tetra ⟨0, 0, 0⟩ ⟨1, 0, 0⟩ ⟨0, 1, 0⟩ ⟨0, 0, 1⟩)
  rw [hb, h.2]
  simp [edges, tetra, triEdges]

/-- Witness: a single triangle fails. -/
example (eps : ℝ) : stlCheck eps (StlMesh.ofTris [⟨⟨0, 0, 0⟩, ⟨1, 0, 0⟩, ⟨0, 1, 0⟩⟩]) false true = .ok false := by
  obtain ⟨b, hb, h⟩ := C44_matching_lines eps [⟨⟨0, 0, 0⟩, ⟨1, 0, 0⟩, ⟨0, 1, 0⟩⟩]
  have : b = false := by
    cases b
    · rfl
    · have := (h.1 rfl).2
      simp [edges, triEdges] at this
  rw [hb, this]

/-! ## C45 -/

theorem vecSum_eq (l : List V) : vecSum l = ⟨(l.map Vec.x).sum, (l.map Vec.y).sum, (l.map Vec.z).sum⟩ := by
  unfold vecSum
  have : ∀ a : V, l.foldl (· + ·) a = ⟨a.x + (l.map Vec.x).sum, a.y + (l.map Vec.y).sum, a.z + (l.map Vec.z).sum⟩ := by
    induction l with
    | nil => intro a; simp
    | cons b l ih => intro a; rw [List.foldl_cons, ih]; ext <;> simp <;> ring
  rw [this]
  ext <;> simp

theorem areaTest_of_zero (eps : ℝ) (heps : 0 ≤ eps) (m : StlMesh) (h : vecSum m.normals = ⟨0, 0, 0⟩) :
    areaTest eps m = true := by
  have hnn : ∀ f : V → ℝ, 0 ≤ ((m.normals.map fun n => |f n|)).sum := by
    intro f
    apply List.sum_nonneg
    intro x hx
    obtain ⟨n, _, rfl⟩ := List.mem_map.1 hx
    exact abs_nonneg _
  have e1 := hnn Vec.x
  have e2 := hnn Vec.y
  have e3 := hnn Vec.z
  unfold areaTest
  simp only [h, abs_zero]
  have : vecSum (m.normals.map fun n => (⟨|n.x|, |n.y|, |n.z|⟩ : V)) =
      ⟨(m.normals.map fun n => |n.x|).sum, (m.normals.map fun n => |n.y|).sum, (m.normals.map fun n => |n.z|).sum⟩ := by
    rw [vecSum_eq]; simp only [List.map_map]; rfl
  rw [this]
  simp only [Bool.and_eq_true, decide_eq_true_eq]
  refine ⟨⟨?_, ?_⟩, ?_⟩ <;> simp <;> positivity

/-- C45: the stored normals of a closed mesh sum to zero, so the projected area test passes for every tolerance. -/
theorem C45_area (eps : ℝ) (heps : 0 ≤ eps) (m : TriMesh ℝ) (h : Closed m) :
    vecSum (StlMesh.ofTris m).normals = ⟨0, 0, 0⟩ ∧ areaTest eps (StlMesh.ofTris m) = true := by
  have hsum : ∀ k : Fin 3, vectorArea2 m k = (m.map fun t => triArea2 t k).sum := by
    intro k
    unfold vectorArea2
    induction m with
    | nil => rfl
    | cons t m ih' =>
      clear h
      have : ∀ m : TriMesh ℝ, (m.map triArea2).sum k = (m.map fun t => triArea2 t k).sum := by
        intro m
        induction m with
        | nil => rfl
        | cons t m ih => rw [List.map_cons, List.sum_cons, Pi.add_apply, ih]; simp
      exact this _
  have h0 := vectorArea2_closed m h
  have hv : vecSum (StlMesh.ofTris m).normals = ⟨0, 0, 0⟩ := by
    rw [vecSum_eq]
    have e0 : (((StlMesh.ofTris m).normals.map Vec.x)).sum = vectorArea2 m 0 := by
      rw [hsum]; simp only [StlMesh.ofTris, List.map_map]
      congr 1; apply List.map_congr_left; intro t _; simp [Tri.normal, triArea2, Vec.cross]; ring
    have e1 : (((StlMesh.ofTris m).normals.map Vec.y)).sum = vectorArea2 m 1 := by
      rw [hsum]; simp only [StlMesh.ofTris, List.map_map]
      congr 1; apply List.map_congr_left; intro t _; simp [Tri.normal, triArea2, Vec.cross]; ring
    have e2 : (((StlMesh.ofTris m).normals.map Vec.z)).sum = vectorArea2 m 2 := by
      rw [hsum]; simp only [StlMesh.ofTris, List.map_map]
      congr 1; apply List.map_congr_left; intro t _; simp [Tri.normal, triArea2, Vec.cross]; ring
    rw [e0, e1, e2, h0]; simp
  exact ⟨hv, areaTest_of_zero eps heps _ hv⟩

/-- C45: hence for fresh meshes the full check has the same verdict as the edge test alone. -/
theorem C45_full_check (eps : ℝ) (heps : 0 ≤ eps) (m : TriMesh ℝ) :
    stlCheck eps (StlMesh.ofTris m) true true = stlCheck eps (StlMesh.ofTris m) false true := by
  obtain ⟨b, hb, h⟩ := stlCheck_matching eps m (m.map Tri.normal) (by simp) true
  obtain ⟨b', hb', h'⟩ := stlCheck_matching eps m (m.map Tri.normal) (by simp) false
  have e : b = true ↔ b' = true := by
    rw [h, h', oriented_fresh]
    constructor
    · rintro ⟨_, hw⟩; exact ⟨by simp, hw⟩
    · rintro ⟨_, hw⟩; exact ⟨fun _ => (C45_area eps heps m (C44_closed m hw)).2, hw⟩
  unfold StlMesh.ofTris
  rw [hb, hb']
  congr 1
  exact Bool.eq_iff_iff.2 e

/-- C45: the projected area test compares, for each of the three coordinate directions, the sum of the stored normals with the sum
of their absolute values times the tolerance. -/
theorem C45_area_test (eps : ℝ) (m : StlMesh) : areaTest eps m = true ↔
    |(m.normals.map Vec.x).sum| ≤ (m.normals.map fun n => |n.x|).sum * eps ∧
    |(m.normals.map Vec.y).sum| ≤ (m.normals.map fun n => |n.y|).sum * eps ∧
    |(m.normals.map Vec.z).sum| ≤ (m.normals.map fun n => |n.z|).sum * eps := by
  unfold areaTest
  simp only [vecSum_eq, List.map_map, Bool.and_eq_true, decide_eq_true_eq, Vec.mul_x, Vec.mul_y, Vec.mul_z, and_assoc]
  rfl

/-- C45: with that test a positive verdict of the full check needs both the balance of the stored normals and the edges. -/
theorem C45_full_check_stored (eps : ℝ) (tris : TriMesh ℝ) (normals : List V) (h : normals.length = tris.length) :
    ∃ b, stlCheck eps ⟨tris, normals⟩ true true = .ok b ∧ (b = true ↔
      (|(normals.map Vec.x).sum| ≤ (normals.map fun n => |n.x|).sum * eps ∧
       |(normals.map Vec.y).sum| ≤ (normals.map fun n => |n.y|).sum * eps ∧
       |(normals.map Vec.z).sum| ≤ (normals.map fun n => |n.z|).sum * eps) ∧ Watertight (oriented tris normals)) := by
  obtain ⟨b, hb, h⟩ := stlCheck_matching eps tris normals h true
  refine ⟨b, hb, ?_⟩
  rw [h, C45_area_test]
  simp

/-- C45: a single upward triangle fails the area test for every tolerance below one. -/
example (eps : ℝ) (h : eps < 1) : areaTest eps (StlMesh.ofTris [⟨⟨0, 0, 0⟩, ⟨1, 0, 0⟩, ⟨0, 1, 0⟩⟩]) = false := by
  rw [← Bool.not_eq_true, C45_area_test]
  rintro ⟨-, -, h3⟩
  simp [StlMesh.ofTris, Tri.normal, Vec.cross] at h3
  linarith

example : Closed (tetra ⟨0, 0, 0⟩ ⟨1, 0, 0⟩ ⟨0, 1, 0⟩ ⟨0, 0, 1⟩) := tetra_closed _ _ _ _

/-! ## C46 -/

/-- C46, violated: with `matching_lines=False` the check raises for every mesh, also for a single triangle. -/
theorem C46_violated (eps : ℝ) (m : StlMesh) (pa : Bool) : stlCheck eps m pa false = .error .unbound := by
  simp [stlCheck, throw, throwThe, MonadExceptOf.throw, bind, Except.bind]

/-- C46 with `matching_lines=True`: a verdict is always returned.  Missing: `matching_lines=False`. -/
theorem C46_partial (eps : ℝ) (m : StlMesh) (pa : Bool) : ∃ b, stlCheck eps m pa true = .ok b := by
  unfold stlCheck
  simp only [if_true, pure_bind]
  split <;> exact ⟨_, rfl⟩

end HV
