import Verif.Props.Component

/-!
# C133: refining a mesh keeps its grid points
-/

namespace HV
namespace Spec

/-- All grid points of the mesh `m` (first and second corners of its triangles) are grid points of `m'`. -/
def GridKept (m m' : TriMesh ℝ) : Prop := ∀ t ∈ m, (∃ t' ∈ m', t'.v0 = t.v0) ∧ ∃ t' ∈ m', t'.v0 = t.v1

/-- The convex hull of the corners of a mesh. -/
def hullOf (m : TriMesh ℝ) : Set E3 := convexHull ℝ {x | ∃ t ∈ m, x = toE t.v0 ∨ x = toE t.v1 ∨ x = toE t.v2}

end Spec
open Spec

theorem pdiv_inv {a b c : ℝ} (h : pdiv a b = .ok c) : b ≠ 0 ∧ c = a / b := by
  unfold pdiv at h
  split_ifs at h with h0
  exact ⟨h0, (Except.ok.inj h).symm⟩

/-- Entry `k * i` of the parameters for `k * n` cells is entry `i` of those for `n` cells. -/
theorem defaultVertexFunc_nested {n k : ℕ} (hk : 1 ≤ k) {sp : ℝ} {l l' : List ℝ}
    (h : defaultVertexFunc 0 1 (n + 1) sp = .ok l) (h' : defaultVertexFunc 0 1 (k * n + 1) sp = .ok l') (i : ℕ) (hi : i ≤ n) :
    l'[k * i]? = l[i]? := by
  unfold defaultVertexFunc at h h'
  obtain ⟨dx, e, h⟩ := bind_ok.1 h
  obtain ⟨dx', e', h'⟩ := bind_ok.1 h'
  obtain ⟨e0, e⟩ := pdiv_inv e
  obtain ⟨e0', e'⟩ := pdiv_inv e'
  obtain ⟨g1, g2⟩ := mapM_range_inv h
  obtain ⟨g1', g2'⟩ := mapM_range_inv h'
  have hki : k * i ≤ k * n := Nat.mul_le_mul_left k hi
  have q := g2 i (by omega)
  have q' := g2' (k * i) (by omega)
  have ex : ((k * i : ℕ) : ℝ) * dx' = (i : ℝ) * dx := by
    have hk0 : (k : ℝ) ≠ 0 := by positivity
    push_cast at e0 e e0' e'
    rw [e, e']
    have hn0 : (n : ℝ) ≠ 0 := by simpa using e0
    push_cast
    field_simp
    ring
  rw [ex] at q'
  rw [List.getElem?_eq_getElem (by omega), List.getElem?_eq_getElem (by omega)]
  rw [q] at q'
  rw [Except.ok.inj q']

theorem clustered_nested {n k : ℕ} (hk : 1 ≤ k) {f : ℝ → Res ℝ} {l l' : List ℝ} (hn : 1 ≤ n)
    (h : (linspace01 (n + 1)).mapM f = .ok l) (h' : (linspace01 (k * n + 1)).mapM f = .ok l') (i : ℕ) (hi : i ≤ n) :
    l'[k * i]? = l[i]? := by
  rw [mapM_ok_iff, List.forall₂_iff_get] at h h'
  obtain ⟨g1, g2⟩ := h
  obtain ⟨g1', g2'⟩ := h'
  have hki : k * i ≤ k * n := Nat.mul_le_mul_left k hi
  have hl : (linspace01 (n + 1)).length = n + 1 := by simp [linspace01]
  have hl' : (linspace01 (k * n + 1)).length = k * n + 1 := by simp [linspace01]
  have q := g2 i (by omega) (by omega)
  have q' := g2' (k * i) (by omega) (by omega)
  have ex : (linspace01 (k * n + 1)).get ⟨k * i, by omega⟩ = (linspace01 (n + 1)).get ⟨i, by omega⟩ := by
    have hk0 : (k : ℝ) ≠ 0 := by positivity
    have hn0 : (n : ℝ) ≠ 0 := by positivity
    simp only [linspace01, List.get_eq_getElem, List.getElem_map, List.getElem_range]
    push_cast
    simp only [add_sub_cancel_right]
    field_simp
  rw [ex, q] at q'
  rw [List.getElem?_eq_getElem (by omega), List.getElem?_eq_getElem (by omega)]
  have := Except.ok.inj q'
  simp only [List.get_eq_getElem] at this
  rw [this]

theorem rList_nested {n k : ℕ} (hn : 1 ≤ n) (hk : 1 ≤ k) {o : MeshOpts} {l l' : List ℝ} (h : rList o n = .ok l)
    (h' : rList o (k * n) = .ok l') (i : ℕ) (hi : i ≤ n) : l'[k * i]? = l[i]? := by
  unfold rList at h h'
  cases ho : o.i_clustering with
  | none => rw [ho] at h h'; exact defaultVertexFunc_nested hk h h' i hi
  | some f => rw [ho] at h h'; exact clustered_nested hk hn h h' i hi

theorem sList_nested {n m k : ℕ} (hn : 1 ≤ n) (hk : 1 ≤ k) {o : MeshOpts} {l l' : List ℝ} (h : sList o n m = .ok l)
    (h' : sList o (k * n) (k * m) = .ok l') (i : ℕ) (hi : i ≤ m) (hb : i < l.length) : l'[k * i]? = l[i]? := by
  unfold sList at h h'
  cases ho : o.j_clustering with
  | none => rw [ho] at h h'; exact defaultVertexFunc_nested hk h h' i hi
  | some f =>
    rw [ho] at h h'
    refine clustered_nested hk hn h h' i ?_
    simp only at h
    rw [mapM_ok_iff, List.forall₂_iff_get] at h
    have hl : (linspace01 (n + 1)).length = n + 1 := by simp [linspace01]
    omega

/-- Every grid point is the first corner of a triangle. -/
theorem gridMesh_corner (mirror : Bool) (ni nj : ℕ) (hi : 1 ≤ ni) (hj : 1 ≤ nj) (P : ℕ → ℕ → V) (i j : ℕ) (h1 : i ≤ ni) (h2 : j ≤ nj) :
    ∃ t ∈ gridMesh MeshArith.real mirror ni nj P, t.v0 = meshVertex MeshArith.real mirror (P i j) := by
  simp only [mem_gridMesh]
  rcases Nat.lt_or_ge i ni with a | a <;> rcases Nat.lt_or_ge j nj with b | b
  · exact ⟨_, ⟨i, a, j, b, by simp only [cellTris, List.mem_cons]; exact .inl rfl⟩, rfl⟩
  · obtain ⟨j', rfl⟩ : ∃ j', j = j' + 1 := ⟨j - 1, by omega⟩
    exact ⟨_, ⟨i, a, j', by omega, by simp only [cellTris, List.mem_cons]; exact .inr (.inr (.inr (.inl rfl)))⟩, rfl⟩
  · obtain ⟨i', rfl⟩ : ∃ i', i = i' + 1 := ⟨i - 1, by omega⟩
    exact ⟨_, ⟨i', by omega, j, b, by simp only [cellTris, List.mem_cons]; exact .inr (.inl rfl)⟩, rfl⟩
  · obtain ⟨i', rfl⟩ : ∃ i', i = i' + 1 := ⟨i - 1, by omega⟩
    obtain ⟨j', rfl⟩ : ∃ j', j = j' + 1 := ⟨j - 1, by omega⟩
    exact ⟨_, ⟨i', by omega, j', by omega, by simp only [cellTris, List.mem_cons]; exact .inr (.inr (.inl rfl))⟩, rfl⟩

/-- C133 for one patch. -/
theorem C133_patch (F : Surf) (ni nj k : ℕ) (hi : 1 ≤ ni) (hj : 1 ≤ nj) (hk : 1 ≤ k) (o : MeshOpts) (m m' : TriMesh ℝ)
    (h : surfceToStl F ni nj o = .ok m) (h' : surfceToStl F (k * ni) (k * nj) o = .ok m') : GridKept m m' := by
  unfold surfceToStl at h h'
  obtain ⟨rL, hr, h⟩ := bind_ok.1 h
  obtain ⟨sL, hs, h⟩ := bind_ok.1 h
  obtain ⟨rL', hr', h'⟩ := bind_ok.1 h'
  obtain ⟨sL', hs', h'⟩ := bind_ok.1 h'
  have hki : 1 ≤ k * ni := Nat.mul_pos hk hi
  have hkj : 1 ≤ k * nj := Nat.mul_pos hk hj
  obtain ⟨P, hP, rfl⟩ := meshFromLists_inv _ _ _ ni nj hi hj rL sL m h
  obtain ⟨P', hP', rfl⟩ := meshFromLists_inv _ _ _ (k * ni) (k * nj) hki hkj rL' sL' m' h'
  have key : ∀ i ≤ ni, ∀ j ≤ nj, P' (k * i) (k * j) = P i j := by
    intro i hi' j hj'
    obtain ⟨r, s, a1, a2, a3⟩ := pointAt_ok.1 (hP i hi' j hj')
    obtain ⟨r', s', b1, b2, b3⟩ := pointAt_ok.1 (hP' (k * i) (Nat.mul_le_mul_left k hi') (k * j) (Nat.mul_le_mul_left k hj'))
    rw [rList_nested hi hk hr hr' i hi', a1] at b1
    rw [sList_nested hi hk hs hs' j hj' (List.getElem?_eq_some_iff.1 a2).1, a2] at b2
    rw [← Option.some.inj b1, ← Option.some.inj b2, a3] at b3
    exact (Except.ok.inj b3).symm
  have corner : ∀ i ≤ ni, ∀ j ≤ nj, ∃ t ∈ gridMesh MeshArith.real o.mirror_y (k * ni) (k * nj) P',
      t.v0 = meshVertex MeshArith.real o.mirror_y (P i j) := by
    intro i hi' j hj'
    rw [← key i hi' j hj']
    exact gridMesh_corner _ _ _ hki hkj P' _ _ (Nat.mul_le_mul_left k hi') (Nat.mul_le_mul_left k hj')
  intro t ht
  obtain ⟨i, hi', j, hj', ht⟩ := (mem_gridMesh _ _ _ _ _ _).1 ht
  simp only [cellTris, List.mem_cons, List.not_mem_nil, or_false] at ht
  rcases ht with rfl | rfl | rfl | rfl
  · exact ⟨corner i hi'.le j hj'.le, corner (i + 1) hi' j hj'.le⟩
  · exact ⟨corner (i + 1) hi' j hj'.le, corner (i + 1) hi' (j + 1) hj'⟩
  · exact ⟨corner (i + 1) hi' (j + 1) hj', corner i hi'.le (j + 1) hj'⟩
  · exact ⟨corner i hi'.le (j + 1) hj', corner i hi'.le j hj'.le⟩

/-- The third corner of a triangle of a patch mesh is in the convex hull of first corners. -/
theorem centre_in_hull (F : Surf) (ni nj : ℕ) (hi : 1 ≤ ni) (hj : 1 ≤ nj) (o : MeshOpts) (m : TriMesh ℝ)
    (h : surfceToStl F ni nj o = .ok m) : ∀ t ∈ m, toE t.v2 ∈ convexHull ℝ {x | ∃ u ∈ m, x = toE u.v0} := by
  unfold surfceToStl at h
  obtain ⟨rL, hr, h⟩ := bind_ok.1 h
  obtain ⟨sL, hs, h⟩ := bind_ok.1 h
  obtain ⟨P, hP, rfl⟩ := meshFromLists_inv _ _ _ ni nj hi hj rL sL m h
  intro t ht
  obtain ⟨i, hi', j, hj', ht⟩ := (mem_gridMesh _ _ _ _ _ _).1 ht
  have hc := convex_convexHull ℝ {x | ∃ u ∈ gridMesh MeshArith.real o.mirror_y ni nj P, x = toE u.v0}
  have corner : ∀ i ≤ ni, ∀ j ≤ nj, toE (meshVertex MeshArith.real o.mirror_y (P i j)) ∈
      convexHull ℝ {x | ∃ u ∈ gridMesh MeshArith.real o.mirror_y ni nj P, x = toE u.v0} := by
    intro i hi' j hj'
    obtain ⟨u, h1, h2⟩ := gridMesh_corner o.mirror_y ni nj hi hj P i j hi' hj'
    exact subset_convexHull _ _ ⟨u, h1, by rw [h2]⟩
  have h1 := hc (corner i hi'.le j hj'.le) (corner (i + 1) hi' j hj'.le) (a := 1 / 2) (b := 1 / 2) (by norm_num) (by norm_num) (by norm_num)
  have h2 := hc (corner i hi'.le (j + 1) hj') (corner (i + 1) hi' (j + 1) hj') (a := 1 / 2) (b := 1 / 2) (by norm_num) (by norm_num) (by norm_num)
  have h3 := hc h1 h2 (a := 1 / 2) (b := 1 / 2) (by norm_num) (by norm_num) (by norm_num)
  have e : t.v2 = meshVertex MeshArith.real o.mirror_y (cellCentre MeshArith.real (P i j) (P (i + 1) j) (P i (j + 1)) (P (i + 1) (j + 1))) := by
    simp only [cellTris, List.mem_cons, List.not_mem_nil, or_false] at ht
    rcases ht with rfl | rfl | rfl | rfl <;> rfl
  rw [e]
  convert h3 using 1
  ext q
  fin_cases q <;> simp [toE, cellCentre, meshVertex, MeshArith.real] <;> (try split_ifs) <;> ring

/-- C133 for the meshes of patch lists. -/
theorem meshOf_kept (o : MeshOpts) (n k : ℕ) (hn : 1 ≤ n) (hk : 1 ≤ k) (ps : List (String × Surf)) (m m' : TriMesh ℝ)
    (h : MeshOf o (fun _ => n) (fun _ => n) ps m) (h' : MeshOf o (fun _ => k * n) (fun _ => k * n) ps m') :
    GridKept m m' ∧ ∀ t ∈ m, toE t.v2 ∈ convexHull ℝ {x | ∃ u ∈ m, x = toE u.v0} := by
  obtain ⟨parts, hp, rfl⟩ := h
  obtain ⟨parts', hp', rfl⟩ := h'
  induction hp generalizing parts' with
  | nil => exact ⟨fun t ht => by simp at ht, fun t ht => by simp at ht⟩
  | @cons e part es parts h0 _ ih =>
    cases hp' with
    | @cons _ part' _ parts' h0' hp' =>
      obtain ⟨ih1, ih2⟩ := ih parts' hp'
      constructor
      · intro t ht
        rw [List.flatten_cons, List.mem_append] at ht
        have lift : ∀ v : V, ((∃ t' ∈ part', t'.v0 = v) ∨ ∃ t' ∈ parts'.flatten, t'.v0 = v) →
            ∃ t' ∈ (part' :: parts').flatten, t'.v0 = v := by
          rintro v (⟨t', a, b⟩ | ⟨t', a, b⟩)
          · exact ⟨t', by rw [List.flatten_cons, List.mem_append]; exact .inl a, b⟩
          · exact ⟨t', by rw [List.flatten_cons, List.mem_append]; exact .inr a, b⟩
        rcases ht with ht | ht
        · obtain ⟨a, b⟩ := C133_patch e.2 n n k hn hn hk o part part' h0 h0' t ht
          exact ⟨lift _ (.inl a), lift _ (.inl b)⟩
        · obtain ⟨a, b⟩ := ih1 t ht
          exact ⟨lift _ (.inr a), lift _ (.inr b)⟩
      · intro t ht
        rw [List.flatten_cons, List.mem_append] at ht
        rcases ht with ht | ht
        · refine convexHull_mono ?_ (centre_in_hull e.2 n n hn hn o part h0 t ht)
          rintro x ⟨u, hu, rfl⟩
          exact ⟨u, by rw [List.flatten_cons, List.mem_append]; exact .inl hu, rfl⟩
        · refine convexHull_mono ?_ (ih2 t ht)
          rintro x ⟨u, hu, rfl⟩
          exact ⟨u, by rw [List.flatten_cons, List.mem_append]; exact .inr hu, rfl⟩

/-- C133: meshes of the same patches with the same clustering, one with a multiple of the resolution of the other: all grid
points of the coarser one are grid points of the finer one, and the coarser one is in the convex hull of the finer one (so no
extent shrinks on refining). -/
theorem C133_component (c : Comp) (n k : ℕ) (hn : 1 ≤ n) (hk : 1 ≤ k) (hm : c.mesh_ = none) (hs : c.surfaces = none)
    (hkeys : (c.patches.map Prod.fst).Nodup) (hne : c.patches ≠ []) (M M' : StlMesh) (c1 c2 : Comp)
    (h : ({ c with stl_resolution := .int n } : Comp).mesh = (.ok M, c1))
    (h' : ({ c with stl_resolution := .int (k * n : ℕ) } : Comp).mesh = (.ok M', c2)) :
    GridKept M.tris M'.tris ∧ hullOf M.tris ⊆ hullOf M'.tris := by
  have a := (C52_mesh { c with stl_resolution := .int n } n hn rfl hm hs hkeys hne).2 M c1 h
  have b := (C52_mesh { c with stl_resolution := .int (k * n : ℕ) } (k * n) (Nat.mul_pos hk hn) rfl hm hs hkeys hne).2 M' c2 h'
  obtain ⟨g1, g2⟩ := meshOf_kept c.clustering n k hn hk c.patches M.tris M'.tris a b
  refine ⟨g1, ?_⟩
  have sub : {x | ∃ u ∈ M.tris, x = toE u.v0} ⊆ hullOf M'.tris := by
    rintro x ⟨u, hu, rfl⟩
    obtain ⟨⟨t', h1, h2⟩, -⟩ := g1 u hu
    exact subset_convexHull _ _ ⟨t', h1, .inl (by rw [h2])⟩
  refine convexHull_min ?_ (convex_convexHull ℝ _)
  rintro x ⟨t, ht, rfl | rfl | rfl⟩
  · exact sub ⟨t, ht, rfl⟩
  · obtain ⟨-, t', h1, h2⟩ := g1 t ht
    exact subset_convexHull _ _ ⟨t', h1, .inl (by rw [h2])⟩
  · exact convexHull_min sub (convex_convexHull ℝ _) (g2 t ht)

/-- Witness: the demonstration component with resolutions 2 and 6. -/
example : ∃ M M' c1 c2, ({ demoComp with stl_resolution := .int 2 } : Comp).mesh = (.ok M, c1) ∧
    ({ demoComp with stl_resolution := .int 6 } : Comp).mesh = (.ok M', c2) ∧ GridKept M.tris M'.tris ∧ hullOf M.tris ⊆ hullOf M'.tris := by
  obtain ⟨_, _, m, _, _, h, _⟩ := C40_default_mesh (fun r s => ⟨r, s, 0⟩) 2 2 (by norm_num) (by norm_num) {} rfl rfl one_pos one_pos
  obtain ⟨_, _, m', _, _, h', _⟩ := C40_default_mesh (fun r s => ⟨r, s, 0⟩) 6 6 (by norm_num) (by norm_num) {} rfl rfl one_pos one_pos
  obtain ⟨M, c1, g, _⟩ := (C52_mesh { demoComp with stl_resolution := .int 2 } 2 (by norm_num) rfl rfl rfl
    (by simp [demoComp]) (by simp [demoComp])).1 m ⟨[m], by simpa [demoComp] using h, by simp⟩
  obtain ⟨M', c2, g', _⟩ := (C52_mesh { demoComp with stl_resolution := .int 6 } 6 (by norm_num) rfl rfl rfl
    (by simp [demoComp]) (by simp [demoComp])).1 m' ⟨[m'], by simpa [demoComp] using h', by simp⟩
  exact ⟨M, M', c1, c2, g, g', C133_component demoComp 2 3 (by norm_num) (by norm_num) rfl rfl (by simp [demoComp]) (by simp [demoComp])
    M M' c1 c2 g g'⟩

end HV
