import Verif.Props.Motion
import Verif.Props.Extrusion

/-!
# C123: affine maps of swept bodies
-/

namespace HV
open Spec

namespace Spec

/-- An affine map: a matrix followed by a translation. -/
def IsAffine (f : V → V) (m : Matrix (Fin 3) (Fin 3) ℝ) : Prop := ∃ t : Fin 3 → ℝ, ∀ p, toF (f p) = m.mulVec (toF p) + t

/-- The points of every edge of the sections `S'` are the images of those of the edges of `S`. -/
def SectionsImage (f : V → V) (S S' : List (List PathObj)) : Prop :=
  List.Forall₂ (List.Forall₂ fun e e' => ∀ t : ℝ, 0 ≤ t → t ≤ 1 → ∀ q, e.call t = .ok q → e'.call t = .ok (f q)) S S'

end Spec

theorem affine_coords {f : V → V} {m : Matrix (Fin 3) (Fin 3) ℝ} (h : IsAffine f m) : ∃ a b c d : V,
    (∀ p, f p = a * p.x + b * p.y + c * p.z + d) ∧ m.det = det3 a b c := by
  obtain ⟨t, ht⟩ := h
  refine ⟨⟨m 0 0, m 1 0, m 2 0⟩, ⟨m 0 1, m 1 1, m 2 1⟩, ⟨m 0 2, m 1 2, m 2 2⟩, ⟨t 0, t 1, t 2⟩, fun p => ?_, ?_⟩
  · rw [motion_coords f m t ht p]
    ext <;> simp <;> ring
  · rw [Matrix.det_fin_three, det3]
    ring

section
variable {f : V → V} {m : Matrix (Fin 3) (Fin 3) ℝ}

theorem affine_segment (h : IsAffine f m) (p q : V) (α : ℝ) : f (p * (1 - α) + q * α) = f p * (1 - α) + f q * α := by
  obtain ⟨a, b, c, d, hf, -⟩ := affine_coords h
  simp only [hf]
  ext <;> simp <;> ring

theorem affine_centre (h : IsAffine f m) (p q u v : V) :
    cellCentre MeshArith.real (f p) (f q) (f u) (f v) = f (cellCentre MeshArith.real p q u v) := by
  obtain ⟨a, b, c, d, hf, -⟩ := affine_coords h
  simp only [hf]
  ext <;> simp [cellCentre, MeshArith.real] <;> ring

theorem affine_blend (h : IsAffine f m) (s n w e p00 p10 p11 p01 : V) (r t : ℝ) :
    Coons.blend (f s) (f n) (f w) (f e) (f p00) (f p10) (f p11) (f p01) ⟨0, 0, 0⟩ r t =
      f (Coons.blend s n w e p00 p10 p11 p01 ⟨0, 0, 0⟩ r t) := by
  obtain ⟨a, b, c, d, hf, -⟩ := affine_coords h
  simp only [hf]
  ext <;> simp [Coons.blend] <;> ring

/-- Points of the wall swept by one edge. -/
theorem affine_wall (h : IsAffine f m) (es es' : List PathObj) (s : ℝ) (h2 : 2 ≤ es.length)
    (hi : List.Forall₂ (fun e e' => ∃ q, e.call s = .ok q ∧ e'.call s = .ok (f q)) es es') (r : ℝ) (r0 : 0 ≤ r) (r1 : r ≤ 1) :
    ∃ q, SweptPatchfromEdges es r s = .ok q ∧ SweptPatchfromEdges es' r s = .ok (f q) := by
  obtain ⟨i, α, hlt, a0, a1, rfl⟩ := between_sections es.length h2 r r0 r1
  have hlen := hi.length_eq
  have hget := (List.forall₂_iff_get.1 hi).2
  obtain ⟨p, hp, hp'⟩ := hget i (by omega) (by omega)
  obtain ⟨q, hq, hq'⟩ := hget (i + 1) (by omega) (by omega)
  obtain ⟨u, hu, ev⟩ := C30_between es i hlt α a0 a1 s p q hp hq
  obtain ⟨u', hu', ev'⟩ := C30_between es' i (by omega) α a0 a1 s (f p) (f q) hp' hq'
  have e1 : u = p * (1 - α) + q * α := by
    apply Vec.toE_injective
    rw [ev, Vec.toE_add, Vec.toE_mul, Vec.toE_mul]
  have e2 : u' = f p * (1 - α) + f q * α := by
    apply Vec.toE_injective
    rw [ev', Vec.toE_add, Vec.toE_mul, Vec.toE_mul]
  refine ⟨u, hu, ?_⟩
  rw [← hlen] at hu'
  rw [hu', e1, affine_segment h, e2]

/-- Points of a Coons patch. -/
theorem affine_coons (h : IsAffine f m) (n e s w n' e' s' w' : PathObj) (F F' : Surf) (hF : CoonsPatch n e s w = .ok F)
    (hF' : CoonsPatch n' e' s' w' = .ok F')
    (hn : ∀ t : ℝ, 0 ≤ t → t ≤ 1 → ∀ q, n.call t = .ok q → n'.call t = .ok (f q))
    (he : ∀ t : ℝ, 0 ≤ t → t ≤ 1 → ∀ q, e.call t = .ok q → e'.call t = .ok (f q))
    (hs : ∀ t : ℝ, 0 ≤ t → t ≤ 1 → ∀ q, s.call t = .ok q → s'.call t = .ok (f q))
    (hw : ∀ t : ℝ, 0 ≤ t → t ≤ 1 → ∀ q, w.call t = .ok q → w'.call t = .ok (f q)) :
    ∀ r t : ℝ, 0 ≤ r → r ≤ 1 → 0 ≤ t → t ≤ 1 → ∀ q, F r t = .ok q → F' r t = .ok (f q) := by
  intro r t r0 r1 t0 t1 q hq
  unfold CoonsPatch at hF hF'
  rw [bind_ok] at hF hF'
  obtain ⟨c, hc, hF⟩ := hF
  obtain ⟨c', hc', hF'⟩ := hF'
  cases hF
  cases hF'
  obtain ⟨a1, a2, a3, a4, a5, a6, a7, a8, h1, h2, h3, h4, -, -, -, -, -, -, -, -, rfl⟩ := (Coons.ofEdges_ok_iff n e s w _ c).1 hc
  obtain ⟨b1, b2, b3, b4, b5, b6, b7, b8, g1, g2, g3, g4, -, -, -, -, -, -, -, -, rfl⟩ :=
    (Coons.ofEdges_ok_iff n' e' s' w' _ c').1 hc'
  have k1 := hs 0 le_rfl zero_le_one _ h1
  have k2 := hs 1 zero_le_one le_rfl _ h2
  have k3 := hn 0 le_rfl zero_le_one _ h3
  have k4 := hn 1 zero_le_one le_rfl _ h4
  rw [k1] at g1; cases g1
  rw [k2] at g2; cases g2
  rw [k3] at g3; cases g3
  rw [k4] at g4; cases g4
  unfold Coons.call at hq ⊢
  simp only [bind_ok] at hq
  obtain ⟨q1, l1, q2, l2, q3, l3, q4, l4, l5⟩ := hq
  cases l5
  simp only [hs r r0 r1 _ l1, hn r r0 r1 _ l2, hw t t0 t1 _ l3, he t t0 t1 _ l4, ok_bind]
  show Except.ok _ = _
  rw [affine_blend h]

theorem gridMesh_image (h : IsAffine f m) (n : ℕ) (P Q : ℕ → ℕ → V) (hPQ : ∀ i ≤ n, ∀ j ≤ n, Q i j = f (P i j)) :
    gridMesh MeshArith.real false n n Q = mapVerts f (gridMesh MeshArith.real false n n P) := by
  have hv : ∀ p : V, meshVertex MeshArith.real false p = p := fun p => by simp [meshVertex, MeshArith.real]
  simp only [gridMesh, mapVerts, List.map_flatten, List.map_map]
  congr 1
  apply List.map_congr_left
  intro i hi
  simp only [Function.comp, List.map_flatten, List.map_map]
  congr 1
  apply List.map_congr_left
  intro j hj
  have hi := List.mem_range.1 hi
  have hj := List.mem_range.1 hj
  simp only [Function.comp, cellTris, hv, List.map_cons, List.map_nil, hPQ i (by omega) j (by omega),
    hPQ (i + 1) (by omega) j (by omega), hPQ i (by omega) (j + 1) (by omega), hPQ (i + 1) (by omega) (j + 1) (by omega),
    affine_centre h]

end

section
variable {f : V → V} {m : Matrix (Fin 3) (Fin 3) ℝ} {S S' : List (List PathObj)}

theorem Spec.SectionsImage.length (h : SectionsImage f S S') : S.length = S'.length := List.Forall₂.length_eq h

theorem Spec.SectionsImage.section (h : SectionsImage f S S') (k : ℕ) (cs' : List PathObj) (hk : S'[k]? = some cs') :
    ∃ cs, S[k]? = some cs ∧ cs.length = cs'.length ∧ ∀ ne < cs.length, ∀ t : ℝ, 0 ≤ t → t ≤ 1 → ∀ q,
      (edgeOf ne cs).call t = .ok q → (edgeOf ne cs').call t = .ok (f q) := by
  obtain ⟨hk', rfl⟩ := List.getElem?_eq_some_iff.1 hk
  have hlt : k < S.length := by rw [h.length]; exact hk'
  have hh := (List.forall₂_iff_get.1 h).2 k hlt hk'
  refine ⟨S[k], List.getElem?_eq_getElem hlt, hh.length_eq, fun ne hne => ?_⟩
  have hne' : ne < (S'[k]).length := by
    have := hh.length_eq
    simp only [List.get_eq_getElem] at this
    omega
  have := (List.forall₂_iff_get.1 hh).2 ne hne hne'
  simpa [edgeOf, hne, hne'] using this

theorem Spec.SectionsImage.len (h : SectionsImage f S S') {n : ℕ} (hl : ∀ cs ∈ S, cs.length = n) : ∀ cs ∈ S', cs.length = n := by
  intro cs' hcs'
  obtain ⟨k, hk⟩ := List.mem_iff_getElem?.1 hcs'
  obtain ⟨cs, h1, h2, -⟩ := h.section k cs' hk
  rw [← h2]
  exact hl cs (List.mem_of_getElem? h1)

theorem Spec.SectionsImage.total (h : SectionsImage f S S') (ht : EdgesTotal S) : EdgesTotal S' := by
  intro cs' hcs' e' he' t t0 t1
  obtain ⟨k, hk⟩ := List.mem_iff_getElem?.1 hcs'
  obtain ⟨ne, hne⟩ := List.mem_iff_getElem?.1 he'
  obtain ⟨cs, h1, h2, h3⟩ := h.section k cs' hk
  obtain ⟨hlt, rfl⟩ := List.getElem?_eq_some_iff.1 hne
  obtain ⟨q, hq⟩ := ht cs (List.mem_of_getElem? h1) _ (edgeOf_mem (by rw [h2]; exact hlt)) t t0 t1
  have := h3 ne (by rw [h2]; exact hlt) t t0 t1 q hq
  exact ⟨f q, by simpa [edgeOf, hlt] using this⟩

theorem Spec.SectionsImage.closed (h : SectionsImage f S S') (ht : EdgesTotal S) (hc : ExactlyClosed S) : ExactlyClosed S' := by
  intro cs' hcs' i e e' he he'
  obtain ⟨k, hk⟩ := List.mem_iff_getElem?.1 hcs'
  obtain ⟨cs, h1, h2, h3⟩ := h.section k cs' hk
  have hi : i < cs'.length := (List.getElem?_eq_some_iff.1 he).1
  have hj : (i + 1) % cs'.length < cs'.length := (List.getElem?_eq_some_iff.1 he').1
  have ee : e = edgeOf i cs' := by rw [getElem?_edgeOf hi] at he; exact (Option.some.inj he).symm
  have ee' : e' = edgeOf ((i + 1) % cs'.length) cs' := by rw [getElem?_edgeOf hj] at he'; exact (Option.some.inj he').symm
  have hm := List.mem_of_getElem? h1
  obtain ⟨q, hq⟩ := ht cs hm _ (edgeOf_mem (ne := i) (by omega)) 1 zero_le_one le_rfl
  have hcl := hc cs hm i _ _ (getElem?_edgeOf (by omega)) (getElem?_edgeOf (ne := (i + 1) % cs.length) (by rw [h2]; exact hj))
  rw [hq] at hcl
  rw [ee, ee', h3 i (by omega) 1 zero_le_one le_rfl q hq]
  rw [h2] at hcl
  exact (h3 _ (by rw [h2]; exact hj) 0 le_rfl zero_le_one q hcl.symm).symm

/-- C123: sweeping commutes with affine maps: when the sections of a swept component with closed ends are replaced by their images
under an affine map, all vertices of the generated mesh are replaced by their images. -/
theorem C123_swept (hf : IsAffine f m) (h : SectionsImage f S S') (h2 : 2 ≤ S.length) (hlen : ∀ cs ∈ S, cs.length = 4)
    (htot : EdgesTotal S) (hcl : ExactlyClosed S) (res : Reso) (ns nf : ℕ) (hres : SweptRes res ns nf) (hns : 1 ≤ ns) (hnf : 1 ≤ nf)
    (name : Option String) :
    ∃ c c', Swept.init S true res name = .ok c ∧ Swept.init S' true res name = .ok c' ∧
    ∀ (hp hp' : Heap) (id id' : ℕ), hp id = c → hp' id' = c' → ∃ g M d g' M' d',
      generatePatches hp id = (.ok (), g) ∧ (g id).mesh = (.ok M, d) ∧
      generatePatches hp' id' = (.ok (), g') ∧ (g' id').mesh = (.ok M', d') ∧ M'.tris = mapVerts f M.tris := by
  have h2' : 2 ≤ S'.length := by rw [← h.length]; exact h2
  obtain ⟨c, i1, hh⟩ := closed_swept_mesh S S[0] S[S.length - 1] (List.getElem?_eq_getElem (by omega))
    (List.getElem?_eq_getElem (by omega)) h2 hlen htot hcl res ns nf hres hns hnf name
  obtain ⟨c', i2, hh'⟩ := closed_swept_mesh S' S'[0] S'[S'.length - 1] (List.getElem?_eq_getElem (by omega))
    (List.getElem?_eq_getElem (by omega)) h2' (h.len hlen) (h.total htot) (h.closed htot hcl) res ns nf hres hns hnf name
  refine ⟨c, c', i1, i2, fun hp hp' id id' e e' => ?_⟩
  obtain ⟨g, M, d, g1, g2, -, F0, F1, f1, f2, f3, f4, -, -, f5⟩ := hh hp id e
  obtain ⟨g', M', d', g1', g2', -, F0', F1', f1', f2', f3', f4', -, -, f5'⟩ := hh' hp' id' e'
  refine ⟨g, M, d, g', M', d', g1, g2, g1', g2', ?_⟩
  have hends : (∀ r t : ℝ, 0 ≤ r → r ≤ 1 → 0 ≤ t → t ≤ 1 → ∀ q, F0 r t = .ok q → F0' r t = .ok (f q)) ∧
      ∀ r t : ℝ, 0 ≤ r → r ≤ 1 → 0 ≤ t → t ≤ 1 → ∀ q, F1 r t = .ok q → F1' r t = .ok (f q) := by
    have key : ∀ (k : ℕ) (cs cs' : List PathObj), S[k]? = some cs → S'[k]? = some cs' →
        (∀ ne < 4, SweptPatch.getIdx cs ne = .ok (edgeOf ne cs) ∧ SweptPatch.getIdx cs' ne = .ok (edgeOf ne cs') ∧
          ∀ t : ℝ, 0 ≤ t → t ≤ 1 → ∀ q, (edgeOf ne cs).call t = .ok q → (edgeOf ne cs').call t = .ok (f q)) ∧
        ∀ ne < 4, ∀ t : ℝ, 0 ≤ t → t ≤ 1 → ∀ q, (ReversedPath (edgeOf ne cs)).call t = .ok q →
          (ReversedPath (edgeOf ne cs')).call t = .ok (f q) := by
      intro k cs cs' hk hk'
      obtain ⟨cs2, q1, q2, q3⟩ := h.section k cs' hk'
      rw [hk] at q1
      cases q1
      have h4 : cs.length = 4 := hlen cs (List.mem_of_getElem? hk)
      refine ⟨fun ne hne => ⟨?_, ?_, q3 ne (by omega)⟩, fun ne hne t t0 t1 q hq => ?_⟩
      · rw [getIdx_ok]; exact getElem?_edgeOf (by omega)
      · rw [getIdx_ok]; exact getElem?_edgeOf (by omega)
      · rw [reversed_call] at hq ⊢
        exact q3 ne (by omega) _ (by linarith) (by linarith) q hq
    constructor
    · have e0 : S[0]? = some S[0] := List.getElem?_eq_getElem (by omega)
      have e0' : S'[0]? = some S'[0] := List.getElem?_eq_getElem (by omega)
      obtain ⟨k1, k2⟩ := key 0 _ _ e0 e0'
      unfold Swept.frontPatch at f1 f1'
      rw [getIdx_ok.2 e0] at f1
      rw [getIdx_ok.2 e0'] at f1'
      simp only [ok_bind, (k1 0 (by omega)).1, (k1 1 (by omega)).1, (k1 2 (by omega)).1, (k1 3 (by omega)).1] at f1
      simp only [ok_bind, (k1 0 (by omega)).2.1, (k1 1 (by omega)).2.1, (k1 2 (by omega)).2.1, (k1 3 (by omega)).2.1] at f1'
      exact affine_coons hf _ _ _ _ _ _ _ _ F0 F0' f1 f1' (k2 2 (by omega)) (k1 1 (by omega)).2.2 (k1 0 (by omega)).2.2 (k2 3 (by omega))
    · have e0 : S[S.length - 1]? = some S[S.length - 1] := List.getElem?_eq_getElem (by omega)
      have e0' : S'[S'.length - 1]? = some S'[S'.length - 1] := List.getElem?_eq_getElem (by omega)
      obtain ⟨k1, k2⟩ := key (S.length - 1) _ _ e0 (by rw [h.length]; exact e0')
      unfold Swept.rearPatch at f2 f2'
      rw [getIdx_ok.2 e0] at f2
      rw [getIdx_ok.2 e0'] at f2'
      simp only [ok_bind, (k1 0 (by omega)).1, (k1 1 (by omega)).1, (k1 2 (by omega)).1, (k1 3 (by omega)).1] at f2
      simp only [ok_bind, (k1 0 (by omega)).2.1, (k1 1 (by omega)).2.1, (k1 2 (by omega)).2.1, (k1 3 (by omega)).2.1] at f2'
      exact affine_coons hf _ _ _ _ _ _ _ _ F1 F1' f2 f2' (k1 2 (by omega)).2.2 (k2 3 (by omega)) (k2 0 (by omega)) (k1 1 (by omega)).2.2
  have hwall : ∀ ne < 4, gridMesh MeshArith.real false ns ns (sweptGrid S' ns ne) =
      mapVerts f (gridMesh MeshArith.real false ns ns (sweptGrid S ns ne)) := by
    intro ne hne
    apply gridMesh_image hf
    intro i hi j hj
    obtain ⟨a1, a2⟩ := unit_div ns i hns hi
    obtain ⟨b1, b2⟩ := unit_div ns j hns hj
    obtain ⟨q, q1, q2⟩ := affine_wall hf (S.map (edgeOf ne)) (S'.map (edgeOf ne)) ((j : ℝ) / ns) (by simpa using h2) (by
      rw [List.forall₂_map_left_iff, List.forall₂_map_right_iff, List.forall₂_iff_get]
      refine ⟨h.length, fun k hk hk' => ?_⟩
      obtain ⟨cs, s1, s2, s3⟩ := h.section k _ (List.getElem?_eq_getElem hk')
      rw [List.getElem?_eq_getElem hk] at s1
      cases s1
      have h4 := hlen _ (List.getElem_mem hk)
      obtain ⟨q, hq⟩ := htot _ (List.getElem_mem hk) _ (edgeOf_mem (ne := ne) (by omega)) _ b1 b2
      exact ⟨q, hq, s3 ne (by omega) _ b1 b2 q hq⟩) _ a1 a2
    unfold sweptGrid
    rw [q1, q2]
    rfl
  have hend : ∀ F F' : Surf, (∀ i ≤ nf, ∀ j ≤ nf, ∃ p, F ((i : ℝ) / nf) ((j : ℝ) / nf) = .ok p) →
      (∀ r t : ℝ, 0 ≤ r → r ≤ 1 → 0 ≤ t → t ≤ 1 → ∀ q, F r t = .ok q → F' r t = .ok (f q)) →
      gridMesh MeshArith.real false nf nf (fun (i j : ℕ) => okv (F' ((i : ℝ) / nf) ((j : ℝ) / nf))) =
      mapVerts f (gridMesh MeshArith.real false nf nf (fun (i j : ℕ) => okv (F ((i : ℝ) / nf) ((j : ℝ) / nf)))) := by
    intro F F' ht hF
    apply gridMesh_image hf
    intro i hi j hj
    obtain ⟨a1, a2⟩ := unit_div nf i hnf hi
    obtain ⟨b1, b2⟩ := unit_div nf j hnf hj
    obtain ⟨p, hp⟩ := ht i hi j hj
    rw [hF _ _ a1 a2 b1 b2 p hp, hp]
    rfl
  rw [f5, f5']
  have hr : List.range 4 = [0, 1, 2, 3] := rfl
  simp only [hr, List.map_cons, List.map_nil, List.cons_append, List.nil_append, List.flatten_cons, List.flatten_nil, List.append_nil,
    hwall 0 (by omega), hwall 1 (by omega), hwall 2 (by omega), hwall 3 (by omega), hend F0 F0' f3 hends.1, hend F1 F1' f4 hends.2]
  simp [mapVerts]

end

/-- Affine maps change the volume enclosed by a closed mesh by their determinant. -/
theorem C123_volume {f : V → V} {m : Matrix (Fin 3) (Fin 3) ℝ} (hf : IsAffine f m) (M : TriMesh ℝ) (hc : Closed M) :
    signedVolume (mapVerts f M) = m.det * signedVolume M := by
  obtain ⟨a, b, c, d, hA, hd⟩ := affine_coords hf
  set L : V → V := fun p => a * p.x + b * p.y + c * p.z with hL
  let φ : V → V → ℝ := fun p q => det3 d (L p) (L q)
  have hφ : Anti φ := by
    intro p q
    simp only [φ, det3]
    ring
  have key : ∀ M : TriMesh ℝ, signedVolume (mapVerts f M) = m.det * signedVolume M + edgeSum φ (edges M) / 6 := by
    intro M
    induction M with
    | nil => simp [signedVolume, mapVerts, edgeSum, edges]
    | cons t M ih =>
      have e1 : mapVerts f (t :: M) = [⟨f t.v0, f t.v1, f t.v2⟩] ++ mapVerts f M := rfl
      have e2 : t :: M = [t] ++ M := rfl
      rw [e1, e2, signedVolume_add, signedVolume_add, edges_append, edgeSum_append, ih]
      have e3 : signedVolume [⟨f t.v0, f t.v1, f t.v2⟩] = m.det * signedVolume [t] + edgeSum φ (edges [t]) / 6 := by
        rw [hd]
        simp only [signedVolume, List.map_cons, List.map_nil, List.sum_cons, List.sum_nil, edges, List.flatMap_cons,
          List.flatMap_nil, triEdges, edgeSum, List.append_nil, φ, hA, hL, det3, Vec.add_x, Vec.add_y, Vec.add_z, Vec.mul_x, Vec.mul_y,
          Vec.mul_z]
        ring
      rw [e3]
      ring
  rw [key, edgeSum_eq_zero_of_balanced φ hφ (fun a ha => by linarith) _ hc]
  ring

/-- A shear followed by a translation, and a swept body of three sections that meets the hypotheses of `C123_swept` with it. -/
example : ∃ (f : V → V) (m : Matrix (Fin 3) (Fin 3) ℝ) (S S' : List (List PathObj)), IsAffine f m ∧ SectionsImage f S S' ∧
    2 ≤ S.length ∧ (∀ cs ∈ S, cs.length = 4) ∧ EdgesTotal S ∧ ExactlyClosed S ∧ SweptRes (.int 5) 5 5 ∧ S ≠ S' ∧ m.det = 6 := by
  have hx := quad_extrusion (fun i => [0, 1, 1, 0].getD i 0) (fun i => [0, 0, 1, 1].getD i 0) [0, 1, 3]
  refine ⟨fun p => ⟨2 * p.x + p.y, p.y, 3 * p.z + 1⟩, !![2, 1, 0; 0, 1, 0; 0, 0, 3], _,
    [0, 1, 3].map fun z : ℝ => quadSection (fun i => [0, 2, 3, 1].getD i 0) (fun i => [0, 0, 1, 1].getD i 0) (3 * z + 1), ?_, ?_,
    by simp, hx.len, hx.total, hx.closed fun ne hne => ⟨quad_closes _ ne hne, quad_closes _ ne hne⟩, .inl ⟨rfl, rfl⟩, ?_, ?_⟩
  · refine ⟨![0, 0, 1], fun p => ?_⟩
    ext i
    fin_cases i <;> simp [toF, mul_comm]
  · unfold SectionsImage
    rw [List.forall₂_map_left_iff, List.forall₂_map_right_iff, List.forall₂_same]
    intro z _
    refine .cons ?_ (.cons ?_ (.cons ?_ (.cons ?_ .nil))) <;>
    · intro s _ _ q hq
      simp only [Line, lineAt, Except.ok.injEq] at hq ⊢
      subst hq
      ext <;> simp <;> ring
  · intro h
    have h1 := congrArg (fun S => ((S.headD []).head?.map fun e => e.call 0)) h
    simp [quadSection, Line, lineAt, Vec.ext_iff] at h1
  · simp [Matrix.det_fin_three]
    norm_num

end HV
