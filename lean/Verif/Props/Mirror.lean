import Verif.Props.Symmetric
import Verif.Props.Wedge

/-!
# Property C129: vehicles that are their own mirror image have their centre of gravity in the plane of symmetry
-/

namespace HV
open Spec Veh

namespace Spec

/-- The mirror image of a solid bounded by a mesh: the corners are mirrored and, since mirroring turns a triangle over, two of them exchanged. -/
def mirrored (k : Fin 3) (m : TriMesh ℝ) : TriMesh ℝ := m.map fun t => ⟨mirrorV k t.v1, mirrorV k t.v0, mirrorV k t.v2⟩

/-- The same oriented triangle, possibly starting from another corner. -/
def SameTri (t u : Tri ℝ) : Prop := u = t ∨ u = ⟨t.v1, t.v2, t.v0⟩ ∨ u = ⟨t.v2, t.v0, t.v1⟩

/-- The mesh is its own mirror image in the plane orthogonal to axis `k` through the origin: the same oriented triangles, in some order. -/
def MirrorSymmetric (k : Fin 3) (m : TriMesh ℝ) : Prop := ∃ m', List.Forall₂ SameTri (mirrored k m) m' ∧ m'.Perm m

/-- The vehicle, with its densities, is its own mirror image. -/
def MirrorBalanced (k : Fin 3) (bs : List (ℝ × TriMesh ℝ)) : Prop :=
  ∃ l, List.Forall₂ (fun e e' => e'.1 = e.1 ∧ SameTri e.2 e'.2) (loaded (bs.map fun b => (b.1, mirrored k b.2))) l ∧ l.Perm (loaded bs)

end Spec

/-! ## Sums over symmetric meshes -/

theorem coord_mirrorV (k i : Fin 3) (p : V) : coord (mirrorV k p) i = if i = k then -coord p i else coord p i := by
  fin_cases k <;> fin_cases i <;> simp [coord, mirrorV]

theorem det3_mirrorV (k : Fin 3) (a b c : V) : det3 (mirrorV k b) (mirrorV k a) (mirrorV k c) = det3 a b c := by
  fin_cases k <;> simp [det3, mirrorV] <;> ring

theorem sum_sameTri {α : Type} {l l' : List α} {R : α → α → Prop} (h : List.Forall₂ R l l') (f : α → ℝ) (hf : ∀ a b, R a b → f b = f a) :
    (l'.map f).sum = (l.map f).sum := by
  induction h with
  | nil => rfl
  | cons h _ ih => simp only [List.map_cons, List.sum_cons, hf _ _ h, ih]

/-- A quantity that does not depend on the corner one starts from. -/
def Spec.Cyclic (f : Tri ℝ → ℝ) : Prop := ∀ t, f ⟨t.v1, t.v2, t.v0⟩ = f t

theorem cyclic_same {f : Tri ℝ → ℝ} (hf : Cyclic f) {t u : Tri ℝ} (h : SameTri t u) : f u = f t := by
  rcases h with rfl | rfl | rfl
  · rfl
  · exact hf t
  · rw [← hf t, ← hf ⟨t.v1, t.v2, t.v0⟩]

theorem mirror_sum {k : Fin 3} {m : TriMesh ℝ} (h : MirrorSymmetric k m) {f : Tri ℝ → ℝ} (hf : Cyclic f) :
    (m.map f).sum = (m.map fun t => f ⟨mirrorV k t.v1, mirrorV k t.v0, mirrorV k t.v2⟩).sum := by
  obtain ⟨m', h1, h2⟩ := h
  rw [← (h2.map f).sum_eq, sum_sameTri h1 f fun _ _ => cyclic_same hf, mirrored, List.map_map]
  rfl

theorem firstMoment_coord (m : TriMesh ℝ) (k : Fin 3) :
    coord (firstMoment m) k = (m.map fun t => det3 t.v0 t.v1 t.v2 / 6 * ((coord t.v0 k + coord t.v1 k + coord t.v2 k) / 4)).sum := by
  fin_cases k <;> simp [coord, firstMoment]

theorem cyclic_moment (k : Fin 3) : Cyclic fun t => det3 t.v0 t.v1 t.v2 / 6 * ((coord t.v0 k + coord t.v1 k + coord t.v2 k) / 4) := by
  intro t
  simp only [det3]
  ring

theorem firstMoment_mirror {k : Fin 3} {m : TriMesh ℝ} (h : MirrorSymmetric k m) : coord (firstMoment m) k = 0 := by
  have e := mirror_sum h (cyclic_moment k)
  simp only [det3_mirrorV, coord_mirrorV, if_true] at e
  rw [firstMoment_coord]
  have e3 : (m.map fun t => det3 t.v0 t.v1 t.v2 / 6 * ((-coord t.v1 k + -coord t.v0 k + -coord t.v2 k) / 4)).sum =
      -(m.map fun t => det3 t.v0 t.v1 t.v2 / 6 * ((coord t.v0 k + coord t.v1 k + coord t.v2 k) / 4)).sum := by
    rw [← sum_neg']; congr 1; apply List.map_congr_left; intro t _; ring
  rw [e3] at e
  linarith

theorem coord_mul (p : V) (c : ℝ) (k : Fin 3) : coord (p * c) k = coord p k * c := by
  fin_cases k <;> simp [coord]

theorem secondMoment_mirror {k : Fin 3} {m : TriMesh ℝ} (h : MirrorSymmetric k m) {j : Fin 3} (hj : j ≠ k) : secondMoment m k j = 0 := by
  have hc : Cyclic fun t => det3 t.v0 t.v1 t.v2 / 6 / 20 * (coord t.v0 k * coord t.v0 j + coord t.v1 k * coord t.v1 j + coord t.v2 k * coord t.v2 j +
      (coord t.v0 k + coord t.v1 k + coord t.v2 k) * (coord t.v0 j + coord t.v1 j + coord t.v2 j)) := by
    intro t
    simp only [det3]
    ring
  have e := mirror_sum h hc
  simp only [det3_mirrorV, coord_mirrorV, if_true, hj, if_false] at e
  have e3 : (m.map fun t => det3 t.v0 t.v1 t.v2 / 6 / 20 * (-coord t.v1 k * coord t.v1 j + -coord t.v0 k * coord t.v0 j + -coord t.v2 k * coord t.v2 j +
      (-coord t.v1 k + -coord t.v0 k + -coord t.v2 k) * (coord t.v1 j + coord t.v0 j + coord t.v2 j))).sum = -secondMoment m k j := by
    unfold secondMoment
    rw [← sum_neg']; congr 1; apply List.map_congr_left; intro t _; ring
  rw [e3] at e
  change secondMoment m k j = _ at e
  linarith

/-- C129 for one component: if its mesh is closed, its own mirror image in the plane orthogonal to axis `k` through the origin and does not
enclose volume zero, then the reported centre of gravity lies in this plane and the products of inertia with axis `k` vanish. -/
theorem C129_component (lib : Lib) (hl : NumpyStlInertia lib) (M : StlMesh) (hM : Closed M.tris) (k : Fin 3) (hs : MirrorSymmetric k M.tris) (ρ : ℝ)
    (q : MassProps) (h : lib.massProps M ρ = .ok q) (h0 : signedVolume M.tris ≠ 0) :
    coord q.cog k = 0 ∧ ∀ j, j ≠ k → q.moi k j = 0 ∧ q.moi j k = 0 := by
  have hc := (C111_component lib hl.toNumpyStl M hM ρ q h).2.2 h0
  have hm := C128_inertia lib hl M hM ρ q h h0
  have hk : coord (centroid M.tris) k = 0 := by rw [centroid, coord_mul, firstMoment_mirror hs, zero_mul]
  refine ⟨by rw [hc, hk], fun j hj => ⟨?_, ?_⟩⟩
  · rw [hm, inertiaOf, secondMoment_mirror hs hj, hk]
    simp [hj.symm]
  · rw [hm, inertiaOf, secondMoment_symm M.tris j k, secondMoment_mirror hs hj, hk]
    simp [hj]

/-! ## Vehicles -/

theorem loaded_append (bs cs : List (ℝ × TriMesh ℝ)) : loaded (bs ++ cs) = loaded bs ++ loaded cs := by
  simp [loaded]

theorem forall₂_append' {α β : Type} {R : α → β → Prop} {a b : List α} {c d : List β} (h : List.Forall₂ R a c) (h' : List.Forall₂ R b d) :
    List.Forall₂ R (a ++ b) (c ++ d) := by
  induction h with
  | nil => exact h'
  | cons h _ ih => exact .cons h ih

theorem mirrorBalanced_append {k : Fin 3} {bs cs : List (ℝ × TriMesh ℝ)} (h : MirrorBalanced k bs) (h' : MirrorBalanced k cs) :
    MirrorBalanced k (bs ++ cs) := by
  obtain ⟨l, a1, a2⟩ := h
  obtain ⟨l', b1, b2⟩ := h'
  refine ⟨l ++ l', ?_, ?_⟩
  · rw [List.map_append, loaded_append]
    exact forall₂_append' a1 b1
  · rw [loaded_append]
    exact a2.append b2

theorem sameTri_refl (t : Tri ℝ) : SameTri t t := .inl rfl

/-- One symmetric part. -/
theorem mirrorBalanced_one {k : Fin 3} {ρ : ℝ} {m : TriMesh ℝ} (h : MirrorSymmetric k m) : MirrorBalanced k [(ρ, m)] := by
  obtain ⟨m', h1, h2⟩ := h
  refine ⟨m'.map fun t => (ρ, t), ?_, ?_⟩
  · simp only [loaded, List.map_cons, List.map_nil, List.flatMap_cons, List.flatMap_nil, List.append_nil]
    rw [List.forall₂_map_left_iff, List.forall₂_map_right_iff]
    exact h1.imp fun a b hab => ⟨rfl, hab⟩
  · simp only [loaded, List.flatMap_cons, List.flatMap_nil, List.append_nil]
    exact h2.map _

theorem mirrored_mirrored (k : Fin 3) (m : TriMesh ℝ) : mirrored k (mirrored k m) = m := by
  have : ∀ p, mirrorV k (mirrorV k p) = p := fun p => by fin_cases k <;> simp [mirrorV]
  simp only [mirrored, List.map_map, Function.comp_def, this]
  exact List.map_id m

/-- A part and its mirror image, as solids, of the same density. -/
theorem mirrorBalanced_pair (k : Fin 3) (ρ : ℝ) (m : TriMesh ℝ) : MirrorBalanced k [(ρ, m), (ρ, mirrored k m)] := by
  refine ⟨_, List.forall₂_same.2 fun e _ => ⟨rfl, sameTri_refl _⟩, ?_⟩
  simp only [loaded, List.map_cons, List.map_nil, List.flatMap_cons, List.flatMap_nil, List.append_nil, mirrored_mirrored]
  exact List.perm_append_comm

theorem mirrorBalanced_moment {k : Fin 3} {bs : List (ℝ × TriMesh ℝ)} (h : MirrorBalanced k bs) :
    (bs.map fun b => b.1 * coord (firstMoment b.2) k).sum = 0 := by
  obtain ⟨l, h1, h2⟩ := h
  set f : Tri ℝ → ℝ := fun t => det3 t.v0 t.v1 t.v2 / 6 * ((coord t.v0 k + coord t.v1 k + coord t.v2 k) / 4) with hf
  have e1 := (h2.map fun e => e.1 * f e.2).sum_eq
  rw [sum_sameTri h1 (fun e => e.1 * f e.2) fun a b hab => by
    rw [hab.1]; congr 1; exact cyclic_same (cyclic_moment k) hab.2, loaded_sum, loaded_sum,
    List.map_map] at e1
  have e2 : (bs.map ((fun b : ℝ × TriMesh ℝ => b.1 * (b.2.map f).sum) ∘ fun b => (b.1, mirrored k b.2))).sum =
      -(bs.map fun b => b.1 * (b.2.map f).sum).sum := by
    rw [← sum_neg_map]
    congr 1
    apply List.map_congr_left
    intro b _
    simp only [Function.comp, mirrored, List.map_map]
    have : (b.2.map (f ∘ fun t => (⟨mirrorV k t.v1, mirrorV k t.v0, mirrorV k t.v2⟩ : Tri ℝ))).sum = -(b.2.map f).sum := by
      rw [← sum_neg']
      congr 1
      apply List.map_congr_left
      intro t _
      simp only [Function.comp, hf, det3_mirrorV, coord_mirrorV, if_true]
      ring
    rw [this]
    ring
  rw [e2] at e1
  simp only [firstMoment_coord]
  linarith

theorem coord_weightedMean (l : List (ℝ × V)) (k : Fin 3) :
    coord (weightedMean l) k = (l.map fun e => e.1 * coord e.2 k).sum / (l.map Prod.fst).sum := by
  fin_cases k <;> rfl

/-- C129 for a vehicle: if the meshes of all named components are closed, none encloses volume zero and the vehicle with its densities is its
own mirror image in the plane orthogonal to axis `k` through the origin, the reported centre of gravity lies in this plane.  Missing: vehicles with a
part and its reflection, whose meshes are inside out (`C129_reflected_violated`, `C129_pair_violated`). -/
theorem C129_vehicle_partial (lib : Lib) (hl : NumpyStl lib) (depth : ℕ) (st st' : VState) (dens : Dict String ℝ) (a : Analysis)
    (hg : st.veh.generated = true) (h : analyse lib (depth + 1) st dens = (.ok a, st')) (bs : List (ℝ × TriMesh ℝ))
    (hb : List.Forall₂ (Solid dens st.heap) st.veh.named bs) (h0 : ∀ b ∈ bs, signedVolume b.2 ≠ 0) (hm : a.mass ≠ 0)
    (k : Fin 3) (hs : MirrorBalanced k bs) : ∃ q, a.cog = some q ∧ coord q k = 0 := by
  obtain ⟨-, -, h3⟩ := C111_vehicle_partial lib hl depth st st' dens a hg h bs hb
  refine ⟨_, h3 hm h0, ?_⟩
  rw [coord_weightedMean, List.map_map]
  have : (bs.map ((fun e : ℝ × V => e.1 * coord e.2 k) ∘ fun b => (b.1 * signedVolume b.2, centroid b.2))).sum = 0 := by
    rw [← mirrorBalanced_moment hs]
    congr 1
    apply List.map_congr_left
    intro b hb
    have := h0 b hb
    simp only [Function.comp, centroid, coord_mul]
    field_simp
  rw [this, zero_div]

/-! ## Grids traversed backwards -/

/-- A triangle turned over. -/
def Spec.turned (t : Tri ℝ) : Tri ℝ := ⟨t.v1, t.v0, t.v2⟩

theorem coe_flatten {α : Type} (n : ℕ) (f : ℕ → List α) :
    ((((List.range n).map f).flatten : List α) : Multiset α) = ∑ i ∈ Finset.range n, (f i : Multiset α) := by
  rw [← sum_map_range]
  induction List.range n with
  | nil => rfl
  | cons a l ih => simp only [List.map_cons, List.flatten_cons, List.sum_cons, ← Multiset.coe_add, ih]

theorem coe_grid (n : ℕ) (P : ℕ → ℕ → V) (f : Tri ℝ → Tri ℝ) : (((gridMesh MeshArith.real false n n P).map f : List (Tri ℝ)) : Multiset (Tri ℝ)) =
    ∑ i ∈ Finset.range n, ∑ j ∈ Finset.range n,
      (((cellTris MeshArith.real false (P i j) (P (i + 1) j) (P i (j + 1)) (P (i + 1) (j + 1))).map f : List (Tri ℝ)) : Multiset (Tri ℝ)) := by
  simp only [gridMesh, List.map_flatten, List.map_map, coe_flatten, Function.comp_def]

theorem cell_turned_r (p00 p10 p01 p11 : V) : ((cellTris MeshArith.real false p10 p00 p11 p01).map turned).Perm
    (cellTris MeshArith.real false p00 p10 p01 p11) := by
  have e : cellCentre MeshArith.real p10 p00 p11 p01 = cellCentre MeshArith.real p00 p10 p01 p11 := by
    ext <;> simp only [cellCentre, MeshArith.real] <;> ring
  simp only [cellTris, e, List.map_cons, List.map_nil, turned]
  refine List.Perm.cons _ ?_
  exact List.reverse_perm [_, _, _]

theorem cell_turned_t (p00 p10 p01 p11 : V) : ((cellTris MeshArith.real false p00 p01 p10 p11).map turned).Perm
    (cellTris MeshArith.real false p00 p10 p01 p11) := by
  have e : cellCentre MeshArith.real p00 p01 p10 p11 = cellCentre MeshArith.real p00 p10 p01 p11 := by
    ext <;> simp only [cellCentre, MeshArith.real] <;> ring
  simp only [cellTris, e, List.map_cons, List.map_nil, turned]
  exact List.reverse_perm [_, _, _, _]

/-- A grid traversed backwards in the first parameter. -/
theorem grid_back (n : ℕ) (P Q : ℕ → ℕ → V) (h : ∀ i ≤ n, ∀ j ≤ n, Q i j = P (n - i) j) :
    ((gridMesh MeshArith.real false n n Q).map turned).Perm (gridMesh MeshArith.real false n n P) := by
  rw [← Multiset.coe_eq_coe, coe_grid]
  conv_rhs => rw [← List.map_id (gridMesh _ _ _ _ P), coe_grid]
  rw [← Finset.sum_range_reflect]
  refine Finset.sum_congr rfl fun i hi => Finset.sum_congr rfl fun j hj => ?_
  have hi := Finset.mem_range.1 hi
  have hj := Finset.mem_range.1 hj
  rw [List.map_id, Multiset.coe_eq_coe, h _ (by omega) _ (by omega), h _ (by omega) _ (by omega), h _ (by omega) _ (by omega),
    h _ (by omega) _ (by omega)]
  have e1 : n - (n - 1 - i) = i + 1 := by omega
  have e2 : n - (n - 1 - i + 1) = i := by omega
  rw [e1, e2]
  exact cell_turned_r _ _ _ _

/-- A grid with its parameters exchanged. -/
theorem grid_swap (n : ℕ) (P Q : ℕ → ℕ → V) (h : ∀ i ≤ n, ∀ j ≤ n, Q i j = P j i) :
    ((gridMesh MeshArith.real false n n Q).map turned).Perm (gridMesh MeshArith.real false n n P) := by
  rw [← Multiset.coe_eq_coe, coe_grid]
  conv_rhs => rw [← List.map_id (gridMesh _ _ _ _ P), coe_grid]
  rw [Finset.sum_comm]
  refine Finset.sum_congr rfl fun i hi => Finset.sum_congr rfl fun j hj => ?_
  have hi := Finset.mem_range.1 hi
  have hj := Finset.mem_range.1 hj
  rw [List.map_id, Multiset.coe_eq_coe, h _ (by omega) _ (by omega), h _ (by omega) _ (by omega), h _ (by omega) _ (by omega),
    h _ (by omega) _ (by omega)]
  exact cell_turned_t _ _ _ _

theorem turned_turned (m : TriMesh ℝ) : (m.map turned).map turned = m := by
  rw [List.map_map]
  exact List.map_id m

/-- A grid traversed backwards in the second parameter. -/
theorem grid_back' (n : ℕ) (P Q : ℕ → ℕ → V) (h : ∀ i ≤ n, ∀ j ≤ n, Q i j = P i (n - j)) :
    ((gridMesh MeshArith.real false n n Q).map turned).Perm (gridMesh MeshArith.real false n n P) := by
  have h1 := grid_swap n (fun i j => Q j i) Q fun i _ j _ => rfl
  have h2 := grid_back n (fun i j => P j i) (fun i j => Q j i) fun i hi j hj => h j hj i hi
  have h3 := grid_swap n P (fun i j => P j i) fun i _ j _ => rfl
  have := (h1.trans (turned_turned (gridMesh MeshArith.real false n n fun i j => Q j i) ▸ h2.map turned)).trans h3
  exact this

/-- A grid with its parameters exchanged and both traversed backwards. -/
theorem grid_cross (n : ℕ) (P Q : ℕ → ℕ → V) (h : ∀ i ≤ n, ∀ j ≤ n, Q i j = P (n - j) (n - i)) :
    ((gridMesh MeshArith.real false n n Q).map turned).Perm (gridMesh MeshArith.real false n n P) := by
  have h1 := grid_back' n (fun i j => P j (n - i)) Q fun i hi j hj => h i hi j hj
  have h2 := grid_swap n (fun i j => P i (n - j)) (fun i j => P j (n - i)) fun i _ j _ => rfl
  have h3 := grid_back' n P (fun i j => P i (n - j)) fun i _ j _ => rfl
  exact (h1.trans (turned_turned (gridMesh MeshArith.real false n n fun i j => P j (n - i)) ▸ h2.map turned)).trans h3

/-! ## Swept components -/

theorem mirror_affine (k : Fin 3) : ∃ m, IsAffine (mirrorV k) m := by
  refine ⟨Matrix.diagonal fun i => if i = k then -1 else 1, 0, fun p => ?_⟩
  funext i
  rw [Pi.add_apply, Matrix.mulVec_diagonal]
  fin_cases k <;> fin_cases i <;> simp [toF, mirrorV]

theorem mirrorSymmetric_of {k : Fin 3} {m : TriMesh ℝ} (h : ((mapVerts (mirrorV k) m).map turned).Perm m) : MirrorSymmetric k m := by
  refine ⟨_, List.forall₂_same.2 fun t _ => sameTri_refl t, ?_⟩
  rw [mapVerts, List.map_map] at h
  exact h

/-- The value of a Coons patch. -/
theorem coons_value {n e s w : PathObj} {F : Surf} (hF : CoonsPatch n e s w = .ok F) {r t : ℝ} {p00 p10 p01 p11 a b c d : V}
    (h00 : s.call 0 = .ok p00) (h10 : s.call 1 = .ok p10) (h01 : n.call 0 = .ok p01) (h11 : n.call 1 = .ok p11)
    (hs : s.call r = .ok a) (hn : n.call r = .ok b) (hw : w.call t = .ok c) (he : e.call t = .ok d) :
    F r t = .ok (Coons.blend a b c d p00 p10 p11 p01 ⟨0, 0, 0⟩ r t) := by
  unfold CoonsPatch at hF
  rw [bind_ok] at hF
  obtain ⟨c', hc, hF⟩ := hF
  cases hF
  obtain ⟨a1, a2, a3, a4, a5, a6, a7, a8, h1, h2, h3, h4, -, -, -, -, -, -, -, -, rfl⟩ := (Coons.ofEdges_ok_iff n e s w _ c').1 hc
  rw [h00] at h1; cases h1
  rw [h10] at h2; cases h2
  rw [h01] at h3; cases h3
  rw [h11] at h4; cases h4
  unfold Coons.call
  simp only [hs, hn, hw, he, ok_bind]
  rfl

/-- What one knows about the edges of a section. -/
theorem section_edges {S : List (List PathObj)} (hlen : ∀ cs ∈ S, cs.length = 4) (htot : EdgesTotal S) (hcl : ExactlyClosed S) {cs : List PathObj}
    (hm : cs ∈ S) : ∃ E : ℕ → ℝ → V, (∀ ne < 4, ∀ t : ℝ, 0 ≤ t → t ≤ 1 → (edgeOf ne cs).call t = .ok (E ne t)) ∧
      E 0 1 = E 1 0 ∧ E 1 1 = E 2 0 ∧ E 2 1 = E 3 0 ∧ E 3 1 = E 0 0 := by
  have h4 := hlen cs hm
  have ht : ∀ ne < 4, ∀ t : ℝ, 0 ≤ t → t ≤ 1 → (edgeOf ne cs).call t = .ok (okv ((edgeOf ne cs).call t)) := fun ne hne t t0 t1 =>
    okv_eq (htot cs hm _ (edgeOf_mem (by omega)) t t0 t1)
  have hc : ∀ ne < 4, okv ((edgeOf ne cs).call 1) = okv ((edgeOf ((ne + 1) % 4) cs).call 0) := fun ne hne => by
    rw [hcl cs hm ne _ _ (getElem?_edgeOf (by omega)) (by rw [h4]; exact getElem?_edgeOf (by omega))]
  exact ⟨fun ne t => okv ((edgeOf ne cs).call t), ht, hc 0 (by omega), hc 1 (by omega), hc 2 (by omega), hc 3 (by omega)⟩

/-- The front patch in terms of the edges. -/
theorem front_value {S : List (List PathObj)} {F : Surf} (hF : Swept.frontPatch S = .ok F) {cs : List PathObj} (h0 : S[0]? = some cs)
    (h4 : cs.length = 4) {E : ℕ → ℝ → V} (hE : ∀ ne < 4, ∀ t : ℝ, 0 ≤ t → t ≤ 1 → (edgeOf ne cs).call t = .ok (E ne t)) {r t : ℝ}
    (r0 : 0 ≤ r) (r1 : r ≤ 1) (t0 : 0 ≤ t) (t1 : t ≤ 1) :
    F r t = .ok (Coons.blend (E 0 r) (E 2 (1 - r)) (E 3 (1 - t)) (E 1 t) (E 0 0) (E 0 1) (E 2 0) (E 2 1) ⟨0, 0, 0⟩ r t) := by
  have g : ∀ ne < 4, SweptPatch.getIdx cs ne = .ok (edgeOf ne cs) := fun ne hne => by rw [getIdx_ok]; exact getElem?_edgeOf (by omega)
  unfold Swept.frontPatch at hF
  rw [getIdx_ok.2 h0] at hF
  simp only [ok_bind, g 0 (by omega), g 1 (by omega), g 2 (by omega), g 3 (by omega)] at hF
  refine coons_value hF (hE 0 (by omega) 0 le_rfl zero_le_one) (hE 0 (by omega) 1 zero_le_one le_rfl) ?_ ?_ (hE 0 (by omega) r r0 r1) ?_ ?_
    (hE 1 (by omega) t t0 t1)
  · rw [reversed_call, sub_zero]; exact hE 2 (by omega) 1 zero_le_one le_rfl
  · rw [reversed_call, sub_self]; exact hE 2 (by omega) 0 le_rfl zero_le_one
  · rw [reversed_call]; exact hE 2 (by omega) _ (by linarith) (by linarith)
  · rw [reversed_call]; exact hE 3 (by omega) _ (by linarith) (by linarith)

/-- The rear patch in terms of the edges. -/
theorem rear_value {S : List (List PathObj)} {F : Surf} (hF : Swept.rearPatch S = .ok F) {cs : List PathObj} (h0 : S[S.length - 1]? = some cs)
    (h4 : cs.length = 4) {E : ℕ → ℝ → V} (hE : ∀ ne < 4, ∀ t : ℝ, 0 ≤ t → t ≤ 1 → (edgeOf ne cs).call t = .ok (E ne t)) {r t : ℝ}
    (r0 : 0 ≤ r) (r1 : r ≤ 1) (t0 : 0 ≤ t) (t1 : t ≤ 1) :
    F r t = .ok (Coons.blend (E 0 (1 - r)) (E 2 r) (E 1 t) (E 3 (1 - t)) (E 0 1) (E 0 0) (E 2 1) (E 2 0) ⟨0, 0, 0⟩ r t) := by
  have g : ∀ ne < 4, SweptPatch.getIdx cs ne = .ok (edgeOf ne cs) := fun ne hne => by rw [getIdx_ok]; exact getElem?_edgeOf (by omega)
  unfold Swept.rearPatch at hF
  rw [getIdx_ok.2 h0] at hF
  simp only [ok_bind, g 0 (by omega), g 1 (by omega), g 2 (by omega), g 3 (by omega)] at hF
  refine coons_value hF ?_ ?_ (hE 2 (by omega) 0 le_rfl zero_le_one) (hE 2 (by omega) 1 zero_le_one le_rfl) ?_ (hE 2 (by omega) r r0 r1)
    (hE 1 (by omega) t t0 t1) ?_
  · rw [reversed_call, sub_zero]; exact hE 0 (by omega) 1 zero_le_one le_rfl
  · rw [reversed_call, sub_self]; exact hE 0 (by omega) 0 le_rfl zero_le_one
  · rw [reversed_call]; exact hE 0 (by omega) _ (by linarith) (by linarith)
  · rw [reversed_call]; exact hE 3 (by omega) _ (by linarith) (by linarith)

/-- The wall swept through the sections in the opposite order. -/
theorem swept_reverse (es : List PathObj) (h2 : 2 ≤ es.length) (s : ℝ) (ht : ∀ e ∈ es, ∃ p, e.call s = .ok p) (r : ℝ) (r0 : 0 ≤ r) (r1 : r ≤ 1) :
    SweptPatchfromEdges es.reverse r s = SweptPatchfromEdges es (1 - r) s := by
  obtain ⟨i, α, hlt, a0, a1, rfl⟩ := between_sections es.length h2 r r0 r1
  obtain ⟨p, hp⟩ := ht _ (List.getElem_mem (show es.length - 1 - i < es.length by omega))
  obtain ⟨q, hq⟩ := ht _ (List.getElem_mem (show es.length - 2 - i < es.length by omega))
  have g1 : es.reverse[i]'(by rw [List.length_reverse]; omega) = es[es.length - 1 - i] := by rw [List.getElem_reverse]
  have g2 : es.reverse[i + 1]'(by rw [List.length_reverse]; omega) = es[es.length - 2 - i] := by
    rw [List.getElem_reverse]; congr 1; omega
  have g3 : es[es.length - 2 - i + 1]'(by omega) = es[es.length - 1 - i] := by congr 1; omega
  obtain ⟨u, hu, ev⟩ := C30_between es.reverse i (by rw [List.length_reverse]; omega) α a0 a1 s p q (by rw [g1]; exact hp) (by rw [g2]; exact hq)
  obtain ⟨u', hu', ev'⟩ := C30_between es (es.length - 2 - i) (by omega) (1 - α) (by linarith) (by linarith) s q p hq (by rw [g3]; exact hp)
  have e : u = u' := by
    apply Vec.toE_injective
    rw [ev, ev', sub_sub_cancel, add_comm]
  have hn : (0 : ℝ) < (es.length : ℝ) - 1 := by
    have : (2 : ℝ) ≤ es.length := by exact_mod_cast h2
    linarith
  have er : 1 - ((i : ℝ) + α) / ((es.length : ℝ) - 1) = (((es.length - 2 - i : ℕ) : ℝ) + (1 - α)) / ((es.length : ℝ) - 1) := by
    rw [Nat.cast_sub (by omega), Nat.cast_sub (by omega)]
    field_simp
    push_cast
    ring
  rw [List.length_reverse] at hu
  rw [hu, er, hu', e]

/-- The meshes of two swept components compared patch by patch: `σ` says which walls correspond, and the ends correspond in one of the two ways. -/
theorem swept_turned {k : Fin 3} {S S' : List (List PathObj)} (h : SectionsImage (mirrorV k) S S') (h2 : 2 ≤ S.length)
    (hlen : ∀ cs ∈ S, cs.length = 4) (htot : EdgesTotal S) (hcl : ExactlyClosed S) (res : Reso) (ns nf : ℕ) (hres : SweptRes res ns nf)
    (hns : 1 ≤ ns) (hnf : 1 ≤ nf) (name : Option String) (σ : ℕ → ℕ) (hσ : [σ 0, σ 1, σ 2, σ 3].Perm [0, 1, 2, 3])
    (hwall : ∀ ne < 4, ((gridMesh MeshArith.real false ns ns (sweptGrid S' ns ne)).map turned).Perm
      (gridMesh MeshArith.real false ns ns (sweptGrid S ns (σ ne))))
    (hends : ∀ F0 F1 F0' F1' : Surf, Swept.frontPatch S = .ok F0 → Swept.rearPatch S = .ok F1 → Swept.frontPatch S' = .ok F0' →
      Swept.rearPatch S' = .ok F1' → ∀ G : Surf → TriMesh ℝ,
      (G = fun F => gridMesh MeshArith.real false nf nf fun (i j : ℕ) => okv (F ((i : ℝ) / nf) ((j : ℝ) / nf))) →
      (((G F0').map turned).Perm (G F0) ∧ ((G F1').map turned).Perm (G F1)) ∨
      (((G F0').map turned).Perm (G F1) ∧ ((G F1').map turned).Perm (G F0))) :
    ∃ c, Swept.init S true res name = .ok c ∧ ∀ (hp : Heap) (id : ℕ), hp id = c → ∃ g M d,
      generatePatches hp id = (.ok (), g) ∧ (g id).mesh = (.ok M, d) ∧ (ns = nf → Closed M.tris) ∧ MirrorSymmetric k M.tris := by
  obtain ⟨mk, hk⟩ := mirror_affine k
  have h2' : 2 ≤ S'.length := by rw [← h.length]; exact h2
  obtain ⟨c, i1, hh⟩ := closed_swept_mesh S S[0] S[S.length - 1] (List.getElem?_eq_getElem (by omega))
    (List.getElem?_eq_getElem (by omega)) h2 hlen htot hcl res ns nf hres hns hnf name
  obtain ⟨c', i2, hh'⟩ := closed_swept_mesh S' S'[0] S'[S'.length - 1] (List.getElem?_eq_getElem (by omega))
    (List.getElem?_eq_getElem (by omega)) h2' (h.len hlen) (h.total htot) (h.closed htot hcl) res ns nf hres hns hnf name
  obtain ⟨d, d', j1, j2, hA⟩ := C123_swept hk h h2 hlen htot hcl res ns nf hres hns hnf name
  rw [i1] at j1
  rw [i2] at j2
  obtain rfl := Except.ok.inj j1
  obtain rfl := Except.ok.inj j2
  refine ⟨c, i1, fun hp id e => ?_⟩
  obtain ⟨g, M, d, g1, g2, g3, F0, F1, f1, f2, -, -, -, -, f5⟩ := hh hp id e
  obtain ⟨g', M', d', g1', g2', -, F0', F1', f1', f2', -, -, -, -, f5'⟩ := hh' (hp.upd id c') id (upd_self _ _ _)
  obtain ⟨x, N, y, x', N', y', k1, k2, k3, k4, k5⟩ := hA hp (hp.upd id c') id id e (upd_self _ _ _)
  rw [g1] at k1
  obtain rfl := (Prod.mk.inj k1).2
  rw [g2] at k2
  obtain rfl := Except.ok.inj (Prod.mk.inj k2).1
  rw [g1'] at k3
  obtain rfl := (Prod.mk.inj k3).2
  rw [g2'] at k4
  obtain rfl := Except.ok.inj (Prod.mk.inj k4).1
  refine ⟨g, M, d, g1, g2, ?_, mirrorSymmetric_of ?_⟩
  · rintro rfl
    rw [closed_iff_edgeSum]
    intro φ hφ
    rw [g3 _ φ hφ]
    ring
  rw [← k5, f5, f5']
  have hG := hends F0 F1 F0' F1' f1 f2 f1' f2' _ rfl
  have hr : List.range 4 = [0, 1, 2, 3] := rfl
  simp only [hr, List.map_cons, List.map_nil, List.cons_append, List.nil_append, List.flatten_cons, List.flatten_nil, List.append_nil,
    List.map_append]
  have hw : ∀ ne < 4, (((gridMesh MeshArith.real false ns ns (sweptGrid S' ns ne)).map turned : List (Tri ℝ)) : Multiset (Tri ℝ)) =
      (gridMesh MeshArith.real false ns ns (sweptGrid S ns (σ ne)) : Multiset (Tri ℝ)) := fun ne hne => Multiset.coe_eq_coe.2 (hwall ne hne)
  have hs := (hσ.map fun ne => (gridMesh MeshArith.real false ns ns (sweptGrid S ns ne) : Multiset (Tri ℝ))).sum_eq
  simp only [List.map_cons, List.map_nil, List.sum_cons, List.sum_nil, add_zero] at hs
  rw [← Multiset.coe_eq_coe]
  simp only [← Multiset.coe_add]
  rw [hw 0 (by omega), hw 1 (by omega), hw 2 (by omega), hw 3 (by omega)]
  simp only [← Multiset.coe_eq_coe] at hG
  rcases hG with ⟨q1, q2⟩ | ⟨q1, q2⟩
  · rw [q1, q2]
    simp only [← add_assoc] at hs ⊢
    rw [hs]
  · rw [q1, q2]
    simp only [← add_assoc] at hs ⊢
    rw [hs, add_right_comm]

/-- C129 for swept components: if mirroring the sections gives the same sections in the opposite order, the mesh is its own mirror image. -/
theorem C129_swept (k : Fin 3) (S : List (List PathObj)) (h : SectionsImage (mirrorV k) S S.reverse) (h2 : 2 ≤ S.length)
    (hlen : ∀ cs ∈ S, cs.length = 4) (htot : EdgesTotal S) (hcl : ExactlyClosed S) (res : Reso) (ns nf : ℕ) (hres : SweptRes res ns nf)
    (hns : 1 ≤ ns) (hnf : 1 ≤ nf) (name : Option String) :
    ∃ c, Swept.init S true res name = .ok c ∧ ∀ (hp : Heap) (id : ℕ), hp id = c → ∃ g M d,
      generatePatches hp id = (.ok (), g) ∧ (g id).mesh = (.ok M, d) ∧ (ns = nf → Closed M.tris) ∧ MirrorSymmetric k M.tris := by
  refine swept_turned h h2 hlen htot hcl res ns nf hres hns hnf name id (List.Perm.refl _) ?_ ?_
  · intro ne hne
    apply grid_back
    intro i hi j hj
    obtain ⟨a1, a2⟩ := unit_div ns i hns hi
    obtain ⟨b1, b2⟩ := unit_div ns j hns hj
    unfold sweptGrid
    rw [List.map_reverse, swept_reverse _ (by rwa [List.length_map]) _ ?_ _ a1 a2, Nat.cast_sub hi]
    · congr 2
      field_simp
    · intro e he
      obtain ⟨cs, hcs, rfl⟩ := List.mem_map.1 he
      exact htot cs hcs _ (edgeOf_mem (by rw [hlen cs hcs]; exact hne)) _ b1 b2
  · rintro F0 F1 F0' F1' f0 f1 f0' f1' G rfl
    have e0 : S[0]? = some S[0] := List.getElem?_eq_getElem (by omega)
    have e1 : S[S.length - 1]? = some S[S.length - 1] := List.getElem?_eq_getElem (by omega)
    have e0' : S.reverse[0]? = some S[S.length - 1] := by rw [List.getElem?_reverse (by omega)]; simpa using e1
    have e1' : S.reverse[S.reverse.length - 1]? = some S[0] := by
      rw [List.getElem?_reverse (by simp; omega)]
      rw [List.length_reverse, show S.length - 1 - (S.length - 1) = 0 by omega]
      exact e0
    have m0 := List.mem_of_getElem? e0
    have m1 := List.mem_of_getElem? e1
    obtain ⟨A, hA, -⟩ := section_edges hlen htot hcl m0
    obtain ⟨B, hB, -⟩ := section_edges hlen htot hcl m1
    refine .inr ⟨grid_back _ _ _ fun i hi j hj => ?_, grid_back _ _ _ fun i hi j hj => ?_⟩
    all_goals
      obtain ⟨a1, a2⟩ := unit_div nf i hnf hi
      obtain ⟨b1, b2⟩ := unit_div nf j hnf hj
      have er : ((nf - i : ℕ) : ℝ) / nf = 1 - (i : ℝ) / nf := by
        rw [Nat.cast_sub hi]; field_simp
      rw [er]
    · rw [front_value f0' e0' (hlen _ m1) hB a1 a2 b1 b2, rear_value f1 e1 (hlen _ m1) hB (by linarith) (by linarith) b1 b2]
      simp only [okv, sub_sub_cancel]
      ext <;> simp [Coons.blend] <;> ring
    · rw [rear_value f1' e1' (hlen _ m0) hA a1 a2 b1 b2, front_value f0 e0 (hlen _ m0) hA (by linarith) (by linarith) b1 b2]
      simp only [okv, sub_sub_cancel]
      ext <;> simp [Coons.blend] <;> ring

namespace Spec

/-- Every section is its own mirror image: the mirror image of edge `ne` is edge `c - ne` (modulo 4), traversed backwards. -/
def ProfileMirrored (k : Fin 3) (c : ℕ) (S : List (List PathObj)) : Prop :=
  ∀ cs ∈ S, ∀ ne < 4, ∀ e e', cs[ne]? = some e → cs[(c + 4 - ne) % 4]? = some e' → ∀ t : ℝ, 0 ≤ t → t ≤ 1 → ∀ q, e.call t = .ok q →
    e'.call (1 - t) = .ok (mirrorV k q)

end Spec

/-- A section traversed backwards. -/
noncomputable def backwards (c : ℕ) (cs : List PathObj) : List PathObj := (List.range 4).map fun ne => ReversedPath (edgeOf ((c + 4 - ne) % 4) cs)

theorem backwards_edge (c : ℕ) (cs : List PathObj) (ne : ℕ) (h : ne < 4) : edgeOf ne (backwards c cs) = ReversedPath (edgeOf ((c + 4 - ne) % 4) cs) := by
  unfold backwards edgeOf
  interval_cases ne <;> rfl

/-- C129 for swept components with symmetric sections: if every section is its own mirror image, so is the mesh. -/
theorem C129_profile (k : Fin 3) (c : ℕ) (hc : c < 4) (S : List (List PathObj)) (h : ProfileMirrored k c S) (h2 : 2 ≤ S.length)
    (hlen : ∀ cs ∈ S, cs.length = 4) (htot : EdgesTotal S) (hcl : ExactlyClosed S) (res : Reso) (ns nf : ℕ) (hres : SweptRes res ns nf)
    (hns : 1 ≤ ns) (hnf : 1 ≤ nf) (name : Option String) :
    ∃ c, Swept.init S true res name = .ok c ∧ ∀ (hp : Heap) (id : ℕ), hp id = c → ∃ g M d,
      generatePatches hp id = (.ok (), g) ∧ (g id).mesh = (.ok M, d) ∧ (ns = nf → Closed M.tris) ∧ MirrorSymmetric k M.tris := by
  have hS : SectionsImage (mirrorV k) S (S.map (backwards c)) := by
    unfold SectionsImage
    rw [List.forall₂_map_right_iff, List.forall₂_same]
    intro cs hcs
    have h4 := hlen cs hcs
    rw [List.forall₂_iff_get]
    refine ⟨by simp [backwards, h4], fun i hi hi' t t0 t1 q hq => ?_⟩
    have hi4 : i < 4 := by omega
    have e1 : (backwards c cs).get ⟨i, hi'⟩ = ReversedPath (edgeOf ((c + 4 - i) % 4) cs) := by
      simp [backwards]
    rw [e1, reversed_call]
    exact h cs hcs i hi4 _ _ (List.getElem?_eq_getElem hi) (getElem?_edgeOf (by omega)) t t0 t1 q hq
  refine swept_turned hS h2 hlen htot hcl res ns nf hres hns hnf name (fun ne => (c + 4 - ne) % 4) ?_ ?_ ?_
  · interval_cases c <;> decide
  · intro ne hne
    apply grid_back'
    intro i hi j hj
    unfold sweptGrid
    rw [List.map_map]
    congr 1
    have hn0 : (ns : ℝ) ≠ 0 := by positivity
    apply swept_congr
    intro cs _
    rw [Function.comp, backwards_edge c cs ne hne, reversed_call, Nat.cast_sub hj]
    congr 1
    field_simp
  · rintro F0 F1 F0' F1' f0 f1 f0' f1' G rfl
    have e0 : S[0]? = some S[0] := List.getElem?_eq_getElem (by omega)
    have e1 : S[S.length - 1]? = some S[S.length - 1] := List.getElem?_eq_getElem (by omega)
    have e0' : (S.map (backwards c))[0]? = some (backwards c S[0]) := by rw [List.getElem?_map, e0]; rfl
    have e1' : (S.map (backwards c))[(S.map (backwards c)).length - 1]? = some (backwards c S[S.length - 1]) := by
      rw [List.length_map, List.getElem?_map, e1]; rfl
    have m0 := List.mem_of_getElem? e0
    have m1 := List.mem_of_getElem? e1
    obtain ⟨A, hA, A1, A2, A3, A4⟩ := section_edges hlen htot hcl m0
    obtain ⟨B, hB, B1, B2, B3, B4⟩ := section_edges hlen htot hcl m1
    have hA' : ∀ ne < 4, ∀ t : ℝ, 0 ≤ t → t ≤ 1 → (edgeOf ne (backwards c S[0])).call t = .ok (A ((c + 4 - ne) % 4) (1 - t)) := by
      intro ne hne t t0 t1
      rw [backwards_edge _ _ _ hne, reversed_call, hA _ (by omega) _ (by linarith) (by linarith)]
    have hB' : ∀ ne < 4, ∀ t : ℝ, 0 ≤ t → t ≤ 1 → (edgeOf ne (backwards c S[S.length - 1])).call t = .ok (B ((c + 4 - ne) % 4) (1 - t)) := by
      intro ne hne t t0 t1
      rw [backwards_edge _ _ _ hne, reversed_call, hB _ (by omega) _ (by linarith) (by linarith)]
    have l : ∀ cs, (backwards c cs).length = 4 := fun cs => by simp [backwards]
    have er : ∀ i ≤ nf, ((nf - i : ℕ) : ℝ) / nf = 1 - (i : ℝ) / nf := by
      intro i hi
      rw [Nat.cast_sub hi]; field_simp
    interval_cases c
    · refine .inl ⟨grid_back _ _ _ fun i hi j hj => ?_, grid_back _ _ _ fun i hi j hj => ?_⟩
      all_goals
        obtain ⟨a1, a2⟩ := unit_div nf i hnf hi
        obtain ⟨b1, b2⟩ := unit_div nf j hnf hj
        rw [er i hi]
      · rw [front_value f0' e0' (l _) hA' a1 a2 b1 b2, front_value f0 e0 (hlen _ m0) hA (by linarith) (by linarith) b1 b2]
        simp only [okv, sub_sub_cancel, sub_zero, sub_self, Nat.zero_add, Nat.sub_zero, Nat.reduceAdd, Nat.reduceSub, Nat.reduceMod]
        ext <;> simp [Coons.blend] <;> ring
      · rw [rear_value f1' e1' (l _) hB' a1 a2 b1 b2, rear_value f1 e1 (hlen _ m1) hB (by linarith) (by linarith) b1 b2]
        simp only [okv, sub_sub_cancel, sub_zero, sub_self, Nat.zero_add, Nat.sub_zero, Nat.reduceAdd, Nat.reduceSub, Nat.reduceMod]
        ext <;> simp [Coons.blend] <;> ring
    · refine .inl ⟨grid_cross _ _ _ fun i hi j hj => ?_, grid_swap _ _ _ fun i hi j hj => ?_⟩
      all_goals
        obtain ⟨a1, a2⟩ := unit_div nf i hnf hi
        obtain ⟨b1, b2⟩ := unit_div nf j hnf hj
        try rw [er i hi, er j hj]
      · rw [front_value f0' e0' (l _) hA' a1 a2 b1 b2, front_value f0 e0 (hlen _ m0) hA (by linarith) (by linarith) (by linarith) (by linarith)]
        simp only [okv, sub_sub_cancel, sub_zero, sub_self, Nat.zero_add, Nat.sub_zero, Nat.reduceAdd, Nat.reduceSub, Nat.reduceMod, A1, A2, A3, A4]
        ext <;> simp [Coons.blend] <;> ring
      · rw [rear_value f1' e1' (l _) hB' a1 a2 b1 b2, rear_value f1 e1 (hlen _ m1) hB (by linarith) (by linarith) (by linarith) (by linarith)]
        simp only [okv, sub_sub_cancel, sub_zero, sub_self, Nat.zero_add, Nat.sub_zero, Nat.reduceAdd, Nat.reduceSub, Nat.reduceMod, B1, B2, B3, B4]
        ext <;> simp [Coons.blend] <;> ring
    · refine .inl ⟨grid_back' _ _ _ fun i hi j hj => ?_, grid_back' _ _ _ fun i hi j hj => ?_⟩
      all_goals
        obtain ⟨a1, a2⟩ := unit_div nf i hnf hi
        obtain ⟨b1, b2⟩ := unit_div nf j hnf hj
        rw [er j hj]
      · rw [front_value f0' e0' (l _) hA' a1 a2 b1 b2, front_value f0 e0 (hlen _ m0) hA a1 a2 (by linarith) (by linarith)]
        simp only [okv, sub_sub_cancel, sub_zero, sub_self, Nat.zero_add, Nat.sub_zero, Nat.reduceAdd, Nat.reduceSub, Nat.reduceMod, A1, A2, A3, A4]
        ext <;> simp [Coons.blend] <;> ring
      · rw [rear_value f1' e1' (l _) hB' a1 a2 b1 b2, rear_value f1 e1 (hlen _ m1) hB a1 a2 (by linarith) (by linarith)]
        simp only [okv, sub_sub_cancel, sub_zero, sub_self, Nat.zero_add, Nat.sub_zero, Nat.reduceAdd, Nat.reduceSub, Nat.reduceMod, B1, B2, B3, B4]
        ext <;> simp [Coons.blend] <;> ring
    · refine .inl ⟨grid_swap _ _ _ fun i hi j hj => ?_, grid_cross _ _ _ fun i hi j hj => ?_⟩
      all_goals
        obtain ⟨a1, a2⟩ := unit_div nf i hnf hi
        obtain ⟨b1, b2⟩ := unit_div nf j hnf hj
        try rw [er i hi, er j hj]
      · rw [front_value f0' e0' (l _) hA' a1 a2 b1 b2, front_value f0 e0 (hlen _ m0) hA (by linarith) (by linarith) (by linarith) (by linarith)]
        simp only [okv, sub_sub_cancel, sub_zero, sub_self, Nat.zero_add, Nat.sub_zero, Nat.reduceAdd, Nat.reduceSub, Nat.reduceMod, A1, A2, A3, A4]
        ext <;> simp [Coons.blend] <;> ring
      · rw [rear_value f1' e1' (l _) hB' a1 a2 b1 b2, rear_value f1 e1 (hlen _ m1) hB (by linarith) (by linarith) (by linarith) (by linarith)]
        simp only [okv, sub_sub_cancel, sub_zero, sub_self, Nat.zero_add, Nat.sub_zero, Nat.reduceAdd, Nat.reduceSub, Nat.reduceMod, B1, B2, B3, B4]
        ext <;> simp [Coons.blend] <;> ring

end HV
