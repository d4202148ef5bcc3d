import Verif.Props.OneBody
import Verif.Props.SymmetricFalcon
import Verif.Lemmas.Moved
import Verif.Props.MirrorPair

/-!
# C154: moving a vehicle moves its mass properties with it
-/

namespace HV
open Spec Veh

namespace Spec

/-- The points are turned by the rotation matrix `m` and shifted by `t`. -/
def TurnsBy (A : V → V) (m : Matrix (Fin 3) (Fin 3) ℝ) : Prop :=
  m ∈ Matrix.specialOrthogonalGroup (Fin 3) ℝ ∧ ∃ t : Fin 3 → ℝ, ∀ p, toF (A p) = m.mulVec (toF p) + t

/-- The mass properties `q'` are those of the body with mass properties `q` after the motion `A`, which turns it by `m`: volume and mass are
the same, the centre is moved, and the tensor of inertia is turned. -/
structure MassMoved (A : V → V) (m : Matrix (Fin 3) (Fin 3) ℝ) (q q' : MassProps) : Prop where
  volume : q'.volume = q.volume
  mass : q'.mass = q.mass
  cog : q'.cog = A q.cog
  moi : Matrix.of q'.moi = m * Matrix.of q.moi * m.transpose

end Spec

/-! ## Moments of moved meshes -/

theorem coord_toF (v : V) (i : Fin 3) : coord v i = toF v i := rfl

/-- The linear map with the matrix `m`. -/
def linV (m : Matrix (Fin 3) (Fin 3) ℝ) (q : V) : V :=
  ⟨m 0 0 * q.x + m 0 1 * q.y + m 0 2 * q.z, m 1 0 * q.x + m 1 1 * q.y + m 1 2 * q.z, m 2 0 * q.x + m 2 1 * q.y + m 2 2 * q.z⟩

theorem coord_linV (m : Matrix (Fin 3) (Fin 3) ℝ) (q : V) (i : Fin 3) : coord (linV m q) i = ∑ k, m i k * coord q k := by
  fin_cases i <;> simp [linV, coord, Fin.sum_univ_three]

theorem det3_linV (m : Matrix (Fin 3) (Fin 3) ℝ) (hd : m.det = 1) (u v w : V) : det3 (linV m u) (linV m v) (linV m w) = det3 u v w := by
  rw [Matrix.det_fin_three] at hd
  have : det3 (linV m u) (linV m v) (linV m w) = (m 0 0 * m 1 1 * m 2 2 - m 0 0 * m 1 2 * m 2 1 - m 0 1 * m 1 0 * m 2 2 + m 0 1 * m 1 2 * m 2 0 +
      m 0 2 * m 1 0 * m 2 1 - m 0 2 * m 1 1 * m 2 0) * det3 u v w := by
    simp only [det3, linV]; ring
  rw [this, hd, one_mul]

theorem signedVolume_linV (m : Matrix (Fin 3) (Fin 3) ℝ) (hd : m.det = 1) (M : TriMesh ℝ) : signedVolume (mapVerts (linV m) M) = signedVolume M := by
  simp only [signedVolume, mapVerts, List.map_map, Function.comp_def, det3_linV m hd]

theorem sum_map_three (M : TriMesh ℝ) (c : Fin 3 → ℝ) (f : Fin 3 → Tri ℝ → ℝ) :
    (M.map fun t => ∑ k, c k * f k t).sum = ∑ k, c k * (M.map (f k)).sum := by
  induction M with
  | nil => simp
  | cons t M ih => simp only [List.map_cons, List.sum_cons, ih, mul_add, Finset.sum_add_distrib]

theorem firstMoment_linV (m : Matrix (Fin 3) (Fin 3) ℝ) (hd : m.det = 1) (M : TriMesh ℝ) (i : Fin 3) :
    coord (firstMoment (mapVerts (linV m) M)) i = ∑ k, m i k * coord (firstMoment M) k := by
  simp only [firstMoment_coord]
  rw [← sum_map_three M (m i) fun k t => det3 t.v0 t.v1 t.v2 / 6 * ((coord t.v0 k + coord t.v1 k + coord t.v2 k) / 4)]
  rw [mapVerts, List.map_map]
  congr 1
  apply List.map_congr_left
  intro t _
  simp only [Function.comp, det3_linV m hd, coord_linV, Fin.sum_univ_three]
  ring

theorem secondMoment_linV (m : Matrix (Fin 3) (Fin 3) ℝ) (hd : m.det = 1) (M : TriMesh ℝ) (i j : Fin 3) :
    secondMoment (mapVerts (linV m) M) i j = ∑ k, m i k * ∑ l, m j l * secondMoment M k l := by
  have e : ∀ k, (∑ l, m j l * secondMoment M k l) = (M.map fun t => ∑ l, m j l * (det3 t.v0 t.v1 t.v2 / 6 / 20 * (coord t.v0 k * coord t.v0 l +
      coord t.v1 k * coord t.v1 l + coord t.v2 k * coord t.v2 l + (coord t.v0 k + coord t.v1 k + coord t.v2 k) * (coord t.v0 l + coord t.v1 l + coord t.v2 l)))).sum :=
    fun k => (sum_map_three M (m j) _).symm
  simp only [e]
  rw [← sum_map_three M (m i)]
  unfold secondMoment
  rw [mapVerts, List.map_map]
  congr 1
  apply List.map_congr_left
  intro t _
  simp only [Function.comp, det3_linV m hd, coord_linV, Fin.sum_univ_three]
  ring

/-- The shift by `t`. -/
def shiftV (t : Fin 3 → ℝ) (q : V) : V := ⟨q.x + t 0, q.y + t 1, q.z + t 2⟩

theorem coord_shiftV (t : Fin 3 → ℝ) (q : V) (i : Fin 3) : coord (shiftV t q) i = coord q i + t i := by
  fin_cases i <;> simp [shiftV, coord]

/-- `t · (u × v)`. -/
def tripleWith (t : Fin 3 → ℝ) (u v : V) : ℝ := t 0 * (u.y * v.z - u.z * v.y) + t 1 * (u.z * v.x - u.x * v.z) + t 2 * (u.x * v.y - u.y * v.x)

theorem det3_shiftV (t : Fin 3 → ℝ) (u v w : V) :
    det3 (shiftV t u) (shiftV t v) (shiftV t w) = det3 u v w + tripleWith t u v + tripleWith t v w + tripleWith t w u := by
  simp only [det3, shiftV, tripleWith]; ring

/-- The expansion of `t` in `u`, `v`, `w`. -/
theorem expand_triple (t : Fin 3 → ℝ) (u v w : V) (i : Fin 3) :
    t i * det3 u v w = coord w i * tripleWith t u v + coord u i * tripleWith t v w + coord v i * tripleWith t w u := by
  fin_cases i <;> simp [coord, tripleWith, det3] <;> ring

theorem tripleWith_anti (t : Fin 3 → ℝ) (u v : V) : tripleWith t v u = -tripleWith t u v := by
  simp only [tripleWith]; ring

theorem signedVolume_shiftV {M : TriMesh ℝ} (h : Closed M) (t : Fin 3 → ℝ) : signedVolume (mapVerts (shiftV t) M) = signedVolume M := by
  simp only [signedVolume, mapVerts, List.map_map]
  refine closed_sum h (φ := fun u v => tripleWith t u v / 6) (fun a b => by beta_reduce; rw [tripleWith_anti]; ring) fun s => ?_
  simp only [Function.comp, det3_shiftV]
  ring

theorem firstMoment_shiftV {M : TriMesh ℝ} (h : Closed M) (t : Fin 3 → ℝ) (i : Fin 3) :
    coord (firstMoment (mapVerts (shiftV t) M)) i = coord (firstMoment M) i + signedVolume M * t i := by
  have e : coord (firstMoment M) i + signedVolume M * t i =
      (M.map fun s => det3 s.v0 s.v1 s.v2 / 6 * ((coord s.v0 i + coord s.v1 i + coord s.v2 i) / 4) + det3 s.v0 s.v1 s.v2 / 6 * t i).sum := by
    rw [List.sum_map_add, List.sum_map_mul_right, firstMoment_coord, signedVolume]
  rw [e, firstMoment_coord, mapVerts, List.map_map]
  refine closed_sum h (φ := fun u v => tripleWith t u v * (coord u i + coord v i + 3 * t i) / 24) (fun a b => by beta_reduce; rw [tripleWith_anti]; ring) fun s => ?_
  simp only [Function.comp, det3_shiftV, coord_shiftV]
  linear_combination (1 / 24) * (-expand_triple t s.v0 s.v1 s.v2 i)

theorem secondMoment_shiftV {M : TriMesh ℝ} (h : Closed M) (t : Fin 3 → ℝ) (i j : Fin 3) :
    secondMoment (mapVerts (shiftV t) M) i j = secondMoment M i j + t i * coord (firstMoment M) j + t j * coord (firstMoment M) i +
      signedVolume M * (t i * t j) := by
  have e : secondMoment M i j + t i * coord (firstMoment M) j + t j * coord (firstMoment M) i + signedVolume M * (t i * t j) =
      (M.map fun s => det3 s.v0 s.v1 s.v2 / 6 / 20 * (coord s.v0 i * coord s.v0 j + coord s.v1 i * coord s.v1 j + coord s.v2 i * coord s.v2 j +
        (coord s.v0 i + coord s.v1 i + coord s.v2 i) * (coord s.v0 j + coord s.v1 j + coord s.v2 j)) +
        t i * (det3 s.v0 s.v1 s.v2 / 6 * ((coord s.v0 j + coord s.v1 j + coord s.v2 j) / 4)) +
        t j * (det3 s.v0 s.v1 s.v2 / 6 * ((coord s.v0 i + coord s.v1 i + coord s.v2 i) / 4)) + det3 s.v0 s.v1 s.v2 / 6 * (t i * t j)).sum := by
    rw [List.sum_map_add, List.sum_map_add, List.sum_map_add, List.sum_map_mul_right, List.sum_map_mul_left, List.sum_map_mul_left,
      firstMoment_coord, firstMoment_coord, signedVolume]
    rfl
  rw [e]
  unfold secondMoment
  rw [mapVerts, List.map_map]
  refine closed_sum h (φ := fun u v => tripleWith t u v * (coord u i * coord u j + coord v i * coord v j + (coord u i + coord v i) * (coord u j + coord v j) +
    4 * (t i * (coord u j + coord v j) + t j * (coord u i + coord v i)) + 12 * (t i * t j)) / 120) (fun a b => by beta_reduce; rw [tripleWith_anti]; ring) fun s => ?_
  simp only [Function.comp, det3_shiftV, coord_shiftV]
  linear_combination (-1 / 120) * ((coord s.v0 j + coord s.v1 j + coord s.v2 j) + 4 * t j) * expand_triple t s.v0 s.v1 s.v2 i +
    (-1 / 120) * ((coord s.v0 i + coord s.v1 i + coord s.v2 i) + 4 * t i) * expand_triple t s.v0 s.v1 s.v2 j

theorem mapVerts_comp (f g : V → V) (M : TriMesh ℝ) : mapVerts (fun p => f (g p)) M = mapVerts f (mapVerts g M) := by
  simp [mapVerts]

theorem coord_ext {u v : V} (h : ∀ i, coord u i = coord v i) : u = v := by
  have h0 := h 0
  have h1 := h 1
  have h2 := h 2
  simp [coord] at h0 h1 h2
  ext <;> assumption

theorem turnsBy_split {A : V → V} {m : Matrix (Fin 3) (Fin 3) ℝ} {t : Fin 3 → ℝ} (h : ∀ p, toF (A p) = m.mulVec (toF p) + t) :
    A = fun p => shiftV t (linV m p) := by
  funext p
  rw [motion_coords A m t h]
  rfl

theorem coord_centroid (M : TriMesh ℝ) (i : Fin 3) : coord (centroid M) i = coord (firstMoment M) i / signedVolume M := by
  unfold centroid
  rw [coord_mul]
  ring

/-- The moments of a moved closed mesh: the volume stays, the centre is moved and the second moments about the centre are turned. -/
theorem moments_turnsBy {A : V → V} {m : Matrix (Fin 3) (Fin 3) ℝ} (hA : TurnsBy A m) {M : TriMesh ℝ} (h : Closed M) :
    signedVolume (mapVerts A M) = signedVolume M ∧ (signedVolume M ≠ 0 → centroid (mapVerts A M) = A (centroid M) ∧
      ∀ i j, secondMoment (mapVerts A M) i j - signedVolume M * (coord (centroid (mapVerts A M)) i * coord (centroid (mapVerts A M)) j) =
        ∑ k, m i k * ∑ l, m j l * (secondMoment M k l - signedVolume M * (coord (centroid M) k * coord (centroid M) l))) := by
  obtain ⟨hm, t, ht⟩ := hA
  have hd : m.det = 1 := (Matrix.mem_specialOrthogonalGroup_iff.1 hm).2
  have hc := closed_mapVerts (linV m) M h
  have hv : signedVolume (mapVerts A M) = signedVolume M := by
    rw [turnsBy_split ht, mapVerts_comp, signedVolume_shiftV hc, signedVolume_linV m hd]
  refine ⟨hv, fun h0 => ?_⟩
  have hF : ∀ k, coord (firstMoment M) k = signedVolume M * coord (centroid M) k := by
    intro k; rw [coord_centroid]; field_simp
  have hC : ∀ i, coord (centroid (mapVerts A M)) i = (∑ k, m i k * coord (centroid M) k) + t i := by
    intro i
    rw [coord_centroid, hv, turnsBy_split ht, mapVerts_comp, firstMoment_shiftV hc, firstMoment_linV m hd, signedVolume_linV m hd]
    simp only [hF, Fin.sum_univ_three]
    field_simp
  refine ⟨coord_ext fun i => ?_, fun i j => ?_⟩
  · rw [hC, turnsBy_split ht, coord_shiftV, coord_linV]
  · rw [hC, hC, turnsBy_split ht, mapVerts_comp, secondMoment_shiftV hc, secondMoment_linV m hd, firstMoment_linV m hd, firstMoment_linV m hd,
      signedVolume_linV m hd]
    simp only [hF, Fin.sum_univ_three]
    ring

/-! ## One component -/

theorem inertiaOf_matrix (S : Fin 3 → Fin 3 → ℝ) (ρ v : ℝ) (c : V) : Matrix.of (inertiaOf S ρ v c) =
    ρ • ((Matrix.of fun i j => S i j - v * (coord c i * coord c j)).trace • (1 : Matrix (Fin 3) (Fin 3) ℝ) -
      Matrix.of fun i j => S i j - v * (coord c i * coord c j)) := by
  ext i j
  simp only [Matrix.of_apply, Matrix.smul_apply, Matrix.sub_apply, Matrix.trace, Matrix.diag, Fin.sum_univ_three, Matrix.one_apply, smul_eq_mul, inertiaOf]
  split_ifs with hij
  · simp [coord]; ring
  · ring

theorem turned_inertia {m : Matrix (Fin 3) (Fin 3) ℝ} (hm : m ∈ Matrix.specialOrthogonalGroup (Fin 3) ℝ) (ρ : ℝ) (C : Matrix (Fin 3) (Fin 3) ℝ) :
    ρ • ((m * C * m.transpose).trace • (1 : Matrix (Fin 3) (Fin 3) ℝ) - m * C * m.transpose) =
      m * (ρ • (C.trace • (1 : Matrix (Fin 3) (Fin 3) ℝ) - C)) * m.transpose := by
  have ho := (Matrix.mem_specialOrthogonalGroup_iff.1 hm).1
  have h1 : m * m.transpose = 1 := (Matrix.mem_orthogonalGroup_iff (Fin 3) ℝ).1 ho
  have h2 : m.transpose * m = 1 := (Matrix.mem_orthogonalGroup_iff' (Fin 3) ℝ).1 ho
  have ht : (m * C * m.transpose).trace = C.trace := by
    rw [Matrix.mul_assoc, Matrix.trace_mul_comm, Matrix.mul_assoc, h2, Matrix.mul_one]
  rw [ht, Matrix.mul_smul, Matrix.smul_mul, Matrix.mul_sub, Matrix.sub_mul, Matrix.mul_smul, Matrix.smul_mul, Matrix.mul_one, h1]

/-- C154 for one component: if its mesh is closed, does not enclose volume zero, and is moved by a rigid motion, then volume and mass reported
stay as they were, the centre of gravity is moved and the tensor of inertia is turned. -/
theorem C154_component (lib : Lib) (hl : NumpyStlInertia lib) (A : V → V) (m : Matrix (Fin 3) (Fin 3) ℝ) (hA : TurnsBy A m) (M M' : StlMesh)
    (hM : Closed M.tris) (h0 : signedVolume M.tris ≠ 0) (hM' : M'.tris = mapVerts A M.tris) (ρ : ℝ) (q q' : MassProps)
    (h : lib.massProps M ρ = .ok q) (h' : lib.massProps M' ρ = .ok q') : MassMoved A m q q' := by
  obtain ⟨k1, k2⟩ := moments_turnsBy hA hM
  obtain ⟨k2, k3⟩ := k2 h0
  have hc' : Closed M'.tris := by rw [hM']; exact closed_mapVerts A _ hM
  have hv' : signedVolume M'.tris = signedVolume M.tris := by rw [hM', k1]
  have h0' : signedVolume M'.tris ≠ 0 := by rw [hv']; exact h0
  obtain ⟨a1, a2, a3⟩ := C111_component lib hl.toNumpyStl M hM ρ q h
  obtain ⟨b1, b2, b3⟩ := C111_component lib hl.toNumpyStl M' hc' ρ q' h'
  have i1 : q.moi = inertiaOf (secondMoment M.tris) ρ (signedVolume M.tris) (centroid M.tris) := by
    funext i j; exact C128_inertia lib hl M hM ρ q h h0 i j
  have i2 : q'.moi = inertiaOf (secondMoment M'.tris) ρ (signedVolume M'.tris) (centroid M'.tris) := by
    funext i j; exact C128_inertia lib hl M' hc' ρ q' h' h0' i j
  refine ⟨by rw [a1, b1, hv'], by rw [a2, b2, hv'], by rw [a3 h0, b3 h0', hM', k2], ?_⟩
  rw [i1, i2, inertiaOf_matrix, inertiaOf_matrix, ← turned_inertia hA.1]
  have e : (Matrix.of fun i j => secondMoment M'.tris i j - signedVolume M'.tris * (coord (centroid M'.tris) i * coord (centroid M'.tris) j)) =
      m * (Matrix.of fun i j => secondMoment M.tris i j - signedVolume M.tris * (coord (centroid M.tris) i * coord (centroid M.tris) j)) * m.transpose := by
    ext i j
    rw [Matrix.of_apply, hv', hM', k3]
    simp only [Matrix.mul_apply, Matrix.of_apply, Matrix.transpose_apply, Fin.sum_univ_three]
    ring
  rw [e]

/-! ## The vehicle -/

namespace Spec

/-- The library also computes areas as numpy-stl does. -/
structure NumpyStlArea (lib : Lib) : Prop extends NumpyStlInertia lib where
  area : ∀ M, lib.area M = surfaceArea M.tris

/-- The analysis `a'` is that of the vehicle analysed as `a` after the motion `A`, which turns it by `m`; the inertia of the vehicle apart. -/
structure AnalysisMoved (A : V → V) (m : Matrix (Fin 3) (Fin 3) ℝ) (a a' : Analysis) : Prop where
  components : List.Forall₂ (fun q q' => q'.1 = q.1 ∧ q'.2.area = q.2.area ∧ MassMoved A m q.2.props q'.2.props) a.components a'.components
  volume : a'.volume = a.volume
  mass : a'.mass = a.mass
  area : a'.area = a.area
  cog : a'.cog = a.cog.map A

/-- A quarter turn about the `x`-axis. -/
def quarterX : Matrix (Fin 3) (Fin 3) ℝ := !![1, 0, 0; 0, 0, -1; 0, 1, 0]

/-- The component has a closed mesh that does not enclose volume zero. -/
def HasSolid (c : Comp) : Prop := ∃ M, MeshIs c M ∧ Closed M ∧ signedVolume M ≠ 0

end Spec

theorem assessed_moved (lib : Lib) (hl : NumpyStlArea lib) (dens : Dict String ℝ) (A : V → V) (m : Matrix (Fin 3) (Fin 3) ℝ) (hA : TurnsBy A m)
    (h h' : Heap) (l : List (String × ℕ)) (hs : ∀ e ∈ l, HasSolid (h e.2) ∧ ∀ M, MeshIs (h e.2) M → MeshIs (h' e.2) (mapVerts A M))
    (ps ps' : List (String × CompProps)) (h1 : List.Forall₂ (AssessedAs lib dens h) l ps) (h2 : List.Forall₂ (AssessedAs lib dens h') l ps') :
    List.Forall₂ (fun q q' => q'.1 = q.1 ∧ q'.2.area = q.2.area ∧ MassMoved A m q.2.props q'.2.props) ps ps' := by
  induction h1 generalizing ps' with
  | nil => cases h2; exact .nil
  | cons k1 _ ih =>
    cases h2 with
    | cons k2 k3 =>
      refine .cons ?_ (ih (fun e he => hs e (List.mem_cons_of_mem _ he)) _ k3)
      obtain ⟨n1, M, c, ρ, m1, d1, p1, a1⟩ := k1
      obtain ⟨n2, M', c', ρ', m2, d2, p2, a2⟩ := k2
      obtain ⟨⟨N, hN, cN, vN⟩, hmove⟩ := hs _ List.mem_cons_self
      have e1 := meshIs_unique hN ⟨M, c, m1, rfl⟩
      subst e1
      have e2 := meshIs_unique (hmove _ hN) ⟨M', c', m2, rfl⟩
      rw [d1] at d2
      cases d2
      refine ⟨by rw [n1, n2], ?_, C154_component lib hl.toNumpyStlInertia A m hA M M' cN vN e2.symm ρ _ _ p1 p2⟩
      rw [a1, a2, hl.area, hl.area, ← e2]
      exact surfaceArea_motion A ⟨m, hA.2.choose, hA.1, hA.2.choose_spec⟩ _

/-! ### The summary -/

/-- The properties of a component before and after the motion. -/
def PartMoved (A : V → V) (m : Matrix (Fin 3) (Fin 3) ℝ) (q q' : String × CompProps) : Prop :=
  q'.1 = q.1 ∧ q'.2.area = q.2.area ∧ MassMoved A m q.2.props q'.2.props

theorem forall₂_sum {α : Type} {R : α → α → Prop} {l l' : List α} (h : List.Forall₂ R l l') (f g : α → ℝ) (hf : ∀ a b, R a b → f b = g a) :
    (l'.map f).sum = (l.map g).sum := by
  induction h with
  | nil => rfl
  | cons k _ ih => simp only [List.map_cons, List.sum_cons, ih, hf _ _ k]

theorem coord_turned {A : V → V} {m : Matrix (Fin 3) (Fin 3) ℝ} (hA : TurnsBy A m) (p q : V) (i : Fin 3) :
    coord (A p - A q) i = ∑ k, m i k * coord (p - q) k := by
  obtain ⟨-, t, ht⟩ := hA
  rw [turnsBy_split ht]
  have e : ∀ (u v : V) (i : Fin 3), coord (u - v) i = coord u i - coord v i := by intro u v i; fin_cases i <;> simp [coord]
  simp only [e, coord_shiftV, coord_linV, Fin.sum_univ_three]
  ring

theorem weightedMean_turnsBy {A : V → V} {m : Matrix (Fin 3) (Fin 3) ℝ} (hA : TurnsBy A m) (l : List (ℝ × V)) (h : (l.map Prod.fst).sum ≠ 0) :
    weightedMean (l.map fun e => (e.1, A e.2)) = A (weightedMean l) := by
  obtain ⟨-, t, ht⟩ := hA
  refine coord_ext fun i => ?_
  rw [turnsBy_split ht]
  simp only [coord_weightedMean, coord_shiftV, coord_linV, List.map_map, Function.comp_def]
  have e : (l.map fun e => e.1 * ((∑ k, m i k * coord e.2 k) + t i)).sum =
      (∑ k, m i k * (l.map fun e => e.1 * coord e.2 k).sum) + t i * (l.map Prod.fst).sum := by
    clear h
    induction l with
    | nil => simp
    | cons a l ih =>
      simp only [List.map_cons, List.sum_cons, ih]
      simp only [Fin.sum_univ_three]
      ring
  rw [e]
  simp only [Fin.sum_univ_three]
  have : (l.map fun e : ℝ × V => e.1).sum ≠ 0 := h
  field_simp

/-- The sum of the tensors of the components, and what is added for their distances. -/
def tensorSum (l : List (String × CompProps)) (i j : Fin 3) : ℝ := (l.map fun q => q.2.props.moi i j).sum
def spreadSq (l : List (String × CompProps)) (g : V) (j : Fin 3) : ℝ := (l.map fun q => q.2.props.mass * coord (q.2.props.cog - g) j ^ 2).sum

theorem compositeMoi_split (l : List (String × CompProps)) (g : V) (i j : Fin 3) : compositeMoi l g i j = tensorSum l i j + spreadSq l g j := by
  rw [moi_sum, tensorSum, spreadSq, ← List.sum_map_add]
  congr 1

theorem tensorSum_turned {A : V → V} {m : Matrix (Fin 3) (Fin 3) ℝ} {l l' : List (String × CompProps)} (h : List.Forall₂ (PartMoved A m) l l') :
    Matrix.of (tensorSum l') = m * Matrix.of (tensorSum l) * m.transpose := by
  induction h with
  | nil => ext i j; simp [tensorSum, Matrix.mul_apply]
  | @cons q q' l l' k _ ih =>
    have e : ∀ (q : String × CompProps) l, Matrix.of (tensorSum (q :: l)) = Matrix.of q.2.props.moi + Matrix.of (tensorSum l) := by
      intro q l; ext i j; simp [tensorSum]
    rw [e, e, ih, k.2.2.moi, Matrix.mul_add, Matrix.add_mul]

theorem spreadSq_turned {A : V → V} {m : Matrix (Fin 3) (Fin 3) ℝ} (hA : TurnsBy A m) {l l' : List (String × CompProps)}
    (h : List.Forall₂ (PartMoved A m) l l') (g : V) (j : Fin 3) :
    spreadSq l' (A g) j = (l.map fun q => q.2.props.mass * (∑ k, m j k * coord (q.2.props.cog - g) k) ^ 2).sum := by
  refine forall₂_sum h _ _ fun q q' k => ?_
  rw [k.2.2.mass, k.2.2.cog, coord_turned hA]

theorem summary_moved {A : V → V} {m : Matrix (Fin 3) (Fin 3) ℝ} (hA : TurnsBy A m) (l l' : List (String × CompProps)) (a a' : Analysis)
    (h : summarise l = .ok a) (h' : summarise l' = .ok a') (hF : List.Forall₂ (PartMoved A m) l l') :
    AnalysisMoved A m a a' ∧ (a.mass ≠ 0 → ∃ g, a.cog = some g ∧ a.moi = some (compositeMoi l g) ∧ a'.moi = some (compositeMoi l' (A g))) := by
  obtain ⟨c1, -, c2, c3, c4, c5, c6⟩ := summarise_ok l a h
  obtain ⟨d1, -, d2, d3, d4, d5, d6⟩ := summarise_ok l' a' h'
  have hm : a'.mass = a.mass := by rw [c3, d3]; exact forall₂_sum hF _ _ fun q q' k => k.2.2.mass
  have hcog : a'.cog = a.cog.map A := by
    by_cases h0 : a.mass = 0
    · rw [(c5 h0).1, (d5 (hm.trans h0)).1]; rfl
    · have h0' : a'.mass ≠ 0 := by rw [hm]; exact h0
      rw [cog_mean l a h h0, cog_mean l' a' h' h0']
      have e : masses a' = (masses a).map fun e => (e.1, A e.2) := by
        unfold masses
        rw [c1, d1]
        clear h h' c2 c3 c4 c5 c6 d2 d3 d4 d5 d6 c1 d1
        induction hF with
        | nil => rfl
        | cons k _ ih => simp only [List.map_cons, ih, k.2.2.mass, k.2.2.cog]
      rw [e, weightedMean_turnsBy hA]
      · rfl
      · rw [c3, ← c1] at h0
        simpa [masses, Function.comp_def] using h0
  refine ⟨⟨by rw [c1, d1]; exact hF, ?_, hm, ?_, hcog⟩, fun h0 => ?_⟩
  · rw [c2, d2]; exact forall₂_sum hF _ _ fun q q' k => k.2.2.volume
  · rw [c4, d4]; exact forall₂_sum hF _ _ fun q q' k => k.2.1
  · obtain ⟨g, e1, e2, -⟩ := c6 h0
    obtain ⟨g', e1', e2', -⟩ := d6 (by rw [hm]; exact h0)
    rw [e1, e1'] at hcog
    obtain rfl := Option.some.inj hcog
    exact ⟨g, e1, e2, e2'⟩

theorem quarter_entries (P : Fin 3 → Fin 3 → ℝ) :
    (quarterX * Matrix.of P * quarterX.transpose) 1 0 = -P 2 0 ∧
    (quarterX * Matrix.of P * quarterX.transpose) 0 1 = -P 0 2 ∧
    (quarterX * Matrix.of P * quarterX.transpose) 1 2 = -P 2 1 := by
  refine ⟨?_, ?_, ?_⟩ <;> simp only [Matrix.mul_apply, Fin.sum_univ_three, Matrix.transpose_apply] <;> simp [quarterX]

/-- The tensors of a vehicle before and after a motion. -/
theorem moi_moved {A : V → V} {m : Matrix (Fin 3) (Fin 3) ℝ} (hA : TurnsBy A m) (l l' : List (String × CompProps)) (a a' : Analysis)
    (h : summarise l = .ok a) (h' : summarise l' = .ok a') (hF : List.Forall₂ (PartMoved A m) l l') (h0 : a.mass ≠ 0) :
    ∃ I I' g, a.moi = some I ∧ a'.moi = some I' ∧ a.cog = some g ∧ (m = 1 → I' = I) ∧
      ((∀ q ∈ a.components, q.2.props.cog = g) → Matrix.of I' = m * Matrix.of I * m.transpose) ∧
      (m = quarterX → (∀ q ∈ a.components, 0 < q.2.props.mass) →
        (∃ q ∈ a.components, q.2.props.cog ≠ g) → Matrix.of I' ≠ m * Matrix.of I * m.transpose) := by
  obtain ⟨-, k⟩ := summary_moved hA l l' a a' h h' hF
  obtain ⟨g, k1, k2, k3⟩ := k h0
  have c1 := (summarise_ok l a h).1
  have hT := tensorSum_turned hF
  refine ⟨_, _, g, k2, k3, k1, ?_, ?_, ?_⟩
  · rintro rfl
    rw [Matrix.transpose_one, Matrix.one_mul, Matrix.mul_one] at hT
    have hT' : tensorSum l' = tensorSum l := Matrix.of.injective hT
    funext i j
    rw [compositeMoi_split, compositeMoi_split, hT', spreadSq_turned hA hF]
    congr 1
    unfold spreadSq
    congr 1
    apply List.map_congr_left
    intro q _
    congr 2
    simp [Matrix.one_apply]
  · intro hc
    rw [c1] at hc
    have z : ∀ (v : V) k, coord (v - v) k = 0 := by intro v k; fin_cases k <;> simp [coord]
    have s0 : ∀ j, spreadSq l g j = 0 := by
      intro j
      unfold spreadSq
      refine List.sum_eq_zero fun x hx => ?_
      obtain ⟨q, hq, rfl⟩ := List.mem_map.1 hx
      rw [hc q hq, z]; ring
    have s1 : ∀ j, spreadSq l' (A g) j = 0 := by
      intro j
      rw [spreadSq_turned hA hF]
      refine List.sum_eq_zero fun x hx => ?_
      obtain ⟨q, hq, rfl⟩ := List.mem_map.1 hx
      rw [hc q hq]
      simp [z]
    have e1 : compositeMoi l g = tensorSum l := by funext i j; rw [compositeMoi_split, s0, add_zero]
    have e2 : compositeMoi l' (A g) = tensorSum l' := by funext i j; rw [compositeMoi_split, s1, add_zero]
    rw [e1, e2, hT]
  · intro hmm hpos ⟨q, hq, hne⟩ heq
    rw [c1] at hpos hq
    have ex : ∀ i j, compositeMoi l' (A g) i j = (m * Matrix.of (compositeMoi l g) * m.transpose) i j := fun i j => by rw [← heq]; rfl
    have et : ∀ i j, tensorSum l' i j = (m * Matrix.of (tensorSum l) * m.transpose) i j := fun i j => by rw [← hT]; rfl
    have hs : ∀ i, spreadSq l' (A g) i = spreadSq l g (![0, 2, 1] i) := by
      intro i
      rw [spreadSq_turned hA hF, hmm]
      unfold spreadSq
      congr 1
      apply List.map_congr_left
      intro q _
      fin_cases i <;> simp [Fin.sum_univ_three, quarterX]
    have a10 := ex 1 0
    have a01 := ex 0 1
    have a12 := ex 1 2
    have b10 := et 1 0
    have b01 := et 0 1
    have b12 := et 1 2
    rw [compositeMoi_split, hs, hmm] at a10 a01 a12
    rw [hmm] at b10 b01 b12
    rw [(quarter_entries _).1] at a10 b10
    rw [(quarter_entries _).2.1] at a01 b01
    rw [(quarter_entries _).2.2] at a12 b12
    rw [compositeMoi_split] at a10 a01 a12
    simp only [Matrix.cons_val] at a10 a01 a12
    have hz : ∀ k, spreadSq l g k = 0 := by
      intro k; fin_cases k <;> simp <;> linarith
    refine hne (coord_ext fun k => ?_)
    have := sum_zero_of_nonneg _ (fun x hx => by
      obtain ⟨q, hq, rfl⟩ := List.mem_map.1 hx
      exact mul_nonneg (hpos q hq).le (sq_nonneg _)) (hz k) _ (List.mem_map.2 ⟨q, hq, rfl⟩)
    have h2 : coord (q.2.props.cog - g) k = 0 := by
      rcases mul_eq_zero.1 this with h | h
      · exact absurd h (hpos q hq).ne'
      · exact pow_eq_zero_iff (two_ne_zero) |>.1 h
    have e : coord (q.2.props.cog - g) k = coord q.2.props.cog k - coord g k := by fin_cases k <;> simp [coord]
    linarith

/-! ### Transforming the vehicle -/

theorem applyTransf_caches (t : Transf) (c : Comp) (s : Option (Dict String (TriMesh ℝ))) (m : Option StlMesh) :
    ({ c with surfaces := s, mesh_ := m } : Comp).applyTransf t = (c.applyTransf t).map fun c => { c with surfaces := s, mesh_ := m } := by
  cases t with
  | rotate => rfl
  | translate => rfl
  | unknown => rfl
  | reflect axis =>
    simp only [Comp.applyTransf, Comp.reflect, Except.map]
    repeat' split
    all_goals first | rfl | simp_all
  | curve =>
    simp only [Comp.applyTransf, Comp.curve, Except.map]
    repeat' split
    all_goals first | rfl | simp_all
  | applyModifier =>
    simp only [Comp.applyTransf, Comp.applyModifier, Except.map]
    repeat' split
    all_goals first | rfl | simp_all

theorem applyAll_caches (ts : List Transf) (c c' : Comp) (s : Option (Dict String (TriMesh ℝ))) (m : Option StlMesh) (h : c.applyAll ts = (.ok (), c')) :
    ({ c with surfaces := s, mesh_ := m } : Comp).applyAll ts = (.ok (), { c' with surfaces := s, mesh_ := m }) := by
  induction ts generalizing c with
  | nil => cases h; rfl
  | cons t ts ih =>
    unfold Comp.applyAll at h ⊢
    rw [applyTransf_caches]
    rcases ht : c.applyTransf t with e | d
    · rw [ht] at h; simp at h
    · rw [ht] at h
      exact ih d h

theorem transformAll_caches (ts : List Transf) (ks : List ℕ) (hn : ks.Nodup) (h g h' : Heap)
    (hg : ∀ k ∈ ks, ∃ s m, g k = { h k with surfaces := s, mesh_ := m }) (ht : transformAll h ts ks = (.ok (), h')) :
    ∃ g', transformAll g ts ks = (.ok (), g') ∧ (∀ k ∈ ks, g' k = h' k) ∧ ∀ k, k ∉ ks → g' k = g k ∧ h' k = h k := by
  induction ks generalizing h g with
  | nil => cases ht; exact ⟨g, rfl, by simp, fun _ _ => ⟨rfl, rfl⟩⟩
  | cons k0 ks ih =>
    obtain ⟨hk0, hn'⟩ := List.nodup_cons.1 hn
    unfold transformAll transformOne at ht ⊢
    obtain ⟨s, m, e⟩ := hg k0 (by simp)
    rcases hc : (h k0).applyAll ts with ⟨x | x, c⟩
    · rw [hc] at ht; simp at ht
    · rw [hc] at ht
      rw [e, applyAll_caches ts _ c s m hc]
      simp only at ht ⊢
      obtain ⟨g', i1, i2, i3⟩ := ih hn' (h.upd k0 { c with surfaces := none, mesh_ := none }) (g.upd k0 { c with surfaces := none, mesh_ := none })
        (by
          intro k hk
          have : k ≠ k0 := fun h => hk0 (h ▸ hk)
          rw [upd_ne _ _ _ _ this, upd_ne _ _ _ _ this]
          exact hg k (by simp [hk])) ht
      refine ⟨g', i1, ?_, ?_⟩
      · intro k hk
        rcases List.mem_cons.1 hk with rfl | hk
        · obtain ⟨a, b⟩ := i3 _ hk0
          rw [a, b, upd_self, upd_self]
        · exact i2 k hk
      · intro k hk
        rw [List.mem_cons, not_or] at hk
        obtain ⟨a, b⟩ := i3 k hk.2
        rw [a, b, upd_ne _ _ _ _ hk.1, upd_ne _ _ _ _ hk.1]
        exact ⟨rfl, rfl⟩

namespace Spec

/-- A generated vehicle all of whose named components are closed solids that have not been meshed yet. -/
structure ReadyVehicle (st : VState) : Prop where
  generated : st.veh.generated = true
  nodup : st.veh.components.Nodup
  named : ∀ e ∈ st.veh.named, e.2 ∈ st.veh.components
  unmeshed : ∀ e ∈ st.veh.named, ∃ n, 1 ≤ n ∧ Unmeshed n (st.heap e.2)
  solid : ∀ e ∈ st.veh.named, HasSolid (st.heap e.2)

end Spec

theorem analysed_state (lib : Lib) (depth : ℕ) (st st1 : VState) (dens : Dict String ℝ) (a : Analysis) (hg : st.veh.generated = true)
    (h : analyse lib (depth + 1) st dens = (.ok a, st1)) : SameBut st.heap st1.heap ∧ st1.veh = { st.veh with analysis := some a } := by
  rw [analyse_generated lib depth st dens hg] at h
  unfold analyseGenerated at h
  rcases hc : assessAll lib dens st.heap st.veh.named with ⟨x | l, g⟩
  · rw [hc] at h; simp at h
  · rw [hc] at h
    simp only at h
    rcases hs : summarise l with x | b
    · rw [hs] at h; simp at h
    · rw [hs] at h
      simp only [Prod.mk.injEq, Except.ok.injEq] at h
      obtain ⟨rfl, rfl⟩ := h
      exact ⟨assessAll_same lib dens st.heap _ _ _ (SameBut.refl _) l hc, rfl⟩

/-- Analysing, transforming and analysing again: the lists the results are computed from. -/
theorem transformed_analyses (lib : Lib) (hl : NumpyStlArea lib) (depth : ℕ) (st st1 : VState) (ts : TransfArg) (dens : Dict String ℝ) (a : Analysis)
    (hr : RigidList ts.toList) (hv : ReadyVehicle st) (h : analyse lib (depth + 1) st dens = (.ok a, st1)) :
    ∃ A st2, InTurn ts.toList A ∧ IsMotion A ∧ Veh.transform st1 ts = (.ok (), st2) ∧ st2.veh = st1.veh ∧
      (∀ e ∈ st.veh.named, ∀ M, MeshIs (st.heap e.2) M → MeshIs (st2.heap e.2) (mapVerts A M)) ∧
      ∀ m, TurnsBy A m → ∀ a' st3, analyse lib (depth + 1) st2 dens = (.ok a', st3) →
        ∃ l l', summarise l = .ok a ∧ summarise l' = .ok a' ∧ List.Forall₂ (PartMoved A m) l l' := by
  obtain ⟨A, hI, hA, st', t1, t2, t3⟩ := C117_transform_partial st ts hr hv.generated hv.nodup
  obtain ⟨s1, s2⟩ := analysed_state lib depth st st1 dens a hv.generated h
  have t1' : transformAll st.heap ts.toList st.veh.components = (.ok (), st'.heap) := by
    unfold Veh.transform at t1
    rw [if_pos hv.generated] at t1
    rcases hx : transformAll st.heap ts.toList st.veh.components with ⟨x | x, g⟩
    · rw [hx] at t1; simp at t1
    · rw [hx] at t1
      simp only [Prod.mk.injEq] at t1
      rw [← t1.2]
  obtain ⟨g', u1, u2, -⟩ := transformAll_caches ts.toList st.veh.components hv.nodup st.heap st1.heap st'.heap (fun k _ => (s1 k).1) t1'
  have e2 : Veh.transform st1 ts = (.ok (), ⟨g', st1.veh⟩) := by
    unfold Veh.transform
    rw [if_pos (by rw [s2]; exact hv.generated)]
    have : st1.veh.components = st.veh.components := by rw [s2]
    rw [this, u1]
  have hmv : ∀ e ∈ st.veh.named, ∀ M, MeshIs (st.heap e.2) M → MeshIs (g' e.2) (mapVerts A M) := by
    intro e he M hM
    obtain ⟨n, n1, hu⟩ := hv.unmeshed e he
    rw [u2 _ (hv.named e he)]
    exact (t3 _ (hv.named e he) n n1 hu).2 M hM
  refine ⟨A, ⟨g', st1.veh⟩, hI, hA, e2, rfl, hmv, fun m hm a' st3 h3 => ?_⟩
  rw [analyse_generated lib depth st dens hv.generated] at h
  rw [analyse_generated lib depth _ dens (by show st1.veh.generated = true; rw [s2]; exact hv.generated)] at h3
  obtain ⟨l, f1, f2⟩ := (analyseGenerated_ok lib st dens a).1 ⟨_, h⟩
  obtain ⟨l', f3, f4⟩ := (analyseGenerated_ok lib _ dens a').1 ⟨_, h3⟩
  have hnm : st1.veh.named = st.veh.named := by rw [s2]
  simp only [hnm] at f3
  exact ⟨l, l', f2, f4, assessed_moved lib hl dens A m hm st.heap g' _ (fun e he => ⟨hv.solid e he, hmv e he⟩) l l' f1 f3⟩

/-- C154: a generated vehicle is analysed, transformed by rotations and translations, and analysed again.  The transformations carry all points
along by one rigid motion `A`, and the second analysis reports the same volume, mass and area, the centre of gravity moved by `A`, and for every
named component the same volume, mass and area, the centre moved and the tensor of inertia turned.  For the vehicle, the tensor reported is the
same after a translation, and is turned if the centres of all the components coincide.  Missing: the tensor of vehicles with several components
that are turned (see `C154_inertia_violated`), vehicles to which a component has been added twice, and components whose meshes are not closed. -/
theorem C154_transform_partial (lib : Lib) (hl : NumpyStlArea lib) (depth : ℕ) (st st1 : VState) (ts : TransfArg) (dens : Dict String ℝ) (a : Analysis)
    (hr : RigidList ts.toList) (hv : ReadyVehicle st) (h : analyse lib (depth + 1) st dens = (.ok a, st1)) :
    ∃ A st2, InTurn ts.toList A ∧ IsMotion A ∧ Veh.transform st1 ts = (.ok (), st2) ∧
      ((∀ M ρ, ∃ q, lib.massProps M ρ = .ok q) → ∃ a' st3, analyse lib (depth + 1) st2 dens = (.ok a', st3)) ∧
      ∀ m, TurnsBy A m → ∀ a' st3, analyse lib (depth + 1) st2 dens = (.ok a', st3) →
        AnalysisMoved A m a a' ∧ (a.mass ≠ 0 → ∃ I I' g, a.moi = some I ∧ a'.moi = some I' ∧ a.cog = some g ∧ (m = 1 → I' = I) ∧
          ((∀ q ∈ a.components, q.2.props.cog = g) → Matrix.of I' = m * Matrix.of I * m.transpose)) := by
  obtain ⟨A, st2, b1, b2, b3, b4, b5, b6⟩ := transformed_analyses lib hl depth st st1 ts dens a hr hv h
  refine ⟨A, st2, b1, b2, b3, fun hlib => ?_, fun m hm a' st3 h3 => ?_⟩
  · obtain ⟨-, s2⟩ := analysed_state lib depth st st1 dens a hv.generated h
    rw [analyse_generated lib depth st dens hv.generated] at h
    obtain ⟨l, f1, f2⟩ := (analyseGenerated_ok lib st dens a).1 ⟨_, h⟩
    have hnm : st2.veh.named = st.veh.named := by rw [b4, s2]
    have hne := (summarise_ok l a f2).2.1
    refine analyse_succeeds lib hlib st2 dens depth (by rw [b4, s2]; exact hv.generated) ?_ ?_ ?_
    · rw [hnm]
      intro e
      rw [e] at f1
      cases f1
      exact hne rfl
    · rw [hnm]
      intro e he
      obtain ⟨M, hM, -⟩ := hv.solid e he
      obtain ⟨N, d, k, -⟩ := b5 e he M hM
      exact ⟨N, d, k⟩
    · rw [hnm]
      intro e he
      obtain ⟨q, -, -, -, -, ρ, -, k, -⟩ := exists_of_mem f1 he
      exact ⟨ρ, k⟩
  · obtain ⟨l, l', k1, k2, k3⟩ := b6 m hm a' st3 h3
    refine ⟨(summary_moved hm l l' a a' k1 k2 k3).1, fun h0 => ?_⟩
    obtain ⟨I, I', g, i1, i2, i3, i4, i5, -⟩ := moi_moved hm l l' a a' k1 k2 k3 h0
    exact ⟨I, I', g, i1, i2, i3, i4, i5⟩

/-- C154 is violated by the inertia of every vehicle of several components: after a quarter turn about the `x`-axis, the tensor reported for a
vehicle of components with positive masses is the turned one only if the centres of all the components coincide. -/
theorem C154_inertia_violated (lib : Lib) (hl : NumpyStlArea lib) (depth : ℕ) (st st1 : VState) (ts : TransfArg) (dens : Dict String ℝ) (a : Analysis)
    (hr : RigidList ts.toList) (hv : ReadyVehicle st) (h : analyse lib (depth + 1) st dens = (.ok a, st1))
    (hpos : ∀ q ∈ a.components, 0 < q.2.props.mass) (p q : String × CompProps) (hp : p ∈ a.components) (hq : q ∈ a.components)
    (hne : p.2.props.cog ≠ q.2.props.cog) :
    ∃ A st2, InTurn ts.toList A ∧ Veh.transform st1 ts = (.ok (), st2) ∧
      (TurnsBy A quarterX → ∀ a' st3, analyse lib (depth + 1) st2 dens = (.ok a', st3) →
        ∃ I I', a.moi = some I ∧ a'.moi = some I' ∧ Matrix.of I' ≠ quarterX * Matrix.of I * quarterX.transpose) := by
  obtain ⟨A, st2, b1, b2, b3, b4, b5, b6⟩ := transformed_analyses lib hl depth st st1 ts dens a hr hv h
  refine ⟨A, st2, b1, b3, fun hm a' st3 h3 => ?_⟩
  obtain ⟨l, l', k1, k2, k3⟩ := b6 _ hm a' st3 h3
  have h0 : a.mass ≠ 0 := by
    obtain ⟨c1, -, -, c2, -⟩ := summarise_ok l a k1
    rw [← c1] at c2
    intro e
    rw [e] at c2
    have := sum_zero_of_nonneg _ (fun x hx => by
      obtain ⟨q, hq, rfl⟩ := List.mem_map.1 hx
      exact (hpos q hq).le) c2.symm _ (List.mem_map.2 ⟨p, hp, rfl⟩)
    exact (hpos p hp).ne' this
  obtain ⟨I, I', g, i1, i2, i3, -, -, i6⟩ := moi_moved hm l l' a a' k1 k2 k3 h0
  refine ⟨I, I', i1, i2, i6 rfl hpos ?_⟩
  by_cases e : p.2.props.cog = g
  · exact ⟨q, hq, fun e' => hne (e.trans e'.symm)⟩
  · exact ⟨p, hp, e⟩

/-! ### Two parts next to each other -/

theorem quarter_turn (A : V → V) (h : InTurn [.rotate 90 "x"] A) : TurnsBy A quarterX := by
  obtain ⟨fs, hf, hA⟩ := h
  cases hf with
  | @cons _ f _ fs hf ht =>
    cases ht
    obtain ⟨i, hi, hr⟩ := hf
    have hi0 : i = 0 := by
      fin_cases i
      · rfl
      · rcases hi with h | h <;> simp at h
      · rcases hi with h | h <;> simp at h
    subst hi0
    have ht : (90 : ℝ) * Real.pi / 180 = Real.pi / 2 := by ring
    rw [ht] at hr
    refine ⟨?_, 0, fun p => ?_⟩
    · rw [Matrix.mem_specialOrthogonalGroup_iff, Matrix.mem_orthogonalGroup_iff]
      constructor
      · ext j k
        fin_cases j <;> fin_cases k <;> simp [quarterX, Matrix.mul_apply, Fin.sum_univ_three]
      · simp [quarterX, Matrix.det_fin_three]
    · rw [hA]
      show toF (f p) = _
      rw [hr]
      funext j
      simp only [Matrix.mulVec, dotProduct, Fin.sum_univ_three, Pi.add_apply, Pi.zero_apply]
      fin_cases j <;> simp [rodrigues_apply, cross_apply, toF, quarterX]

/-- The body and the part of `pairHeap`. -/
def twoOpts : List (ℕ × AddOpts) := [(0, { name := some "body" }), (1, { name := some "right" })]

/-- Two equal parts next to each other, generated: they meet the hypotheses of `C154_transform_partial`. -/
theorem two_parts (n : ℕ) (hn : 1 ≤ n) (lib : Lib) (depth : ℕ) :
    ∃ st st' B F, addAll ⟨pairHeap n, {}⟩ twoOpts = .ok st ∧ generate lib depth st = (.ok (), st') ∧ ReadyVehicle st' ∧
      st'.veh.named = [("body", 0), ("right", 1)] ∧ MeshIs (st'.heap 0) B ∧ MeshIs (st'.heap 1) F ∧ Closed B ∧ signedVolume B = 1 ∧
      Closed F ∧ signedVolume F = 1 ∧ (centroid B).z = 0 ∧ (centroid F).z = 2 ∧ F = mapVerts (fun p => ⟨p.x, p.y, p.z + 2⟩) B ∧
      ∃ g M d, generatePatches (pairHeap n) 0 = (.ok (), g) ∧ (g 0).mesh = (.ok M, d) ∧ M.tris = B := by
  obtain ⟨st, a1, a2, a3, a4⟩ := addAll_spec ⟨pairHeap n, {}⟩ twoOpts (by decide) (by
    intro e he
    have : (pairHeap n e.1).componenttype = "swept" := by unfold pairHeap; split <;> rfl
    show (pairHeap n e.1).componenttype ∈ _
    rw [this]
    simp [allowable])
  have b0 := a3 (0, { name := some "body" }) (by simp [twoOpts])
  have b1 := a3 (1, { name := some "right" }) (by simp [twoOpts])
  have e1 : pairHeap n 1 = Swept.comp (diamond 3 1) 4 true (.int n) none := if_neg (by norm_num)
  obtain ⟨g, M, d, g', M', d', p1, p2, p3, p4, p5, p6, p7, p8, p9, p10⟩ := pair_meshes n hn (pairHeap n) (pairHeap n) 0 1 rfl e1
  obtain ⟨g0, x0, M0, y0, q1, q2, q3, q4⟩ := plain_leaf (pairHeap n) 0 _ rfl n hn rfl rfl rfl rfl g M d p1 p2 st.heap 0 (by rw [b0]; rfl)
    (by rw [b0]; rfl) (by rw [b0]; rfl) (by rw [b0]; rfl) (by rw [b0]; rfl) (by rw [b0]; rfl) (by rw [b0]; rfl) (by rw [b0]; rfl)
    (by rw [b0]; rfl) (by rw [b0]; rfl)
  obtain ⟨g1, x1, M1, y1, r1, r2, r3, r4⟩ := plain_leaf (pairHeap n) 1 _ rfl n hn rfl rfl rfl rfl g' M' d' p3 p4 st.heap 1 (by rw [b1]; rfl)
    (by rw [b1]; rfl) (by rw [b1]; rfl) (by rw [b1]; rfl) (by rw [b1]; rfl) (by rw [b1]; rfl) (by rw [b1]; rfl) (by rw [b1]; rfl)
    (by rw [b1]; rfl) (by rw [b1]; rfl)
  have hcs : st.veh.components = [0, 1] := by rw [a2]; rfl
  have hch : ∀ k ∈ st.veh.components, (st.heap k).children = [] := by
    rw [hcs]
    intro k hk
    simp only [List.mem_cons, List.not_mem_nil, or_false] at hk
    rcases hk with rfl | rfl
    · unfold Comp.children; rw [b0]; rfl
    · unfold Comp.children; rw [b1]; rfl
  have u0 : Unmeshed n (st.heap 0) := ⟨by rw [b0]; rfl, by rw [b0]; rfl, by rw [b0]; rfl, by rw [b0]; exact List.nodup_nil, by rw [b0]; rfl⟩
  have u1 : Unmeshed n (st.heap 1) := ⟨by rw [b1]; rfl, by rw [b1]; rfl, by rw [b1]; rfl, by rw [b1]; exact List.nodup_nil, by rw [b1]; rfl⟩
  obtain ⟨st', t1, t2, t3⟩ := generate_parts lib depth st (by rw [a2]; rfl) (by rw [a2]; rfl) (by rw [a2]; rfl)
    (unshared_leaves _ _ (by rw [hcs]; decide) hch) (fun k c => Unmeshed n c ∧ MeshIs c (if k = 0 then M.tris else M'.tris)) (by
      intro k hk
      have hch := hch k hk
      rw [hcs] at hk
      simp only [List.mem_cons, List.not_mem_nil, or_false] at hk
      rcases hk with rfl | rfl
      · exact ⟨g0, x0, q1, q2, generated_unmeshed u0 (by rw [hch]; simp) q1 q2, M0, y0, q3, by rw [q4]; rfl⟩
      · exact ⟨g1, x1, r1, r2, generated_unmeshed u1 (by rw [hch]; simp) r1 r2, M1, y1, r3, by rw [r4]; rfl⟩)
  obtain ⟨v0, m0⟩ := t3 0 (by rw [hcs]; simp)
  obtain ⟨v1, m1⟩ := t3 1 (by rw [hcs]; simp)
  simp only [if_true] at m0
  simp only [one_ne_zero, if_false] at m1
  have hnamed : st'.veh.named = [("body", 0), ("right", 1)] := by rw [t2, a2]; rfl
  have hcs' : st'.veh.components = [0, 1] := by rw [t2]; exact hcs
  refine ⟨st, st', M.tris, M'.tris, a1, t1, ⟨by rw [t2], by rw [hcs']; decide, ?_, ?_, ?_⟩, hnamed, m0, m1, p5, p7, p9, p10, ?_, ?_, p8,
    g, M, d, p1, p2, rfl⟩
  · rw [hnamed, hcs']; decide
  · rw [hnamed]
    intro e he
    simp only [List.mem_cons, List.not_mem_nil, or_false] at he
    rcases he with rfl | rfl
    exacts [⟨n, hn, v0⟩, ⟨n, hn, v1⟩]
  · rw [hnamed]
    intro e he
    simp only [List.mem_cons, List.not_mem_nil, or_false] at he
    rcases he with rfl | rfl
    exacts [⟨_, m0, p5, by rw [p7]; norm_num⟩, ⟨_, m1, p9, by rw [p10]; norm_num⟩]
  · have e' : (firstMoment M.tris).z = 0 := firstMoment_mirror p6
    have := coord_centroid M.tris 2
    rw [p7] at this
    show coord _ 2 = 0
    rw [this]
    show (firstMoment M.tris).z / 1 = 0
    rw [e']; norm_num
  · have e := firstMoment_moved p5 2
    have e' : (firstMoment M.tris).z = 0 := firstMoment_mirror p6
    rw [← p8, p7, e'] at e
    have := coord_centroid M'.tris 2
    rw [p10] at this
    show coord _ 2 = 2
    rw [this]
    show (firstMoment M'.tris).z / 1 = 2
    rw [e]; norm_num

/-- C154 is violated: two equal parts next to each other, the body and the part at its right, are analysed, turned by 90 degrees about the
`x`-axis, and analysed again.  Whatever the densities, the tensor of inertia reported for the turned vehicle is not the turned tensor. -/
theorem C154_pair_violated (n : ℕ) (hn : 1 ≤ n) (lib : Lib) (hl : NumpyStlArea lib) (hlib : ∀ M ρ, ∃ q, lib.massProps M ρ = .ok q) (depth : ℕ)
    (ρ₀ ρ : ℝ) (h0 : 0 < ρ₀) (h1 : 0 < ρ) :
    ∃ st st' a st1 st2 a' st3 I I', addAll ⟨pairHeap n, {}⟩ twoOpts = .ok st ∧ generate lib depth st = (.ok (), st') ∧
      analyse lib (depth + 1) st' [("body", ρ₀), ("right", ρ)] = (.ok a, st1) ∧ Veh.transform st1 (.one (.rotate 90 "x")) = (.ok (), st2) ∧
      analyse lib (depth + 1) st2 [("body", ρ₀), ("right", ρ)] = (.ok a', st3) ∧ a.moi = some I ∧ a'.moi = some I' ∧
      Matrix.of I' ≠ quarterX * Matrix.of I * quarterX.transpose := by
  obtain ⟨st, st', B, F, k1, k2, k3, k4, k5, k6, k7, k8, k9, k10, k11, k12, -⟩ := two_parts n hn lib depth
  have hr : RigidList (TransfArg.one (.rotate 90 "x")).toList := by
    intro t ht
    simp only [TransfArg.toList, List.mem_cons, List.not_mem_nil, or_false] at ht
    subst ht
    exact ⟨.rotate _ (i := 0) (.inl rfl), trivial⟩
  obtain ⟨a, st1, ha⟩ := analyse_succeeds lib hlib st' [("body", ρ₀), ("right", ρ)] depth k3.generated (by rw [k4]; simp)
    (fun e he => by obtain ⟨M, ⟨N, d, hN, -⟩, -⟩ := k3.solid e he; exact ⟨N, d, hN⟩) (by
      rw [k4]
      intro e he
      simp only [List.mem_cons, List.not_mem_nil, or_false] at he
      rcases he with rfl | rfl
      · exact ⟨ρ₀, by simp [Dict.get?]⟩
      · exact ⟨ρ, by simp [Dict.get?]⟩)
  have ha' := ha
  rw [analyse_generated lib depth st' _ k3.generated] at ha'
  obtain ⟨l, f1, f2⟩ := (analyseGenerated_ok lib st' _ a).1 ⟨_, ha'⟩
  have c1 := (summarise_ok l a f2).1
  rw [k4] at f1
  cases f1 with
  | @cons _ p _ _ f1 f1' =>
    cases f1' with
    | @cons _ q _ _ f3 f3' =>
      cases f3'
      obtain ⟨-, M, c, r, m1, d1, p1, -⟩ := f1
      obtain ⟨-, N, c', r', m2, d2, p2, -⟩ := f3
      have eM : M.tris = B := meshIs_unique ⟨M, c, m1, rfl⟩ k5
      have eN : N.tris = F := meshIs_unique ⟨N, c', m2, rfl⟩ k6
      have er : ρ₀ = r := by simpa [Dict.get?] using d1
      have er' : ρ = r' := by simpa [Dict.get?] using d2
      subst er er'
      obtain ⟨-, a2, a3⟩ := C111_component lib hl.toNumpyStl M (by rw [eM]; exact k7) _ _ p1
      obtain ⟨-, b2, b3⟩ := C111_component lib hl.toNumpyStl N (by rw [eN]; exact k9) _ _ p2
      rw [eM, k8] at a2 a3
      rw [eN, k10] at b2 b3
      obtain ⟨A, st2, i1, i2, i3⟩ := C154_inertia_violated lib hl depth st' st1 (.one (.rotate 90 "x")) _ a hr k3 ha (by
          rw [c1]
          intro x hx
          simp only [List.mem_cons, List.not_mem_nil, or_false] at hx
          rcases hx with rfl | rfl
          · rw [a2]; linarith
          · rw [b2]; linarith) p q (by rw [c1]; simp) (by rw [c1]; simp) (by
          rw [a3 one_ne_zero, b3 one_ne_zero]
          intro e
          rw [e, k12] at k11
          norm_num at k11)
      obtain ⟨A', st2', -, -, j3, j4, -⟩ := C154_transform_partial lib hl depth st' st1 (.one (.rotate 90 "x")) _ a hr k3 ha
      rw [i2] at j3
      obtain rfl := (Prod.mk.inj j3).2
      obtain ⟨a', st3, h3⟩ := j4 hlib
      obtain ⟨I, I', z1, z2, z3⟩ := i3 (quarter_turn A i1) a' st3 h3
      exact ⟨st, st', a, st1, st2, a', st3, I, I', k1, k2, ha, i2, h3, z1, z2, z3⟩

/-- numpy-stl with its areas meets the assumptions. -/
noncomputable def Spec.numpyStlArea : Lib := { numpyStlFull with area := fun M => surfaceArea M.tris }

theorem numpyStlArea_ok : NumpyStlArea numpyStlArea :=
  { numpyStlFull_ok with area := fun _ => rfl }

/-- The hypotheses of `C154_pair_violated`, and with it those of `C154_transform_partial` and `C154_inertia_violated`, can be met. -/
example : NumpyStlArea numpyStlArea ∧ (∀ M ρ, ∃ q, numpyStlArea.massProps M ρ = .ok q) ∧ ∃ st st' : VState,
    addAll ⟨pairHeap 3, {}⟩ twoOpts = .ok st ∧ generate numpyStlArea 0 st = (.ok (), st') ∧ ReadyVehicle st' := by
  obtain ⟨st, st', -, -, h1, h2, h3, -⟩ := two_parts 3 (by norm_num) numpyStlArea 0
  exact ⟨numpyStlArea_ok, fun _ _ => ⟨_, rfl⟩, st, st', h1, h2, h3⟩

end HV
