import Verif.Props.MassProps
import Verif.Props.Finner
import Verif.Props.AffineSweep

/-!
# Property C128: bodies that look alike after a quarter turn have their centre of gravity on the axis and no products of inertia
-/

namespace HV
open Spec Veh

namespace Spec

/-- The sum of the products of three factors taken from three numbers (`f3` in numpy-stl). -/
def triples (a b c : ℝ) : ℝ := a * a * a + b * b * b + c * c * c + a * a * b + a * b * b + b * b * c + b * c * c + c * c * a + c * a * a + a * b * c

/-- What numpy-stl (not part of the repository) adds up for the integral of `p q`, the values of `p` at the corners of a triangle being
`p0 p1 p2` and those of `q` being `q0 q1 q2` (`y0 * g0x + y1 * g1x + y2 * g2x`). -/
def mixed (p0 p1 p2 q0 q1 q2 : ℝ) : ℝ :=
  q0 * (pairs p0 p1 p2 + p0 * (p0 + p1 + p2 + p0)) + q1 * (pairs p0 p1 p2 + p1 * (p0 + p1 + p2 + p1)) + q2 * (pairs p0 p1 p2 + p2 * (p0 + p1 + p2 + p2))

/-- What numpy-stl computes for the integrals of the products of two coordinates over the solid. -/
noncomputable def stlSecond (m : TriMesh ℝ) : Fin 3 → Fin 3 → ℝ :=
  let xx := (m.map fun t => triArea2 t 0 * triples t.v0.x t.v1.x t.v2.x).sum / 60
  let yy := (m.map fun t => triArea2 t 1 * triples t.v0.y t.v1.y t.v2.y).sum / 60
  let zz := (m.map fun t => triArea2 t 2 * triples t.v0.z t.v1.z t.v2.z).sum / 60
  let xy := (m.map fun t => triArea2 t 0 * mixed t.v0.x t.v1.x t.v2.x t.v0.y t.v1.y t.v2.y).sum / 120
  let yz := (m.map fun t => triArea2 t 1 * mixed t.v0.y t.v1.y t.v2.y t.v0.z t.v1.z t.v2.z).sum / 120
  let zx := (m.map fun t => triArea2 t 2 * mixed t.v0.z t.v1.z t.v2.z t.v0.x t.v1.x t.v2.x).sum / 120
  ![![xx, xy, zx], ![xy, yy, yz], ![zx, yz, zz]]

/-- The tensor of inertia about the centre `c`, of a solid of density `ρ` and volume `v`, from the integrals `S` of the products of
coordinates: on the diagonal `ρ (S₁₁ + S₂₂) - ρ v (c₁² + c₂²)`, off the diagonal `-(ρ S₀₁ - ρ v c₀ c₁)`. -/
noncomputable def inertiaOf (S : Fin 3 → Fin 3 → ℝ) (ρ v : ℝ) (c : V) (i j : Fin 3) : ℝ :=
  (if i = j then ρ * (S 0 0 + S 1 1 + S 2 2) - ρ * v * (c.x ^ 2 + c.y ^ 2 + c.z ^ 2) else 0) - (ρ * S i j - ρ * v * (coord c i * coord c j))

/-- The library also computes the tensor of inertia as numpy-stl does.  Where the volume is zero nothing is assumed. -/
structure NumpyStlInertia (lib : Lib) : Prop extends NumpyStl lib where
  moi : ∀ M ρ q, lib.massProps M ρ = .ok q → q.volume ≠ 0 → ∀ i j, q.moi i j = inertiaOf (stlSecond M.tris) ρ q.volume q.cog i j

/-- The integral of the product of two coordinates over the solid bounded by a mesh: every triangle contributes the tetrahedron it spans
with the origin; over a tetrahedron of volume `V` with corners `0, a, b, c` the integral is `V / 20 * (∑ pᵢ pⱼ + ∑ pᵢ ∑ pⱼ)`. -/
noncomputable def secondMoment (m : TriMesh ℝ) (i j : Fin 3) : ℝ :=
  (m.map fun t => det3 t.v0 t.v1 t.v2 / 6 / 20 * (coord t.v0 i * coord t.v0 j + coord t.v1 i * coord t.v1 j + coord t.v2 i * coord t.v2 j +
    (coord t.v0 i + coord t.v1 i + coord t.v2 i) * (coord t.v0 j + coord t.v1 j + coord t.v2 j))).sum

/-- The mesh looks the same after a quarter turn about the x axis: the same triangles, in some order. -/
def TurnSymmetric (m : TriMesh ℝ) : Prop := (mapVerts quarterTurn m).Perm m

end Spec

/-! ## The integrals of numpy-stl over closed meshes -/

theorem stlSecond_closed {m : TriMesh ℝ} (h : Closed m) (i j : Fin 3) : stlSecond m i j = secondMoment m i j := by
  unfold stlSecond secondMoment
  fin_cases i <;> fin_cases j <;>
    simp only [Matrix.cons_val_zero, Matrix.cons_val_one, Matrix.cons_val, Fin.zero_eta, Fin.mk_one, Fin.reduceFinMk, Fin.isValue] <;>
    rw [sum_div, List.map_map]
  · refine closed_sum h (φ := fun u v => (u.x * u.x * u.x + u.x * u.x * v.x + u.x * v.x * v.x + v.x * v.x * v.x) * (u.y * v.z - u.z * v.y) / 60)
      (fun a b => by ring) fun t => ?_
    simp only [Function.comp, triArea2, det3, triples, coord, Matrix.cons_val]
    ring
  · refine closed_sum h (φ := fun u v => (u.y * (3 * u.x * u.x + 2 * u.x * v.x + v.x * v.x) + v.y * (u.x * u.x + 2 * u.x * v.x + 3 * v.x * v.x)) *
      (u.y * v.z - u.z * v.y) / 120) (fun a b => by ring) fun t => ?_
    simp only [Function.comp, triArea2, det3, mixed, pairs, coord, Matrix.cons_val]
    ring
  · refine closed_sum h (φ := fun u v => (u.x * (3 * u.z * u.z + 2 * u.z * v.z + v.z * v.z) + v.x * (u.z * u.z + 2 * u.z * v.z + 3 * v.z * v.z)) *
      (u.x * v.y - u.y * v.x) / 120) (fun a b => by ring) fun t => ?_
    simp only [Function.comp, triArea2, det3, mixed, pairs, coord, Matrix.cons_val]
    ring
  · refine closed_sum h (φ := fun u v => (u.y * (3 * u.x * u.x + 2 * u.x * v.x + v.x * v.x) + v.y * (u.x * u.x + 2 * u.x * v.x + 3 * v.x * v.x)) *
      (u.y * v.z - u.z * v.y) / 120) (fun a b => by ring) fun t => ?_
    simp only [Function.comp, triArea2, det3, mixed, pairs, coord, Matrix.cons_val]
    ring
  · refine closed_sum h (φ := fun u v => (u.y * u.y * u.y + u.y * u.y * v.y + u.y * v.y * v.y + v.y * v.y * v.y) * (u.z * v.x - u.x * v.z) / 60)
      (fun a b => by ring) fun t => ?_
    simp only [Function.comp, triArea2, det3, triples, coord, Matrix.cons_val]
    ring
  · refine closed_sum h (φ := fun u v => (u.z * (3 * u.y * u.y + 2 * u.y * v.y + v.y * v.y) + v.z * (u.y * u.y + 2 * u.y * v.y + 3 * v.y * v.y)) *
      (u.z * v.x - u.x * v.z) / 120) (fun a b => by ring) fun t => ?_
    simp only [Function.comp, triArea2, det3, mixed, pairs, coord, Matrix.cons_val]
    ring
  · refine closed_sum h (φ := fun u v => (u.x * (3 * u.z * u.z + 2 * u.z * v.z + v.z * v.z) + v.x * (u.z * u.z + 2 * u.z * v.z + 3 * v.z * v.z)) *
      (u.x * v.y - u.y * v.x) / 120) (fun a b => by ring) fun t => ?_
    simp only [Function.comp, triArea2, det3, mixed, pairs, coord, Matrix.cons_val]
    ring
  · refine closed_sum h (φ := fun u v => (u.z * (3 * u.y * u.y + 2 * u.y * v.y + v.y * v.y) + v.z * (u.y * u.y + 2 * u.y * v.y + 3 * v.y * v.y)) *
      (u.z * v.x - u.x * v.z) / 120) (fun a b => by ring) fun t => ?_
    simp only [Function.comp, triArea2, det3, mixed, pairs, coord, Matrix.cons_val]
    ring
  · refine closed_sum h (φ := fun u v => (u.z * u.z * u.z + u.z * u.z * v.z + u.z * v.z * v.z + v.z * v.z * v.z) * (u.x * v.y - u.y * v.x) / 60)
      (fun a b => by ring) fun t => ?_
    simp only [Function.comp, triArea2, det3, triples, coord, Matrix.cons_val]
    ring

/-- C128 for one component, the values reported: if its mesh is closed and does not enclose volume zero, the reported tensor of inertia is
that of the solid about its centre. -/
theorem C128_inertia (lib : Lib) (hl : NumpyStlInertia lib) (M : StlMesh) (hM : Closed M.tris) (ρ : ℝ) (q : MassProps)
    (h : lib.massProps M ρ = .ok q) (h0 : signedVolume M.tris ≠ 0) (i j : Fin 3) :
    q.moi i j = inertiaOf (secondMoment M.tris) ρ (signedVolume M.tris) (centroid M.tris) i j := by
  obtain ⟨h1, -, h3⟩ := C111_component lib hl.toNumpyStl M hM ρ q h
  rw [hl.moi M ρ q h (by rw [h1]; exact h0), h1, h3 h0]
  unfold inertiaOf
  simp only [stlSecond_closed hM]

/-! ## Symmetric meshes -/

theorem perm_sum {m : TriMesh ℝ} (h : TurnSymmetric m) (f : Tri ℝ → ℝ) :
    (m.map f).sum = (m.map fun t => f ⟨quarterTurn t.v0, quarterTurn t.v1, quarterTurn t.v2⟩).sum := by
  rw [← (h.map f).sum_eq]
  simp only [mapVerts, List.map_map, Function.comp_def]

theorem sum_neg' (l : List (Tri ℝ)) (f : Tri ℝ → ℝ) : (l.map fun t => -f t).sum = -(l.map f).sum := by
  induction l with
  | nil => simp
  | cons a l ih => simp only [List.map_cons, List.sum_cons, ih]; ring

theorem firstMoment_symmetric {m : TriMesh ℝ} (h : TurnSymmetric m) : (firstMoment m).y = 0 ∧ (firstMoment m).z = 0 := by
  have e1 := perm_sum h fun t => det3 t.v0 t.v1 t.v2 / 6 * ((t.v0.y + t.v1.y + t.v2.y) / 4)
  have e2 := perm_sum h fun t => det3 t.v0 t.v1 t.v2 / 6 * ((t.v0.z + t.v1.z + t.v2.z) / 4)
  have f1 : ∀ t : Tri ℝ, det3 (quarterTurn t.v0) (quarterTurn t.v1) (quarterTurn t.v2) = det3 t.v0 t.v1 t.v2 := by
    intro t; simp only [det3, quarterTurn]; ring
  simp only [f1] at e1 e2
  simp only [quarterTurn] at e1 e2
  have e3 : (m.map fun t => det3 t.v0 t.v1 t.v2 / 6 * ((-t.v0.z + -t.v1.z + -t.v2.z) / 4)).sum =
      -(m.map fun t => det3 t.v0 t.v1 t.v2 / 6 * ((t.v0.z + t.v1.z + t.v2.z) / 4)).sum := by
    rw [← sum_neg']; congr 1; apply List.map_congr_left; intro t _; ring
  rw [e3] at e1
  simp only [firstMoment]
  constructor <;> linarith

theorem centroid_symmetric {m : TriMesh ℝ} (h : TurnSymmetric m) : (centroid m).y = 0 ∧ (centroid m).z = 0 := by
  obtain ⟨h1, h2⟩ := firstMoment_symmetric h
  unfold centroid
  constructor
  · show (firstMoment m).y * _ = 0
    rw [h1, zero_mul]
  · show (firstMoment m).z * _ = 0
    rw [h2, zero_mul]

theorem secondMoment_symm (m : TriMesh ℝ) (i j : Fin 3) : secondMoment m i j = secondMoment m j i := by
  unfold secondMoment
  congr 1; apply List.map_congr_left; intro t _; ring

theorem secondMoment_symmetric {m : TriMesh ℝ} (h : TurnSymmetric m) : secondMoment m 1 1 = secondMoment m 2 2 ∧
    ∀ i j, i ≠ j → secondMoment m i j = 0 := by
  have f1 : ∀ t : Tri ℝ, det3 (quarterTurn t.v0) (quarterTurn t.v1) (quarterTurn t.v2) = det3 t.v0 t.v1 t.v2 := by
    intro t; simp only [det3, quarterTurn]; ring
  have key : ∀ i j, secondMoment m i j = (m.map fun t => det3 t.v0 t.v1 t.v2 / 6 / 20 * (coord (quarterTurn t.v0) i * coord (quarterTurn t.v0) j +
      coord (quarterTurn t.v1) i * coord (quarterTurn t.v1) j + coord (quarterTurn t.v2) i * coord (quarterTurn t.v2) j +
      (coord (quarterTurn t.v0) i + coord (quarterTurn t.v1) i + coord (quarterTurn t.v2) i) *
      (coord (quarterTurn t.v0) j + coord (quarterTurn t.v1) j + coord (quarterTurn t.v2) j))).sum := by
    intro i j
    have := perm_sum h fun t => det3 t.v0 t.v1 t.v2 / 6 / 20 * (coord t.v0 i * coord t.v0 j + coord t.v1 i * coord t.v1 j + coord t.v2 i * coord t.v2 j +
      (coord t.v0 i + coord t.v1 i + coord t.v2 i) * (coord t.v0 j + coord t.v1 j + coord t.v2 j))
    simp only [f1] at this
    exact this
  have yy : secondMoment m 1 1 = secondMoment m 2 2 := by
    rw [key 1 1]
    unfold secondMoment
    congr 1; apply List.map_congr_left; intro t _
    simp only [coord, quarterTurn, Matrix.cons_val]; ring
  have xy : secondMoment m 0 1 = -secondMoment m 0 2 := by
    rw [key 0 1]
    unfold secondMoment
    rw [← sum_neg']
    congr 1; apply List.map_congr_left; intro t _
    simp only [coord, quarterTurn, Matrix.cons_val]; ring
  have xz : secondMoment m 0 2 = secondMoment m 0 1 := by
    rw [key 0 2]
    unfold secondMoment
    congr 1
  have yz : secondMoment m 1 2 = -secondMoment m 1 2 := by
    conv_lhs => rw [key 1 2]
    unfold secondMoment
    rw [← sum_neg']
    congr 1; apply List.map_congr_left; intro t _
    simp only [coord, quarterTurn, Matrix.cons_val]; ring
  have h01 : secondMoment m 0 1 = 0 := by linarith
  have h02 : secondMoment m 0 2 = 0 := by linarith
  have h12 : secondMoment m 1 2 = 0 := by linarith
  refine ⟨yy, fun i j hij => ?_⟩
  fin_cases i <;> fin_cases j <;> first | exact absurd rfl hij | skip
  · exact h01
  · exact h02
  · exact (secondMoment_symm m 1 0).trans h01
  · exact h12
  · exact (secondMoment_symm m 2 0).trans h02
  · exact (secondMoment_symm m 2 1).trans h12

/-- C128 for one component: if its mesh is closed, looks the same after a quarter turn about the x axis and does not enclose volume zero,
then the reported centre of gravity is on the axis, the reported products of inertia vanish and the inertia about y equals that about z. -/
theorem C128_component (lib : Lib) (hl : NumpyStlInertia lib) (M : StlMesh) (hM : Closed M.tris) (hs : TurnSymmetric M.tris) (ρ : ℝ) (q : MassProps)
    (h : lib.massProps M ρ = .ok q) (h0 : signedVolume M.tris ≠ 0) :
    q.cog.y = 0 ∧ q.cog.z = 0 ∧ q.moi 1 1 = q.moi 2 2 ∧ ∀ i j, i ≠ j → q.moi i j = 0 := by
  obtain ⟨h1, h2⟩ := centroid_symmetric hs
  have hc := (C111_component lib hl.toNumpyStl M hM ρ q h).2.2 h0
  have hm := C128_inertia lib hl M hM ρ q h h0
  obtain ⟨k1, k2⟩ := secondMoment_symmetric hs
  refine ⟨by rw [hc]; exact h1, by rw [hc]; exact h2, ?_, fun i j hij => ?_⟩
  · rw [hm, hm, inertiaOf, inertiaOf, k1]
    simp [coord, h1, h2]
  · rw [hm, inertiaOf, k2 i j hij]
    simp only [hij, if_false]
    have : coord (centroid M.tris) i * coord (centroid M.tris) j = 0 := by
      fin_cases i <;> fin_cases j <;> first | exact absurd rfl hij | simp [coord, h1, h2]
    rw [this]; ring

/-! ## Revolved bodies are symmetric -/

theorem turn_affine : IsAffine quarterTurn !![1, 0, 0; 0, 0, -1; 0, 1, 0] := by
  refine ⟨0, fun p => ?_⟩
  funext i
  fin_cases i <;> simp [toF, quarterTurn, Matrix.mulVec, Matrix.vecHead, Matrix.vecTail, dotProduct, Fin.sum_univ_succ]

theorem revolveGrid_turn (f : ℝ → V) (n k i j : ℕ) : quarterTurn (revolveGrid f n (k + 1) i j) = revolveGrid f n k i j := by
  have e : (((k + 1 : ℕ) : ℝ) * Real.pi / 2) * (1 - (j : ℝ) / n) + ((((k + 1 : ℕ) : ℝ) + 1) * Real.pi / 2) * ((j : ℝ) / n) =
      ((k * Real.pi / 2) * (1 - (j : ℝ) / n) + (((k : ℝ) + 1) * Real.pi / 2) * ((j : ℝ) / n)) + Real.pi / 2 := by
    push_cast; ring
  unfold revolveGrid
  rw [e]
  generalize (k * Real.pi / 2) * (1 - (j : ℝ) / n) + (((k : ℝ) + 1) * Real.pi / 2) * ((j : ℝ) / n) = a
  simp only [revolveRot, quarterTurn, Real.cos_add_pi_div_two, Real.sin_add_pi_div_two]
  ext <;> simp <;> ring

theorem revolveGrid_four (f : ℝ → V) (n k i j : ℕ) : revolveGrid f n (k + 4) i j = revolveGrid f n k i j := by
  have e : (((k + 4 : ℕ) : ℝ) * Real.pi / 2) * (1 - (j : ℝ) / n) + ((((k + 4 : ℕ) : ℝ) + 1) * Real.pi / 2) * ((j : ℝ) / n) =
      ((k * Real.pi / 2) * (1 - (j : ℝ) / n) + (((k : ℝ) + 1) * Real.pi / 2) * ((j : ℝ) / n)) + 2 * Real.pi := by
    push_cast; ring
  unfold revolveGrid
  rw [e]
  simp only [revolveRot, Real.cos_add_two_pi, Real.sin_add_two_pi]

theorem turnSymmetric_append {m m' : TriMesh ℝ} (h : TurnSymmetric m) (h' : TurnSymmetric m') : TurnSymmetric (m ++ m') := by
  unfold TurnSymmetric mapVerts at *
  rw [List.map_append]
  exact h.append h'

theorem grids_symmetric (f : ℝ → V) (n : ℕ) :
    TurnSymmetric (((List.range 4).map (revolveGrid f n)).map (gridMesh MeshArith.real false n n)).flatten := by
  have h : ∀ k, mapVerts quarterTurn (gridMesh MeshArith.real false n n (revolveGrid f n (k + 1))) =
      gridMesh MeshArith.real false n n (revolveGrid f n k) := fun k =>
    (gridMesh_image turn_affine n _ _ fun i _ j _ => (revolveGrid_turn f n k i j).symm).symm
  have h0 : revolveGrid f n 0 = revolveGrid f n (3 + 1) := by funext i j; exact (revolveGrid_four f n 0 i j).symm
  have e : (List.range 4).map (revolveGrid f n) = [revolveGrid f n 0, revolveGrid f n 1, revolveGrid f n 2, revolveGrid f n 3] := rfl
  have a1 := h 0
  have a2 := h 1
  have a3 := h 2
  have a4 := h 3
  rw [← h0] at a4
  unfold TurnSymmetric
  unfold mapVerts at *
  rw [e]
  simp only [List.map_cons, List.map_nil, List.flatten_cons, List.flatten_nil, List.append_nil, List.map_append, a4]
  simp only [zero_add, Nat.reduceAdd] at a1 a2 a3
  rw [a1, a2, a3]
  set A := gridMesh MeshArith.real false n n (revolveGrid f n 0)
  set B := gridMesh MeshArith.real false n n (revolveGrid f n 1)
  set C := gridMesh MeshArith.real false n n (revolveGrid f n 2)
  set D := gridMesh MeshArith.real false n n (revolveGrid f n 3)
  have := List.perm_append_comm (l₁ := D) (l₂ := A ++ (B ++ C))
  simpa [List.append_assoc] using this

theorem allGrids_symmetric (n : ℕ) (fs : List (ℝ → V)) :
    TurnSymmetric ((allGrids n fs).map (gridMesh MeshArith.real false n n)).flatten := by
  induction fs with
  | nil => exact List.Perm.nil
  | cons f fs ih =>
    have : allGrids n (f :: fs) = (List.range 4).map (revolveGrid f n) ++ allGrids n fs := rfl
    rw [this, List.map_append, List.flatten_append]
    exact turnSymmetric_append (grids_symmetric f n) ih

/-- C128: whatever the line and the resolution, the mesh of a revolved component looks the same after a quarter turn about the x axis. -/
theorem C128_revolved (line : PathObj) (f : ℝ → V) (hl : ∀ t, 0 ≤ t → t ≤ 1 → line.call t = .ok (f t)) (n : ℕ) (hn : 1 ≤ n) (name : Option String)
    (h : Heap) (id : ℕ) (hid : h id = RevolvedComponent line n name) :
    ∃ h' M c', generatePatches h id = (.ok (), h') ∧ (h' id).mesh = (.ok M, c') ∧ TurnSymmetric M.tris := by
  obtain ⟨h', M, c', h1, h2, h3⟩ := revolved_mesh line f hl n hn name h id hid
  exact ⟨h', M, c', h1, h2, by rw [h3]; exact grids_symmetric f n⟩

/-- C128: the mesh of a composite of revolved components looks the same after a quarter turn about the x axis. -/
theorem C128_composite (h : Heap) (id : ℕ) (ids : List ℕ) (lines : List PathObj) (fs : List (ℝ → V)) (hn : ids.Nodup)
    (hid : id ∉ ids) (hne : ids ≠ []) (hg : (h id).gen = .composite ids)
    (hc : List.Forall₂ (fun k line => NewRevolved (h k) line) ids lines)
    (hl : List.Forall₂ (fun (line : PathObj) (f : ℝ → V) => ∀ t, 0 ≤ t → t ≤ 1 → line.call t = .ok (f t)) lines fs)
    (n : ℕ) (hn1 : 1 ≤ n) (hres : (h id).stl_resolution = .int n) (hm : (h id).mesh_ = none) (hs : (h id).surfaces = none)
    (hcl : (h id).clustering = {}) :
    ∃ h' M c', generatePatches h id = (.ok (), h') ∧ (h' id).mesh = (.ok M, c') ∧ TurnSymmetric M.tris := by
  obtain ⟨h', M, c', h1, h2, -, h3⟩ := revolved_composite_mesh h id ids lines fs hn hid hne hg hc hl n hn1 hres hm hs hcl
  exact ⟨h', M, c', h1, h2, by rw [h3]; exact allGrids_symmetric n fs⟩

/-! ## Vehicles -/

namespace Spec

/-- All triangles of a vehicle, each with the density of its component. -/
def loaded (bs : List (ℝ × TriMesh ℝ)) : List (ℝ × Tri ℝ) := bs.flatMap fun b => b.2.map fun t => (b.1, t)

/-- The vehicle, with its densities, looks the same after a quarter turn about the x axis. -/
def TurnBalanced (bs : List (ℝ × TriMesh ℝ)) : Prop :=
  ((loaded bs).map fun e => (e.1, (⟨quarterTurn e.2.v0, quarterTurn e.2.v1, quarterTurn e.2.v2⟩ : Tri ℝ))).Perm (loaded bs)

end Spec

theorem turnBalanced_of_symmetric (bs : List (ℝ × TriMesh ℝ)) (h : ∀ b ∈ bs, TurnSymmetric b.2) : TurnBalanced bs := by
  induction bs with
  | nil => exact List.Perm.nil
  | cons b bs ih =>
    have hb := h b (by simp)
    have := ih fun c hc => h c (by simp [hc])
    unfold TurnBalanced loaded at *
    rw [List.flatMap_cons, List.map_append]
    refine List.Perm.append ?_ this
    have := hb.map fun t => (b.1, t)
    rw [mapVerts, List.map_map] at this
    rw [List.map_map]
    exact this

theorem sum_neg_map {α : Type} (l : List α) (f : α → ℝ) : (l.map fun t => -f t).sum = -(l.map f).sum := by
  induction l with
  | nil => simp
  | cons a l ih => simp only [List.map_cons, List.sum_cons, ih]; ring

theorem loaded_sum (bs : List (ℝ × TriMesh ℝ)) (f : Tri ℝ → ℝ) :
    ((loaded bs).map fun e => e.1 * f e.2).sum = (bs.map fun b => b.1 * (b.2.map f).sum).sum := by
  induction bs with
  | nil => rfl
  | cons b bs ih =>
    have : loaded (b :: bs) = (b.2.map fun t => (b.1, t)) ++ loaded bs := rfl
    rw [this, List.map_append, List.sum_append, ih, List.map_cons, List.sum_cons, List.map_map]
    congr 1
    simp only [Function.comp_def]
    rw [List.sum_map_mul_left]

theorem balanced_moments {bs : List (ℝ × TriMesh ℝ)} (h : TurnBalanced bs) : (bs.map fun b => b.1 * (firstMoment b.2).y).sum = 0 ∧
    (bs.map fun b => b.1 * (firstMoment b.2).z).sum = 0 := by
  have f1 : ∀ t : Tri ℝ, det3 (quarterTurn t.v0) (quarterTurn t.v1) (quarterTurn t.v2) = det3 t.v0 t.v1 t.v2 := by
    intro t; simp only [det3, quarterTurn]; ring
  have key : ∀ f : Tri ℝ → ℝ, ((loaded bs).map fun e => e.1 * f e.2).sum =
      ((loaded bs).map fun e => e.1 * f ⟨quarterTurn e.2.v0, quarterTurn e.2.v1, quarterTurn e.2.v2⟩).sum := by
    intro f
    rw [← (h.map fun e => e.1 * f e.2).sum_eq, List.map_map]
    rfl
  have e1 := key fun t => det3 t.v0 t.v1 t.v2 / 6 * ((t.v0.y + t.v1.y + t.v2.y) / 4)
  have e2 := key fun t => det3 t.v0 t.v1 t.v2 / 6 * ((t.v0.z + t.v1.z + t.v2.z) / 4)
  simp only [f1] at e1 e2
  simp only [quarterTurn] at e1 e2
  have e3 : ((loaded bs).map fun e => e.1 * (det3 e.2.v0 e.2.v1 e.2.v2 / 6 * ((-e.2.v0.z + -e.2.v1.z + -e.2.v2.z) / 4))).sum =
      -((loaded bs).map fun e => e.1 * (det3 e.2.v0 e.2.v1 e.2.v2 / 6 * ((e.2.v0.z + e.2.v1.z + e.2.v2.z) / 4))).sum := by
    rw [← sum_neg_map]; congr 1; apply List.map_congr_left; intro t _; ring
  rw [e3] at e1
  have y := loaded_sum bs fun t => det3 t.v0 t.v1 t.v2 / 6 * ((t.v0.y + t.v1.y + t.v2.y) / 4)
  have z := loaded_sum bs fun t => det3 t.v0 t.v1 t.v2 / 6 * ((t.v0.z + t.v1.z + t.v2.z) / 4)
  simp only [firstMoment]
  constructor
  · rw [← y]; linarith
  · rw [← z]; linarith

/-- C128 for a vehicle: if the meshes of all named components are closed, none encloses volume zero and the vehicle with its densities looks
the same after a quarter turn about the x axis, the reported centre of gravity is on the axis. -/
theorem C128_vehicle (lib : Lib) (hl : NumpyStl lib) (depth : ℕ) (st st' : VState) (dens : Dict String ℝ) (a : Analysis)
    (hg : st.veh.generated = true) (h : analyse lib (depth + 1) st dens = (.ok a, st')) (bs : List (ℝ × TriMesh ℝ))
    (hb : List.Forall₂ (Solid dens st.heap) st.veh.named bs) (h0 : ∀ b ∈ bs, signedVolume b.2 ≠ 0) (hm : a.mass ≠ 0)
    (hs : TurnBalanced bs) : ∃ x, a.cog = some ⟨x, 0, 0⟩ := by
  obtain ⟨-, -, h3⟩ := C111_vehicle_partial lib hl depth st st' dens a hg h bs hb
  obtain ⟨b1, b2⟩ := balanced_moments hs
  have hy : ((bs.map fun b => (b.1 * signedVolume b.2, centroid b.2)).map fun e => e.1 * e.2.y).sum = 0 := by
    rw [List.map_map, ← b1]
    congr 1
    apply List.map_congr_left
    intro b hb
    have := h0 b hb
    show b.1 * signedVolume b.2 * ((firstMoment b.2).y * (1 / signedVolume b.2)) = _
    field_simp
  have hz : ((bs.map fun b => (b.1 * signedVolume b.2, centroid b.2)).map fun e => e.1 * e.2.z).sum = 0 := by
    rw [List.map_map, ← b2]
    congr 1
    apply List.map_congr_left
    intro b hb
    have := h0 b hb
    show b.1 * signedVolume b.2 * ((firstMoment b.2).z * (1 / signedVolume b.2)) = _
    field_simp
  rw [h3 hm h0]
  unfold weightedMean
  simp only [hy, hz, zero_div]
  exact ⟨_, rfl⟩


/-! ## The Finner -/

theorem turnBalanced_append {bs cs : List (ℝ × TriMesh ℝ)} (h : TurnBalanced bs) (h' : TurnBalanced cs) : TurnBalanced (bs ++ cs) := by
  unfold TurnBalanced loaded at *
  rw [List.flatMap_append, List.map_append]
  exact h.append h'

/-- Four copies of a part, each a quarter turn from the one before. -/
theorem turnBalanced_orbit (ρ : ℝ) (m : ℕ → TriMesh ℝ) (h : ∀ i, mapVerts quarterTurn (m i) = m (i + 1)) (h4 : m 4 = m 0) :
    TurnBalanced [(ρ, m 0), (ρ, m 1), (ρ, m 2), (ρ, m 3)] := by
  have key : ∀ i, ((m i).map fun t => (ρ, t)).map (fun e => (e.1, (⟨quarterTurn e.2.v0, quarterTurn e.2.v1, quarterTurn e.2.v2⟩ : Tri ℝ))) =
      (m (i + 1)).map fun t => (ρ, t) := by
    intro i
    rw [← h i, mapVerts, List.map_map, List.map_map]
    rfl
  unfold TurnBalanced loaded
  simp only [List.flatMap_cons, List.flatMap_nil, List.append_nil, List.map_append, key, Nat.reduceAdd, h4, zero_add]
  set A := (m 0).map fun t => (ρ, t)
  set B := (m 1).map fun t => (ρ, t)
  set C := (m 2).map fun t => (ρ, t)
  set D := (m 3).map fun t => (ρ, t)
  have := List.perm_append_comm (l₁ := B ++ (C ++ D)) (l₂ := A)
  simpa [List.append_assoc] using this

theorem exists_of_mem {α β : Type} {R : α → β → Prop} {l : List α} {l' : List β} (h : List.Forall₂ R l l') {a : α} (ha : a ∈ l) :
    ∃ b ∈ l', R a b := by
  induction h with
  | nil => simp at ha
  | cons hR _ ih =>
    rcases List.mem_cons.1 ha with rfl | ha
    · exact ⟨_, by simp, hR⟩
    · obtain ⟨b, hb, hR'⟩ := ih ha
      exact ⟨b, by simp [hb], hR'⟩

/-- What `generate` makes of a component of a vehicle without transformations and analysis. -/
theorem generate_plain_component (lib : Lib) (depth : ℕ) (st st' : VState) (hang : st.veh.angleOffset = 0) (htr : st.veh.transformations = [])
    (han : st.veh.analyseOn = none) (hu : Unshared st.heap st.veh.components) (h : generate lib depth st = (.ok (), st')) :
    ∀ k ∈ st.veh.components, ∃ g, generatePatches st.heap k = (.ok (), g) ∧ pipeline 0 (g k) = (.ok (), st'.heap k) := by
  obtain ⟨h1, h2, e1, e2, e3, -⟩ := generate_steps lib depth st st' h
  obtain ⟨-, rfl⟩ : _ ∧ h2 = h1 := by
    rcases e2 with e2 | e2
    · exact e2
    · exact absurd htr e2.1
  simp only [genAnalyse, han] at e3
  obtain rfl := (Prod.mk.inj e3).2
  rw [hang] at e1
  exact genAll_spec 0 _ _ hu h2 e1

/-- C128 for the Finner: if the four fins are given the same density, the reported centre of gravity is on the axis, whatever the
dimensions, the mesh resolution and the density of the fuselage. -/
theorem C128_finner (h : Heap) (ids : ℕ → ℕ) (hi : Function.Injective ids) (kwargs : Dict String ℝ) (p : Finner.Params)
    (ha : FinnerArgs kwargs p) (hd : 0 < p.diameter ∧ 0 < p.nose_length ∧ p.nose_length ≤ p.total_length)
    (hf : 0 < p.fin_height ∧ 0 < p.fin_length ∧ 0 < p.max_fin_thickness) (lib : Lib) (hl : NumpyStl lib) (depth : ℕ)
    (dens : Dict String ℝ) (ρ ρ' : ℝ) (hρ : 0 < ρ) (hρ' : 0 < ρ') (d0 : dens.get? "fuselage" = some ρ)
    (d1 : ∀ s ∈ ["fin_1", "fin_2", "fin_3", "fin_4"], dens.get? s = some ρ') :
    ∃ st, Finner.instanceOf h ids kwargs = .ok st ∧ ∀ n : ℕ, 1 ≤ n → ∃ st', generate lib depth (withResolution st (ids 0) n) = (.ok (), st') ∧
      (lib = numpyStl → ∃ a st'', analyse lib (depth + 1) st' dens = (.ok a, st'')) ∧
      ∀ a st'', analyse lib (depth + 1) st' dens = (.ok a, st'') → ∃ x, a.cog = some ⟨x, 0, 0⟩ := by
  obtain ⟨st, s1, s2, s3, s4, s5, s6, s7⟩ := finner_instance h ids hi kwargs p ha
  obtain ⟨st0, r1, -, r3, r4, -, fin, h0, M0, c0, -, -, -, r9⟩ := C103_finner h ids hi kwargs p ha
  rw [s1] at r1
  obtain rfl := Except.ok.inj r1
  refine ⟨st, s1, fun n hn => ?_⟩
  obtain ⟨st', g1, ⟨M, c, g2, g3, g4⟩, g5⟩ := r9 n hn lib depth
  have hv : st'.veh = { st.veh with generated := true } := by
    obtain ⟨-, h2, -, -, e3, -⟩ := generate_steps lib depth _ st' g1
    simp only [genAnalyse, withResolution, s2, finnerVeh] at e3
    rw [← (Prod.mk.inj e3).2, s2]
    rfl
  have hn0 : (0 : ℝ) < n := by exact_mod_cast hn
  have hsin : 0 < Real.sin (2 * Real.pi / (4 * n : ℕ)) := by
    apply Real.sin_pos_of_pos_of_lt_pi
    · have := Real.pi_pos; positivity
    · have := Real.pi_pos
      rw [div_lt_iff₀ (by positivity)]
      have : (2 : ℝ) < (4 * n : ℕ) := by exact_mod_cast (by omega : 2 < 4 * n)
      nlinarith
  have hV : 0 < signedVolume M.tris := by
    rw [g4]
    have : 0 < p.nose_length / 3 + (p.total_length - p.nose_length) := by linarith [hd.2.1, hd.2.2]
    have := hd.1
    positivity
  have hW : 0 < p.fin_height * p.fin_length * p.max_fin_thickness / 2 := by
    obtain ⟨f1, f2, f3⟩ := hf
    positivity
  -- the fuselage is symmetric
  have hsym : TurnSymmetric M.tris := by
    set w := withResolution st (ids 0) n with hw
    have w0 : w.heap (ids 0) = { fuselageComp ids with stl_resolution := .int n } := by
      show (st.heap.upd (ids 0) { st.heap (ids 0) with stl_resolution := .int n }) (ids 0) = _
      rw [upd_self, s3]
    have wk : ∀ k, k ≠ 0 → w.heap (ids k) = st.heap (ids k) := fun k hk => upd_ne _ _ _ _ (hi.ne hk)
    have eb : Finner.rocketBase p = ⟨p.total_length, p.diameter / 2, 0⟩ := by ext <;> simp [Finner.rocketBase]
    have en : Finner.noseBase p = ⟨p.nose_length, p.diameter / 2, 0⟩ := by ext <;> simp [Finner.noseBase]
    have ee : Finner.rocketBase p - ⟨0, (Finner.rocketBase p).y, 0⟩ = ⟨p.total_length, 0, 0⟩ := by rw [eb]; ext <;> simp
    obtain ⟨g, M', c', k1, k2, k3⟩ := C128_composite w.heap (ids 0) [ids 1, ids 2, ids 3]
      [Finner.noseLine p, Finner.fuselageLine p, Finner.baseLine p]
      [lineAt ⟨0, 0, 0⟩ ⟨p.nose_length, p.diameter / 2, 0⟩,
        lineAt ⟨p.nose_length, p.diameter / 2, 0⟩ ⟨p.total_length, p.diameter / 2, 0⟩,
        lineAt ⟨p.total_length, p.diameter / 2, 0⟩ ⟨p.total_length, 0, 0⟩] (by simp [hi.eq_iff]) (by simp [hi.eq_iff]) (by simp)
      (by rw [w0]; rfl)
      (.cons ⟨by rw [wk 1 (by omega), s4], by rw [wk 1 (by omega), s4]; rfl⟩ (.cons ⟨by rw [wk 2 (by omega), s5], by rw [wk 2 (by omega), s5]; rfl⟩
        (.cons ⟨by rw [wk 3 (by omega), s6], by rw [wk 3 (by omega), s6]; rfl⟩ .nil)))
      (.cons (fun t _ _ => by unfold Finner.noseLine; rw [en]; rfl)
        (.cons (fun t _ _ => by unfold Finner.fuselageLine; rw [en, eb]; rfl)
          (.cons (fun t _ _ => by unfold Finner.baseLine; rw [ee, eb]; rfl) .nil))) n hn
      (by rw [w0]) (by rw [w0]; rfl) (by rw [w0]; rfl) (by rw [w0]; rfl)
    obtain ⟨gF, MF, cF, a1, a2, a3, -⟩ := fuselage_mesh w.heap ids hi p n hn w0 (by rw [wk 1 (by omega), s4])
      (by rw [wk 2 (by omega), s5]) (by rw [wk 3 (by omega), s6])
    have wf : ∀ i < 4, w.heap (ids (4 + i)) = finComp p i := fun i h4 => by rw [wk _ (by omega), s7 i h4]
    have hcs : w.veh.components = [ids 0, ids 4, ids 5, ids 6, ids 7] := by rw [hw, withResolution, s2]; rfl
    have hmem : ∀ k ∈ w.veh.components, k = ids 0 ∨ ∃ i < 4, k = ids (4 + i) := by
      intro k hk
      rw [hcs] at hk
      simp only [List.mem_cons, List.not_mem_nil, or_false] at hk
      rcases hk with rfl | rfl | rfl | rfl | rfl
      · exact .inl rfl
      · exact .inr ⟨0, by norm_num, rfl⟩
      · exact .inr ⟨1, by norm_num, rfl⟩
      · exact .inr ⟨2, by norm_num, rfl⟩
      · exact .inr ⟨3, by norm_num, rfl⟩
    have hch0 : (w.heap (ids 0)).children = [ids 1, ids 2, ids 3] := by unfold Comp.children; rw [w0]; rfl
    have hchf : ∀ i < 4, (w.heap (ids (4 + i))).children = [] := fun i h4 => by unfold Comp.children; rw [wf i h4]; rfl
    obtain ⟨g', q1, q2⟩ := generate_plain_component lib depth w st' (by rw [hw, withResolution, s2]; rfl) (by rw [hw, withResolution, s2]; rfl)
      (by rw [hw, withResolution, s2]; rfl)
      ⟨by rw [hcs]; simp [hi.eq_iff], fun k hk k' hk' => by
        rcases hmem k' hk' with rfl | ⟨i, h4, rfl⟩
        · rw [hch0]
          rcases hmem k hk with rfl | ⟨j, j4, rfl⟩
          · simp [hi.eq_iff]
          · simp only [List.mem_cons, List.not_mem_nil, or_false, hi.eq_iff]; omega
        · rw [hchf i h4]; simp, fun k hk k' hk' hne j hj => by
        rcases hmem k' hk' with rfl | ⟨i, h4, rfl⟩
        · rcases hmem k hk with rfl | ⟨i', h4', rfl⟩
          · exact absurd rfl hne
          · rw [hchf i' h4'] at hj; simp at hj
        · rw [hchf i h4]; simp⟩ g1 (ids 0) (by rw [hcs]; simp)
    rw [k1] at q1 a1
    obtain rfl : g = g' := congrArg Prod.snd q1
    obtain rfl : g = gF := congrArg Prod.snd a1
    rw [a2] at q2
    have e : st'.heap (ids 0) = g (ids 0) := (congrArg Prod.snd q2).symm
    rw [e, k2] at g2
    obtain rfl := Except.ok.inj (Prod.mk.inj g2).1
    exact k3
  obtain ⟨M1, c1, x1, x2, x3, x4⟩ := g5 0 (by norm_num)
  obtain ⟨M2, c2, y1, y2, y3, y4⟩ := g5 1 (by norm_num)
  obtain ⟨M3, c3, z1, z2, z3, z4⟩ := g5 2 (by norm_num)
  obtain ⟨M4, c4, u1, u2, u3, u4⟩ := g5 3 (by norm_num)
  have hnamed : st'.veh.named = [("fuselage", ids 0), ("fin_1", ids 4), ("fin_2", ids 5), ("fin_3", ids 6), ("fin_4", ids 7)] := by
    rw [hv]; exact r4
  have hsolid : List.Forall₂ (Solid dens st'.heap) st'.veh.named
      ((ρ, M.tris) :: [(ρ', M1.tris), (ρ', M2.tris), (ρ', M3.tris), (ρ', M4.tris)]) := by
    rw [hnamed]
    exact .cons ⟨M, c, g2, rfl, g3, d0⟩ (.cons ⟨M1, c1, x1, rfl, x2, d1 _ (by simp)⟩ (.cons ⟨M2, c2, y1, rfl, y2, d1 _ (by simp)⟩
      (.cons ⟨M3, c3, z1, rfl, z2, d1 _ (by simp)⟩ (.cons ⟨M4, c4, u1, rfl, u2, d1 _ (by simp)⟩ .nil))))
  refine ⟨st', g1, ?_, fun a st'' hA => ?_⟩
  · rintro rfl
    refine analyse_total st' dens depth (by rw [hv]) (by rw [hnamed]; simp) ?_ ?_
    · intro e he
      obtain ⟨b, -, M, c, k, -⟩ := exists_of_mem hsolid he
      exact ⟨M, c, k⟩
    · intro e he
      obtain ⟨b, -, M, c, -, -, -, k⟩ := exists_of_mem hsolid he
      exact ⟨_, k⟩
  · have hmass : a.mass ≠ 0 := by
      rw [(C111_vehicle_partial lib hl depth st' st'' dens a (by rw [hv]) hA _ hsolid).2.1]
      simp only [List.map_cons, List.map_nil, List.sum_cons, List.sum_nil, x3, y3, z3, u3]
      have := mul_pos hρ hV
      have := mul_pos hρ' hW
      linarith
    refine C128_vehicle lib hl depth st' st'' dens a (by rw [hv]) hA _ hsolid ?_ hmass ?_
    · intro b hb
      simp only [List.mem_cons, List.not_mem_nil, or_false] at hb
      rcases hb with rfl | rfl | rfl | rfl | rfl
      · exact hV.ne'
      · simp only [x3]; exact hW.ne'
      · simp only [y3]; exact hW.ne'
      · simp only [z3]; exact hW.ne'
      · simp only [u3]; exact hW.ne'
    · refine turnBalanced_append (bs := [(ρ, M.tris)]) (turnBalanced_of_symmetric _ (by simpa using hsym)) ?_
      rw [x4, y4, z4, u4]
      refine turnBalanced_orbit ρ' (fun i => mapVerts (fun v => quarterTurn^[i] (finPlace p.diameter p.total_length v)) M0.tris) (fun i => ?_) ?_
      · simp only [mapVerts, List.map_map, Function.comp_def, Function.iterate_succ_apply']
      · congr 1
        funext v
        simp [quarterTurn]

end HV
