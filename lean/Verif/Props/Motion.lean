import Verif.Props.Component
import Verif.Props.PolygonVolume
import Verif.Props.VehicleGen
import Verif.Props.Swept
import Verif.Props.RevolvedVolume
import Mathlib.LinearAlgebra.UnitaryGroup

/-!
# C99: transformations keep bodies watertight, rigid motions keep volume and area
-/

namespace HV
open Spec

/-- A proper rigid motion: a rotation matrix followed by a translation. -/
def Spec.IsMotion (A : V → V) : Prop :=
  ∃ (m : Matrix (Fin 3) (Fin 3) ℝ) (t : Fin 3 → ℝ), m ∈ Matrix.specialOrthogonalGroup (Fin 3) ℝ ∧
    ∀ p, toF (A p) = m.mulVec (toF p) + t

/-- The map of mesh vertices belonging to a map of surface points, with and without the `mirror_y` option. -/
noncomputable def viaMirror (mirror : Bool) (f : V → V) (p : V) : V :=
  meshVertex MeshArith.real mirror (f (meshVertex MeshArith.real mirror p))

theorem meshVertex_twice (mirror : Bool) (p : V) :
    meshVertex MeshArith.real mirror (meshVertex MeshArith.real mirror p) = p := by
  cases mirror <;> simp [meshVertex, MeshArith.real]

theorem edgeSum_mapVerts {A : Type} [AddCommGroup A] (φ : V → V → A) (f : V → V) (m : TriMesh ℝ) :
    edgeSum φ (edges (mapVerts f m)) = edgeSum (fun a b => φ (f a) (f b)) (edges m) := by
  induction m with
  | nil => rfl
  | cons t m ih =>
    have e : t :: m = [t] ++ m := rfl
    have e' : mapVerts f (t :: m) = [⟨f t.v0, f t.v1, f t.v2⟩] ++ mapVerts f m := rfl
    rw [e', edges_append, edgeSum_append, ih, e, edges_append, edgeSum_append]
    rfl

/-- Applying a map to all points of a surface: the new mesh exists; its edge sums are those of the old mesh with mapped
vertices; if the map respects means of four points, the new mesh is the image of the old one. -/
theorem surfceToStl_acts (surf surf' : Surf) (f : V → V) (hf : ∀ r s p, surf r s = .ok p → surf' r s = .ok (f p))
    (ni nj : ℕ) (hi : 1 ≤ ni) (hj : 1 ≤ nj) (o : MeshOpts) (m : TriMesh ℝ) (h : surfceToStl surf ni nj o = .ok m) :
    ∃ m', surfceToStl surf' ni nj o = .ok m' ∧
      (∀ (A : Type) [AddCommGroup A] (φ : V → V → A), Anti φ →
        edgeSum φ (edges m') = edgeSum (fun a b => φ (viaMirror o.mirror_y f a) (viaMirror o.mirror_y f b)) (edges m)) ∧
      ((∀ p q u v : V, cellCentre MeshArith.real (f p) (f q) (f u) (f v) = f (cellCentre MeshArith.real p q u v)) →
        m' = mapVerts (viaMirror o.mirror_y f) m) := by
  unfold surfceToStl at h ⊢
  obtain ⟨rL, hr, h⟩ := bind_ok.1 h
  obtain ⟨sL, hs, h⟩ := bind_ok.1 h
  rw [hr, ok_bind, hs, ok_bind]
  obtain ⟨P, hP, rfl⟩ := meshFromLists_inv _ _ surf ni nj hi hj rL sL m h
  refine ⟨gridMesh MeshArith.real o.mirror_y ni nj fun i j => f (P i j), ?_, ?_, ?_⟩
  · apply meshFromLists_eq
    intro i' hi' j' hj'
    obtain ⟨r, s, h1, h2, h3⟩ := pointAt_ok.1 (hP i' hi' j' hj')
    rw [pointAt_ok]
    exact ⟨r, s, h1, h2, hf _ _ _ h3⟩
  · intro A _ φ hφ
    rw [edgeSum_gridMesh MeshArith.real φ hφ, edgeSum_gridMesh MeshArith.real _ (fun a b => hφ _ _)]
    simp only [viaMirror, pathSum, meshVertex_twice]
  · intro hc
    simp only [gridMesh, mapVerts, List.map_flatten, List.map_map]
    congr 1
    apply List.map_congr_left
    intro i' _
    simp only [Function.comp, List.map_flatten, List.map_map]
    congr 1
    apply List.map_congr_left
    intro j' _
    simp only [Function.comp, cellTris, viaMirror, meshVertex_twice, hc, List.map_cons, List.map_nil]

/-- The same for the meshes of a list of patches. -/
theorem meshOf_acts (o : MeshOpts) (n n' : String → ℕ) (hn : ∀ k, 1 ≤ n k) (hn' : ∀ k, 1 ≤ n' k) (f : V → V)
    (ps ps' : List (String × Surf))
    (hf : List.Forall₂ (fun e e' => e'.1 = e.1 ∧ ∀ r s p, e.2 r s = .ok p → e'.2 r s = .ok (f p)) ps ps') (m : TriMesh ℝ)
    (h : MeshOf o n n' ps m) : ∃ m', MeshOf o n n' ps' m' ∧
      (∀ (A : Type) [AddCommGroup A] (φ : V → V → A), Anti φ →
        edgeSum φ (edges m') = edgeSum (fun a b => φ (viaMirror o.mirror_y f a) (viaMirror o.mirror_y f b)) (edges m)) ∧
      ((∀ p q u v : V, cellCentre MeshArith.real (f p) (f q) (f u) (f v) = f (cellCentre MeshArith.real p q u v)) →
        m' = mapVerts (viaMirror o.mirror_y f) m) := by
  obtain ⟨parts, hp, rfl⟩ := h
  induction hf generalizing parts with
  | nil =>
    cases hp
    exact ⟨[], ⟨[], .nil, rfl⟩, fun A _ φ _ => rfl, fun _ => rfl⟩
  | cons h hs ih =>
    cases hp with
    | cons h' hs' =>
    obtain ⟨m1, ⟨parts', hp', e1⟩, e2, e3⟩ := ih _ hs'
    obtain ⟨a, b1, b2, b3⟩ := surfceToStl_acts _ _ f h.2 _ _ (hn _) (hn' _) o _ h'
    refine ⟨a ++ m1, ⟨a :: parts', .cons (by rw [h.1]; exact b1) hp', by rw [e1]; rfl⟩, ?_, ?_⟩
    · intro A _ φ hφ
      rw [edges_append, edgeSum_append, b2 A φ hφ, e2 A φ hφ, List.flatten_cons, edges_append, edgeSum_append]
    · intro hc
      rw [b3 hc, e3 hc]
      simp [mapVerts]

/-- The mesh of a component whose patches are moved pointwise. -/
theorem mesh_acts (c c' : Comp) (f : V → V) (ha : ActsOnPatches (fun p q => q = f p) c c') (n : ℕ) (hn : 1 ≤ n)
    (hr : c.stl_resolution = .int n) (hm : c.mesh_ = none) (hs : c.surfaces = none)
    (hk : (c.patches.map Prod.fst).Nodup) (M : StlMesh) (d : Comp) (hM : c.mesh = (.ok M, d)) :
    ∃ M' d', c'.mesh = (.ok M', d') ∧
      (∀ (A : Type) [AddCommGroup A] (φ : V → V → A), Anti φ → edgeSum φ (edges M'.tris) =
        edgeSum (fun a b => φ (viaMirror c.clustering.mirror_y f a) (viaMirror c.clustering.mirror_y f b)) (edges M.tris)) ∧
      ((∀ p q u v : V, cellCentre MeshArith.real (f p) (f q) (f u) (f v) = f (cellCentre MeshArith.real p q u v)) →
        M'.tris = mapVerts (viaMirror c.clustering.mirror_y f) M.tris) := by
  have hne : c.patches ≠ [] := by
    intro h
    have := (C52_no_patches c none h hm hs).2
    rw [hM] at this
    cases this
  obtain ⟨a1, a2⟩ := ha
  have hmo := (C52_mesh c n hn hr hm hs hk hne).2 M d hM
  obtain ⟨m', b1, b2, b3⟩ := meshOf_acts c.clustering _ _ (fun _ => hn) (fun _ => hn) f c.patches c'.patches
    (a2.imp fun e e' h => ⟨h.1, fun r s p hp => by
      obtain ⟨q, hq, rfl⟩ := h.2.1 r s p hp
      exact hq⟩) M.tris hmo
  have hnames : c'.patches.map Prod.fst = c.patches.map Prod.fst := by
    have : ∀ (l l' : List (String × Surf)), List.Forall₂ (fun e e' => e'.1 = e.1 ∧ (∀ r s p, e.2 r s = .ok p →
        ∃ q, e'.2 r s = .ok q ∧ q = f p) ∧ (∀ r s x, e.2 r s = .error x → e'.2 r s = .error x)) l l' →
        l'.map Prod.fst = l.map Prod.fst := by
      intro l l' h
      induction h with
      | nil => rfl
      | cons h _ ih => rw [List.map_cons, List.map_cons, h.1, ih]
    exact this _ _ a2
  have hlen : c'.patches ≠ [] := by
    intro h
    rw [h] at hnames
    exact hne (List.map_eq_nil_iff.1 hnames.symm)
  have f1 : c'.clustering = c.clustering := (congrArg Comp.clustering a1 :)
  have f2 : c'.stl_resolution = c.stl_resolution := (congrArg Comp.stl_resolution a1 :)
  have f3 : c'.mesh_ = c.mesh_ := (congrArg Comp.mesh_ a1 :)
  have f4 : c'.surfaces = c.surfaces := (congrArg Comp.surfaces a1 :)
  obtain ⟨M', d', g1, g2, -⟩ := (C52_mesh c' n hn (f2.trans hr) (f3.trans hm) (f4.trans hs) (by rw [hnames]; exact hk) hlen).1 m'
    (by rw [f1]; exact b1)
  refine ⟨M', d', g1, ?_, ?_⟩
  · rw [g2]; exact b2
  · rw [g2]; exact b3

/-- C99: moving the points of all patches by any map whatsoever keeps a closed mesh closed. -/
theorem C99_closed (c c' : Comp) (f : V → V) (ha : ActsOnPatches (fun p q => q = f p) c c') (n : ℕ) (hn : 1 ≤ n)
    (hr : c.stl_resolution = .int n) (hm : c.mesh_ = none) (hs : c.surfaces = none)
    (hk : (c.patches.map Prod.fst).Nodup) (M : StlMesh) (d : Comp) (hM : c.mesh = (.ok M, d)) (hc : Closed M.tris) :
    ∃ M' d', c'.mesh = (.ok M', d') ∧ Closed M'.tris := by
  obtain ⟨M', d', h1, h2, -⟩ := mesh_acts c c' f ha n hn hr hm hs hk M d hM
  refine ⟨M', d', h1, ?_⟩
  rw [closed_iff_edgeSum]
  intro φ hφ
  rw [h2 _ φ hφ]
  exact (closed_iff_edgeSum _).1 hc _ fun a b => hφ _ _

/-! ## Lists of transformations -/

/-- The point map of a transformation tuple, for rotations about a named axis and for translations by vectors or by functions
that do not raise. -/
def Spec.PointMap : Transf → (V → V) → Prop
  | .rotate angle axis, f => ∃ i, NamesAxis axis i ∧ ∀ p, toF (f p) = rodrigues (Pi.single i 1) (toF p) (angle * Real.pi / 180)
  | .translate (.vector v), f => ∀ p, f p = ⟨p.x + v.x, p.y + v.y, p.z + v.z⟩
  | .translate (.callable g), f => ∃ d : ℝ → ℝ → ℝ → V, (∀ x y z, g x y z = .ok (d x y z)) ∧
      ∀ p, f p = ⟨p.x + (d p.x p.y p.z).x, p.y + (d p.x p.y p.z).y, p.z + (d p.x p.y p.z).z⟩
  | _, _ => False

theorem toF_inj {p q : V} (h : toF p = toF q) : p = q := by
  have h0 := congrFun h 0
  have h1 := congrFun h 1
  have h2 := congrFun h 2
  simp [toF] at h0 h1 h2
  ext
  exacts [h0, h1, h2]

theorem acts_imp {R R' : V → V → Prop} {c c' : Comp} (h : ActsOnPatches R c c') (hR : ∀ p q, R p q → R' p q) :
    ActsOnPatches R' c c' :=
  ⟨h.1, h.2.imp fun _ _ h => ⟨h.1, fun r s p hp => by
    obtain ⟨q, hq, hr⟩ := h.2.1 r s p hp
    exact ⟨q, hq, hR _ _ hr⟩, h.2.2⟩⟩

theorem forall₂_trans {α β γ : Type} {R : α → β → Prop} {S : β → γ → Prop} {T : α → γ → Prop}
    (h : ∀ a b c, R a b → S b c → T a c) : ∀ {l : List α} {l' : List β} {l'' : List γ},
    List.Forall₂ R l l' → List.Forall₂ S l' l'' → List.Forall₂ T l l''
  | _, _, _, .nil, .nil => .nil
  | _, _, _, .cons a as, .cons b bs => .cons (h _ _ _ a b) (forall₂_trans h as bs)

theorem acts_trans {f g : V → V} {c c' c'' : Comp} (h : ActsOnPatches (fun p q => q = f p) c c')
    (h' : ActsOnPatches (fun p q => q = g p) c' c'') : ActsOnPatches (fun p q => q = g (f p)) c c'' := by
  constructor
  · have e1 := h.1
    have e2 := h'.1
    rw [← e1, ← e2]
  · refine forall₂_trans ?_ h.2 h'.2
    rintro a b d ⟨a1, a2, a3⟩ ⟨b1, b2, b3⟩
    refine ⟨b1.trans a1, ?_, fun r s x hx => b3 _ _ _ (a3 _ _ _ hx)⟩
    intro r s p hp
    obtain ⟨q, hq, rfl⟩ := a2 r s p hp
    obtain ⟨q', hq', rfl⟩ := b2 r s _ hq
    exact ⟨_, hq', rfl⟩

theorem applyTransf_acts (t : Transf) (f : V → V) (ht : PointMap t f) (c : Comp) :
    ∃ c', c.applyTransf t = .ok c' ∧ ActsOnPatches (fun p q => q = f p) c c' := by
  match t, ht with
  | .rotate angle axis, ⟨i, hi, hf⟩ =>
    exact ⟨_, rfl, acts_imp (C49_rotate c angle axis i hi) fun p q h => toF_inj (h.trans (hf p).symm)⟩
  | .translate (.vector v), hf =>
    exact ⟨_, rfl, acts_imp (C49_translate_vector c v) fun p q h => by
      rw [hf p]; ext; exacts [h.1, h.2.1, h.2.2]⟩
  | .translate (.callable g), ⟨d, hg, hf⟩ =>
    have e : g = fun x y z => .ok (d x y z) := by funext x y z; exact hg x y z
    subst e
    exact ⟨_, rfl, acts_imp (C49_translate_function c d) fun p q h => by
      rw [hf p]; ext; exacts [h.1, h.2.1, h.2.2]⟩

/-- A list of transformations moves every point through the maps of its members, first to last. -/
theorem applyAll_acts (ts : List Transf) (fs : List (V → V)) (h : List.Forall₂ PointMap ts fs) (c : Comp) :
    ∃ c', c.applyAll ts = (.ok (), c') ∧ ActsOnPatches (fun p q => q = fs.foldl (fun q f => f q) p) c c' := by
  induction h generalizing c with
  | nil => exact ⟨c, rfl, acts_refl c⟩
  | cons h _ ih =>
    obtain ⟨c1, h1, a1⟩ := applyTransf_acts _ _ h c
    obtain ⟨c2, h2, a2⟩ := ih c1
    refine ⟨c2, ?_, acts_trans a1 a2⟩
    show (match c.applyTransf _ with | .ok c' => _ | .error e => _) = _
    rw [h1]
    exact h2

/-- C99: a list of rotations and translations, including translations by arbitrary functions of position, leaves a
watertight component watertight. -/
theorem C99_transform (c : Comp) (fs : List (V → V)) (ht : List.Forall₂ PointMap c.transformations fs) (n : ℕ) (hn : 1 ≤ n)
    (hr : c.stl_resolution = .int n) (hm : c.mesh_ = none) (hs : c.surfaces = none)
    (hk : (c.patches.map Prod.fst).Nodup) (M : StlMesh) (d : Comp) (hM : c.mesh = (.ok M, d)) (hc : Closed M.tris) :
    ∃ c' M' d', c.transform = (.ok (), c') ∧ c'.mesh = (.ok M', d') ∧ Closed M'.tris := by
  obtain ⟨c', h1, h2⟩ := applyAll_acts _ fs ht c
  obtain ⟨M', d', h3, h4⟩ := C99_closed c c' _ h2 n hn hr hm hs hk M d hM hc
  exact ⟨c', M', d', h1, h3, h4⟩

/-! ## Rigid motions -/

theorem isMotion_id : IsMotion fun p => p := ⟨1, 0, one_mem _, by simp⟩

theorem isMotion_comp {A B : V → V} (hA : IsMotion A) (hB : IsMotion B) : IsMotion fun p => B (A p) := by
  obtain ⟨m, t, hm, h⟩ := hA
  obtain ⟨m', t', hm', h'⟩ := hB
  refine ⟨m' * m, m'.mulVec t + t', mul_mem hm' hm, fun p => ?_⟩
  rw [h', h, Matrix.mulVec_add, Matrix.mulVec_mulVec, add_assoc]

theorem isMotion_translate (v : V) (A : V → V) (h : ∀ p, A p = ⟨p.x + v.x, p.y + v.y, p.z + v.z⟩) : IsMotion A := by
  refine ⟨1, toF v, one_mem _, fun p => ?_⟩
  rw [h, Matrix.one_mulVec]
  ext k
  fin_cases k <;> simp [toF]

/-- Rotations about the coordinate axes are rigid motions. -/
theorem isMotion_rotate (i : Fin 3) (θ : ℝ) (A : V → V) (h : ∀ p, toF (A p) = rodrigues (Pi.single i 1) (toF p) θ) :
    IsMotion A := by
  have hcs := Real.sin_sq_add_cos_sq θ
  refine ⟨Matrix.of fun j k => rodrigues (Pi.single i 1) (Pi.single k 1) θ j, 0, ?_, ?_⟩
  · rw [Matrix.mem_specialOrthogonalGroup_iff, Matrix.mem_orthogonalGroup_iff]
    constructor
    · ext j k
      fin_cases i <;> fin_cases j <;> fin_cases k <;>
        simp [rodrigues_apply, Matrix.mul_apply, Fin.sum_univ_three, cross_apply] <;> linarith
    · rw [Matrix.det_fin_three]
      fin_cases i <;> simp [rodrigues_apply, cross_apply] <;> linarith
  · intro p
    rw [h]
    ext j
    simp only [Matrix.mulVec, dotProduct, Fin.sum_univ_three, Matrix.of_apply, Pi.add_apply, Pi.zero_apply]
    fin_cases i <;> fin_cases j <;> simp [rodrigues_apply, cross_apply, toF] <;> ring

/-- A rotation about a named axis or a translation by a vector. -/
def Spec.Rigid : Transf → Prop
  | .rotate _ _ => True
  | .translate (.vector _) => True
  | _ => False

theorem isMotion_of_rigid (t : Transf) (f : V → V) (h : PointMap t f) (hr : Rigid t) : IsMotion f := by
  match t, h, hr with
  | .rotate angle axis, ⟨i, _, hf⟩, _ => exact isMotion_rotate i _ f hf
  | .translate (.vector v), hf, _ => exact isMotion_translate v f hf

theorem isMotion_foldl (ts : List Transf) (fs : List (V → V)) (h : List.Forall₂ PointMap ts fs) (hr : ∀ t ∈ ts, Rigid t) :
    IsMotion fun p => fs.foldl (fun q f => f q) p := by
  induction h with
  | nil => exact isMotion_id
  | cons h _ ih =>
    exact isMotion_comp (isMotion_of_rigid _ _ h (hr _ (by simp))) (ih fun t ht => hr t (by simp [ht]))

/-- Coordinates of a moved point. -/
theorem motion_coords (A : V → V) (m : Matrix (Fin 3) (Fin 3) ℝ) (t : Fin 3 → ℝ) (h : ∀ p, toF (A p) = m.mulVec (toF p) + t)
    (p : V) : A p = ⟨m 0 0 * p.x + m 0 1 * p.y + m 0 2 * p.z + t 0, m 1 0 * p.x + m 1 1 * p.y + m 1 2 * p.z + t 1,
      m 2 0 * p.x + m 2 1 * p.y + m 2 2 * p.z + t 2⟩ := by
  have h0 := congrFun (h p) 0
  have h1 := congrFun (h p) 1
  have h2 := congrFun (h p) 2
  simp [toF, Matrix.mulVec, dotProduct, Fin.sum_univ_three] at h0 h1 h2
  ext
  exacts [h0, h1, h2]

theorem motion_rel (A : V → V) (h : IsMotion A) : ∃ a b c d e f g k l x y z : ℝ,
    (∀ p, A p = ⟨a * p.x + b * p.y + c * p.z + x, d * p.x + e * p.y + f * p.z + y, g * p.x + k * p.y + l * p.z + z⟩) ∧
    a * a + d * d + g * g = 1 ∧ b * b + e * e + k * k = 1 ∧ c * c + f * f + l * l = 1 ∧
    a * b + d * e + g * k = 0 ∧ a * c + d * f + g * l = 0 ∧ b * c + e * f + k * l = 0 ∧
    a * e * l - a * f * k - b * d * l + b * f * g + c * d * k - c * e * g = 1 := by
  obtain ⟨m, t, hm, h⟩ := h
  rw [Matrix.mem_specialOrthogonalGroup_iff, Matrix.mem_orthogonalGroup_iff'] at hm
  obtain ⟨ho, hd⟩ := hm
  refine ⟨m 0 0, m 0 1, m 0 2, m 1 0, m 1 1, m 1 2, m 2 0, m 2 1, m 2 2, t 0, t 1, t 2, motion_coords A m t h, ?_⟩
  rw [Matrix.det_fin_three] at hd
  have key : ∀ i j : Fin 3, m 0 i * m 0 j + m 1 i * m 1 j + m 2 i * m 2 j = (1 : Matrix (Fin 3) (Fin 3) ℝ) i j := by
    intro i j
    rw [← ho]
    simp [Matrix.mul_apply, Fin.sum_univ_three, Matrix.star_apply]
  exact ⟨by simpa using key 0 0, by simpa using key 1 1, by simpa using key 2 2, by simpa using key 0 1, by simpa using key 0 2,
    by simpa using key 1 2, hd⟩

/-- Rigid motions keep the signed volume of closed meshes. -/
theorem signedVolume_motion (A : V → V) (h : IsMotion A) (m : TriMesh ℝ) (hc : Closed m) :
    signedVolume (mapVerts A m) = signedVolume m := by
  obtain ⟨a, b, c, d, e, f, g, k, l, x, y, z, hA, h1, h2, h3, h4, h5, h6, h7⟩ := motion_rel A h
  set L : V → V := fun p => ⟨a * p.x + b * p.y + c * p.z, d * p.x + e * p.y + f * p.z, g * p.x + k * p.y + l * p.z⟩ with hL
  let φ : V → V → ℝ := fun p q => det3 ⟨x, y, z⟩ (L p) (L q)
  have hφ : Anti φ := by
    intro p q
    simp only [φ, det3]
    ring
  have key : ∀ m : TriMesh ℝ, signedVolume (mapVerts A m) = signedVolume m + edgeSum φ (edges m) / 6 := by
    intro m
    induction m with
    | nil => simp [signedVolume, mapVerts, edgeSum, edges]
    | cons t m ih =>
      have e1 : mapVerts A (t :: m) = [⟨A t.v0, A t.v1, A t.v2⟩] ++ mapVerts A m := rfl
      have e2 : t :: m = [t] ++ m := rfl
      rw [e1, e2, signedVolume_add, signedVolume_add, edges_append, edgeSum_append, ih]
      have e3 : signedVolume [⟨A t.v0, A t.v1, A t.v2⟩] = signedVolume [t] + edgeSum φ (edges [t]) / 6 := by
        simp only [signedVolume, List.map_cons, List.map_nil, List.sum_cons, List.sum_nil, edges, List.flatMap_cons,
          List.flatMap_nil, triEdges, edgeSum, List.append_nil, φ, hA, hL, det3]
        linear_combination ((t.v0.x * (t.v1.y * t.v2.z - t.v1.z * t.v2.y) - t.v0.y * (t.v1.x * t.v2.z - t.v1.z * t.v2.x)
          + t.v0.z * (t.v1.x * t.v2.y - t.v1.y * t.v2.x)) / 6) * h7
      rw [e3]
      ring
  rw [key, edgeSum_eq_zero_of_balanced φ hφ (fun a ha => by linarith) _ hc]
  ring

/-- Rigid motions keep the surface area. -/
theorem surfaceArea_motion (A : V → V) (h : IsMotion A) (m : TriMesh ℝ) : surfaceArea (mapVerts A m) = surfaceArea m := by
  obtain ⟨a, b, c, d, e, f, g, k, l, x, y, z, hA, h1, h2, h3, h4, h5, h6, h7⟩ := motion_rel A h
  have gram : ∀ u1 u2 u3 v1 v2 v3 : ℝ, (u2 * v3 - u3 * v2) ^ 2 + (u3 * v1 - u1 * v3) ^ 2 + (u1 * v2 - u2 * v1) ^ 2 =
      (u1 * u1 + u2 * u2 + u3 * u3) * (v1 * v1 + v2 * v2 + v3 * v3) - (u1 * v1 + u2 * v2 + u3 * v3) ^ 2 := by
    intros; ring
  have dot : ∀ u1 u2 u3 v1 v2 v3 : ℝ, (a * u1 + b * u2 + c * u3) * (a * v1 + b * v2 + c * v3) +
      (d * u1 + e * u2 + f * u3) * (d * v1 + e * v2 + f * v3) + (g * u1 + k * u2 + l * u3) * (g * v1 + k * v2 + l * v3) =
      u1 * v1 + u2 * v2 + u3 * v3 := by
    intro u1 u2 u3 v1 v2 v3
    linear_combination (u1 * v1) * h1 + (u2 * v2) * h2 + (u3 * v3) * h3 + (u1 * v2 + u2 * v1) * h4 + (u1 * v3 + u3 * v1) * h5 +
      (u2 * v3 + u3 * v2) * h6
  unfold surfaceArea mapVerts
  rw [List.map_map]
  congr 1
  apply List.map_congr_left
  intro t _
  have e1 : ∀ t : Tri ℝ, triArea2 t 0 ^ 2 + triArea2 t 1 ^ 2 + triArea2 t 2 ^ 2 =
      ((t.v1.x - t.v0.x) * (t.v1.x - t.v0.x) + (t.v1.y - t.v0.y) * (t.v1.y - t.v0.y) + (t.v1.z - t.v0.z) * (t.v1.z - t.v0.z)) *
      ((t.v2.x - t.v0.x) * (t.v2.x - t.v0.x) + (t.v2.y - t.v0.y) * (t.v2.y - t.v0.y) + (t.v2.z - t.v0.z) * (t.v2.z - t.v0.z)) -
      ((t.v1.x - t.v0.x) * (t.v2.x - t.v0.x) + (t.v1.y - t.v0.y) * (t.v2.y - t.v0.y) + (t.v1.z - t.v0.z) * (t.v2.z - t.v0.z)) ^ 2 := by
    intro t
    rw [← gram]
    rfl
  have dif : ∀ p q : V, (A p).x - (A q).x = a * (p.x - q.x) + b * (p.y - q.y) + c * (p.z - q.z) ∧
      (A p).y - (A q).y = d * (p.x - q.x) + e * (p.y - q.y) + f * (p.z - q.z) ∧
      (A p).z - (A q).z = g * (p.x - q.x) + k * (p.y - q.y) + l * (p.z - q.z) := by
    intro p q
    rw [hA, hA]
    exact ⟨by ring, by ring, by ring⟩
  simp only [Function.comp]
  rw [e1, e1 t]
  simp only [(dif _ _).1, (dif _ _).2.1, (dif _ _).2.2, dot]

theorem cellCentre_motion (A : V → V) (h : IsMotion A) (p q u v : V) :
    cellCentre MeshArith.real (A p) (A q) (A u) (A v) = A (cellCentre MeshArith.real p q u v) := by
  obtain ⟨a, b, c, d, e, f, g, k, l, x, y, z, hA, -⟩ := motion_rel A h
  simp only [hA, cellCentre, MeshArith.real]
  ext <;> ring

/-- C99: rotating and translating a component by fixed amounts moves its whole mesh by one proper rigid motion; so the
surface area and, for watertight components, the enclosed volume remain. -/
theorem C99_rigid (c : Comp) (fs : List (V → V)) (ht : List.Forall₂ PointMap c.transformations fs)
    (hg : ∀ t ∈ c.transformations, Rigid t) (n : ℕ) (hn : 1 ≤ n) (hr : c.stl_resolution = .int n) (hm : c.mesh_ = none)
    (hs : c.surfaces = none) (hk : (c.patches.map Prod.fst).Nodup) (hy : c.clustering.mirror_y = false) (M : StlMesh) (d : Comp)
    (hM : c.mesh = (.ok M, d)) :
    ∃ c' M' d' A, c.transform = (.ok (), c') ∧ c'.mesh = (.ok M', d') ∧ IsMotion A ∧
      (∀ p, A p = fs.foldl (fun q f => f q) p) ∧ M'.tris = mapVerts A M.tris ∧
      surfaceArea M'.tris = surfaceArea M.tris ∧ (Closed M.tris → signedVolume M'.tris = signedVolume M.tris) := by
  obtain ⟨c', h1, h2⟩ := applyAll_acts _ fs ht c
  have hA := isMotion_foldl _ fs ht hg
  obtain ⟨M', d', h3, -, h4⟩ := mesh_acts c c' _ h2 n hn hr hm hs hk M d hM
  have h5 := h4 (cellCentre_motion _ hA)
  have e : viaMirror c.clustering.mirror_y (fun p => fs.foldl (fun q f => f q) p) = fun p => fs.foldl (fun q f => f q) p := by
    funext p
    rw [viaMirror, hy]
    simp [meshVertex_real]
  rw [e] at h5
  refine ⟨c', M', d', _, h1, h3, hA, fun _ => rfl, h5, ?_, fun hc => ?_⟩
  · rw [h5, surfaceArea_motion _ hA]
  · rw [h5, signedVolume_motion _ hA _ hc]

theorem closed_mapVerts (f : V → V) (m : TriMesh ℝ) (h : Closed m) : Closed (mapVerts f m) := by
  rw [closed_iff_edgeSum]
  intro φ hφ
  rw [edgeSum_mapVerts]
  exact (closed_iff_edgeSum _).1 h _ fun a b => hφ _ _

/-- C99: reflecting, whether the mirror images are appended or replace the patches, keeps a closed mesh closed. -/
theorem C99_reflect (c : Comp) (a : String) (i : Fin 3) (ha : NamesAxis a i) (n : ℕ) (hn : 1 ≤ n)
    (hr : c.stl_resolution = .int n) (hm : c.mesh_ = none) (hs : c.surfaces = none) (hk : (c.patches.map Prod.fst).Nodup)
    (hc : ∀ k ∈ c.patches.map Prod.fst, k ++ "_mirrored" ∉ c.patches.map Prod.fst)
    (hax : AxisUsed c.reflection_axis none a) (M : StlMesh) (c' : Comp) (hM : c.mesh = (.ok M, c')) (hcl : Closed M.tris) :
    ∃ M' c'', (c.reflect none).mesh = (.ok M', c'') ∧ Closed M'.tris := by
  cases happ : c.append_reflection with
  | true =>
    obtain ⟨M', c'', h1, h2, -⟩ := C51_violated c a i ha n hn hr hm hs hk hc hax happ M c' hM
    refine ⟨M', c'', h1, ?_⟩
    rw [h2, closed_iff_edgeSum]
    intro φ hφ
    rw [edges_append, edgeSum_append, (closed_iff_edgeSum _).1 hcl φ hφ,
      (closed_iff_edgeSum _).1 (closed_mapVerts _ _ hcl) φ hφ, add_zero]
  | false =>
    obtain ⟨M', c'', h1, h2, -⟩ := C51_replace_partial c a i ha n hn hr hm hs hk hax happ M c' hM
    refine ⟨M', c'', h1, ?_⟩
    rw [h2]
    exact closed_mapVerts _ _ hcl

/-! ## Generation of a vehicle's component -/

/-- `c` has patches with distinct names and a watertight mesh at resolution `n`, not yet computed. -/
def Spec.WatertightAt (n : ℕ) (c : Comp) : Prop :=
  c.stl_resolution = .int n ∧ c.mesh_ = none ∧ c.surfaces = none ∧ (c.patches.map Prod.fst).Nodup ∧
    ∃ M d, c.mesh = (.ok M, d) ∧ Closed M.tris

theorem acts_names {f : V → V} {c c' : Comp} (ha : ActsOnPatches (fun p q => q = f p) c c') :
    c'.patches.map Prod.fst = c.patches.map Prod.fst := by
  have : ∀ (l l' : List (String × Surf)), List.Forall₂ (fun e e' => e'.1 = e.1 ∧ (∀ r s p, e.2 r s = .ok p →
      ∃ q, e'.2 r s = .ok q ∧ q = f p) ∧ (∀ r s x, e.2 r s = .error x → e'.2 r s = .error x)) l l' →
      l'.map Prod.fst = l.map Prod.fst := by
    intro l l' h
    induction h with
    | nil => rfl
    | cons h _ ih => rw [List.map_cons, List.map_cons, h.1, ih]
  exact this _ _ ha.2

theorem watertight_acts {n : ℕ} (hn : 1 ≤ n) {f : V → V} {c c' : Comp} (ha : ActsOnPatches (fun p q => q = f p) c c')
    (h : WatertightAt n c) : WatertightAt n c' := by
  obtain ⟨h1, h2, h3, h4, M, d, h5, h6⟩ := h
  obtain ⟨M', d', g1, g2⟩ := C99_closed c c' f ha n hn h1 h2 h3 h4 M d h5 h6
  exact ⟨(congrArg Comp.stl_resolution ha.1 :).trans h1, (congrArg Comp.mesh_ ha.1 :).trans h2,
    (congrArg Comp.surfaces ha.1 :).trans h3, by rw [acts_names ha]; exact h4, M', d', g1, g2⟩

/-- The point map of one curvature. -/
noncomputable def curvePt (k : Curvature) (p : V) : V :=
  okv (CurvedPatch (fun _ _ => .ok p) (some k.direction) (some k.fn) (some k.fn_dash) 0 0)

theorem curveFn_acts (c : Comp) (hk : ∀ l, c.curvatures = some l → ∀ k ∈ l, (k.direction = "x" ∨ k.direction = "y") ∧
    ∀ x y, ∃ f m, k.fn x y = .ok f ∧ k.fn_dash x y = .ok m) :
    ∃ f : V → V, ActsOnPatches (fun p q => q = f p) c c.curve := by
  rcases hc : c.curvatures with _ | l
  · rw [(C49_curve c).1 hc]
    exact ⟨fun p => p, acts_refl c⟩
  · have hl := hk l hc
    clear hk
    have e : c.curve = { c with patches := l.foldl (fun d k =>
        d.mapVals fun _ p => CurvedPatch p (some k.direction) (some k.fn) (some k.fn_dash)) c.patches } := by
      simp [Comp.curve, hc]
    rw [e]
    clear e hc
    refine ⟨fun p => l.foldl (fun p k => curvePt k p) p, rfl, ?_⟩
    show List.Forall₂ _ c.patches _
    generalize c.patches = d
    induction l generalizing d with
    | nil => exact (acts_refl { c with patches := d }).2
    | cons k l ih =>
      have h1 : ActsOnPatches (fun p q => q = curvePt k p) { c with patches := d } { c with
          patches := d.mapVals fun _ p => CurvedPatch p (some k.direction) (some k.fn) (some k.fn_dash) } := by
        apply actsOnPatches_mapVals _ { c with patches := d } fun p => CurvedPatch p (some k.direction) (some k.fn) (some k.fn_dash)
        · intro surf r s p hp
          obtain ⟨hd, hf⟩ := hl k (by simp)
          obtain ⟨f, m, hf, hm⟩ := hf p.x p.y
          refine ⟨_, ?_, rfl⟩
          rcases hd with hd | hd <;>
            simp [curvePt, CurvedPatch, hp, hf, hm, hd, bind, Except.bind, pure, Except.pure, okv]
        · intro surf r s x hx
          simp [CurvedPatch, hx, bind, Except.bind]
      have h2 := ih (fun k' hk' => hl k' (List.mem_cons_of_mem _ hk')) (d.mapVals fun _ p =>
          CurvedPatch p (some k.direction) (some k.fn) (some k.fn_dash))
      have h3 : ActsOnPatches (fun p q => q = (fun p => l.foldl (fun p k => curvePt k p) p) p)
          { c with patches := d.mapVals fun _ p => CurvedPatch p (some k.direction) (some k.fn) (some k.fn_dash) }
          { c with patches := l.foldl (fun d k => d.mapVals fun _ p => CurvedPatch p (some k.direction) (some k.fn)
            (some k.fn_dash)) (d.mapVals fun _ p => CurvedPatch p (some k.direction) (some k.fn) (some k.fn_dash)) } := ⟨rfl, h2⟩
      exact (acts_trans h1 h3).2

theorem modifierFn_acts (c : Comp) (hm : ∀ f, c.modifier = some f → ∀ x y z, ∃ v, f x y z = .ok v) :
    ∃ f : V → V, ActsOnPatches (fun p q => q = f p) c c.applyModifier := by
  cases h : c.modifier with
  | none => rw [(C49_modifier c).1 h]; exact ⟨fun p => p, acts_refl c⟩
  | some g =>
    choose v hv using hm g h
    have e : g = fun x y z => .ok (v x y z) := by funext x y z; exact hv x y z
    subst e
    exact ⟨fun p => ⟨p.x + (v p.x p.y p.z).x, p.y + (v p.x p.y p.z).y, p.z + (v p.x p.y p.z).z⟩,
      acts_imp ((C49_modifier c).2 v h) fun p q h => by ext; exacts [h.1, h.2.1, h.2.2]⟩

theorem pointMap_of_plain (ts : List Transf) (h : ∀ t ∈ ts, Plain t) : ∃ fs, List.Forall₂ PointMap ts fs := by
  induction ts with
  | nil => exact ⟨[], .nil⟩
  | cons t ts ih =>
    obtain ⟨fs, hf⟩ := ih fun t' ht' => h t' (by simp [ht'])
    have : ∃ f, PointMap t f := by
      cases h t (by simp) with
      | @rotate angle axis i hi =>
        exact ⟨fun p => ⟨rodrigues (Pi.single i 1) (toF p) (angle * Real.pi / 180) 0,
          rodrigues (Pi.single i 1) (toF p) (angle * Real.pi / 180) 1,
          rodrigues (Pi.single i 1) (toF p) (angle * Real.pi / 180) 2⟩, i, hi, fun p => by ext j; fin_cases j <;> rfl⟩
      | vector v => exact ⟨fun p => ⟨p.x + v.x, p.y + v.y, p.z + v.z⟩, fun _ => rfl⟩
      | @callable f hf =>
        choose d hd using hf
        exact ⟨_, d, hd, fun _ => rfl⟩
    obtain ⟨f, hf'⟩ := this
    exact ⟨f :: fs, .cons hf' hf⟩

theorem watertight_applyAll {n : ℕ} (hn : 1 ≤ n) (ts : List Transf) (h : ∀ t ∈ ts, Plain t) (c : Comp) (hw : WatertightAt n c) :
    ∃ c', c.applyAll ts = (.ok (), c') ∧ WatertightAt n c' ∧ { c' with patches := c.patches } = c := by
  obtain ⟨fs, hf⟩ := pointMap_of_plain ts h
  obtain ⟨c', h1, h2⟩ := applyAll_acts ts fs hf c
  exact ⟨c', h1, watertight_acts hn h2 hw, h2.1⟩

theorem watertight_reflect {n : ℕ} (hn : 1 ≤ n) (c : Comp) (hax : ∀ a, c.reflection_axis = some a → ∃ i, NamesAxis a i)
    (hmir : ∀ k ∈ c.patches.map Prod.fst, k ++ "_mirrored" ∉ c.patches.map Prod.fst) (hw : WatertightAt n c) :
    WatertightAt n (c.reflect none) ∧ { c.reflect none with patches := c.patches } = c := by
  cases hr : c.reflection_axis with
  | none => rw [C50_no_axis c none hr rfl]; exact ⟨hw, rfl⟩
  | some a =>
    obtain ⟨i, hi⟩ := hax a hr
    obtain ⟨x1, x2, x3, x4, M, d, x5, x6⟩ := hw
    have hau : AxisUsed c.reflection_axis none a := .inl hr
    obtain ⟨M', d', y1, y2⟩ := C99_reflect c a i hi n hn x1 x2 x3 x4 hmir hau M d x5 x6
    cases happ : c.append_reflection with
    | true =>
      have hR := C50_append_partial c none a hau x4 happ hmir
      refine ⟨⟨by rw [hR]; exact x1, by rw [hR]; exact x2, by rw [hR]; exact x3, ?_, M', d', y1, y2⟩, by rw [hR]⟩
      rw [hR]
      show (List.map _ (_ ++ _)).Nodup
      rw [List.map_append, List.nodup_append]
      refine ⟨x4, mirrored_nodup a _ x4, ?_⟩
      rintro k hk k' hk' rfl
      simp only [List.map_map, List.mem_map, Function.comp] at hk'
      obtain ⟨e, he, rfl⟩ := hk'
      exact hmir e.1 (List.mem_map_of_mem he) hk
    | false =>
      have hR := C50_replace c none a hau x4 happ
      refine ⟨⟨by rw [hR]; exact x1, by rw [hR]; exact x2, by rw [hR]; exact x3, ?_, M', d', y1, y2⟩, by rw [hR]⟩
      rw [hR]
      exact mirrored_nodup a _ x4

theorem watertight_congr {n : ℕ} (hn : 1 ≤ n) {c c' : Comp} (hw : WatertightAt n c) (h1 : c'.patches = c.patches)
    (h2 : c'.clustering = c.clustering) (h3 : c'.stl_resolution = c.stl_resolution) (h4 : c'.mesh_ = none)
    (h5 : c'.surfaces = none) : WatertightAt n c' := by
  obtain ⟨x1, x2, x3, x4, M, d, x5, x6⟩ := hw
  have hne : c.patches ≠ [] := by
    intro h
    have := (C52_no_patches c none h x2 x3).2
    rw [x5] at this
    cases this
  have hmo := (C52_mesh c n hn x1 x2 x3 x4 hne).2 M d x5
  obtain ⟨M', d', g1, g2, -⟩ := (C52_mesh c' n hn (h3.trans x1) h4 h5 (by rw [h1]; exact x4) (by rw [h1]; exact hne)).1 M.tris
    (by rw [h1, h2]; exact hmo)
  exact ⟨h3.trans x1, h4, h5, by rw [h1]; exact x4, M', d', g1, by rw [g2]; exact x6⟩

/-- C99, for whole vehicles: whatever modifier, curvatures, angle, reflection and transformations are configured on the
component and on the vehicle, `generate` turns a component whose own patches form a watertight mesh into one with a
watertight mesh.  Modifiers, curvatures and translations may be arbitrary functions as long as they do not raise. -/
theorem C99_vehicle (lib : Lib) (depth : ℕ) (st st' : VState) (hu : Unshared st.heap st.veh.components)
    (h : Veh.generate lib depth st = (.ok (), st')) (k : ℕ) (hk : k ∈ st.veh.components) (hus : Usable (st.heap k))
    (hv : ∀ t ∈ st.veh.transformations, Plain t) (n : ℕ) (hn : 1 ≤ n) (hw : WatertightAt n (ownPatches st.heap k))
    (hmir : ∀ m ∈ (ownPatches st.heap k).patches.map Prod.fst,
      m ++ "_mirrored" ∉ (ownPatches st.heap k).patches.map Prod.fst)
    (hm : (st'.heap k).mesh_ = none) (hs : (st'.heap k).surfaces = none) : WatertightAt n (st'.heap k) := by
  obtain ⟨c4, c5, c6, h4, h5, h6, e6, hso⟩ := C70_steps lib depth st st' hu h k hk
  obtain ⟨P, R, S, eg⟩ := generatePatches_opts st.heap k (hu.notChild k hk k hk)
  change ownPatches st.heap k = _ at eg
  set o := ownPatches st.heap k with ho
  obtain ⟨f1, a1⟩ := modifierFn_acts o (by rw [eg]; exact hus.modifier)
  have w1 := watertight_acts hn a1 hw
  have cur1 : o.applyModifier.curvatures = o.curvatures := (congrArg Comp.curvatures a1.1 :)
  obtain ⟨f2, a2⟩ := curveFn_acts o.applyModifier (by rw [cur1, eg]; exact hus.curvatures)
  have w2 := watertight_acts hn a2 w1
  obtain ⟨fs, hfs⟩ := pointMap_of_plain [.rotate st.veh.angleOffset "y"]
    (by simp only [List.mem_singleton, forall_eq]; exact .rotate _ (i := 1) (.inl rfl))
  obtain ⟨c3, b3, a3⟩ := applyAll_acts _ fs hfs o.applyModifier.curve
  have e3 : o.applyModifier.curve.rotate st.veh.angleOffset "y" = c3 := by cases b3; rfl
  have w3 := watertight_acts hn a3 w2
  have a123 := acts_trans (acts_trans a1 a2) a3
  have n3 := acts_names a123
  have r3 : c3.reflection_axis = o.reflection_axis := (congrArg Comp.reflection_axis a123.1 :)
  obtain ⟨w4, f4⟩ := watertight_reflect hn c3 (by rw [r3, eg]; exact hus.axis) (by rw [n3]; exact hmir) w3
  rw [e3] at h4
  subst h4
  obtain ⟨c5', h5', w5, f5⟩ := watertight_applyAll hn (st.heap k).transformations hus.transformations _ w4
  obtain rfl : c5' = c5 := by rw [h5] at h5'; cases h5'; rfl
  obtain ⟨c6', h6', w6, f6⟩ := watertight_applyAll hn st.veh.transformations hv _ w5
  obtain rfl : c6' = c6 := by rw [h6] at h6'; cases h6'; rfl
  obtain ⟨P', R', S', s', m', eso⟩ := hso
  have key : ∀ {α : Type} (F : Comp → α), (∀ c P, F { c with patches := P } = F c) → F c6' = F o := by
    intro α F hF
    have g1 : F c6' = F c5' := by rw [← hF c6' c5'.patches, f6]
    have g2 : F c5' = F (c3.reflect none) := by rw [← hF c5' (c3.reflect none).patches, f5]
    have g3 : F (c3.reflect none) = F c3 := by rw [← hF (c3.reflect none) c3.patches, f4]
    have g4 : F c3 = F o := by rw [← hF c3 o.patches, a123.1]
    rw [g1, g2, g3, g4]
  refine watertight_congr hn w6 e6 ?_ ?_ hm hs
  · rw [key Comp.clustering fun _ _ => rfl, eso, eg]
  · rw [key Comp.stl_resolution fun _ _ => rfl, eso, eg]

/-! ## Examples: a spindle -/

/-- The spindle of `spindle_call` at resolution 3. -/
noncomputable def spindle : Comp := RevolvedComponent (Bezier [⟨0, 0, 0⟩, ⟨1 / 2, 1 / 2, 0⟩, ⟨1, 0, 0⟩]) 3 none

theorem spindle_watertight : WatertightAt 3 (ownPatches (fun _ => spindle) 0) ∧
    (ownPatches (fun _ => spindle) 0).patches.map Prod.fst =
      ["revolved_fuse_0", "revolved_fuse_1", "revolved_fuse_2", "revolved_fuse_3"] := by
  obtain ⟨h', M, c', h1, h2, h3⟩ := C60_watertight _ (fun t => ⟨t, t * (1 - t), 0⟩) (fun t _ _ => spindle_call t) ⟨by simp, rfl⟩
    ⟨by simp, rfl⟩ 3 (by norm_num) none (fun _ => spindle) 0 rfl
  have e : ownPatches (fun _ => spindle) 0 = h' 0 := by unfold ownPatches; rw [h1]
  have hn : (ownPatches (fun _ => spindle) 0).patches.map Prod.fst =
      ["revolved_fuse_0", "revolved_fuse_1", "revolved_fuse_2", "revolved_fuse_3"] := rfl
  refine ⟨⟨rfl, rfl, rfl, ?_, M, c', ?_, h3⟩, hn⟩
  · rw [hn]; decide
  · rw [e]; exact h2

/-- The spindle with modifier, curvature, reflection and transformation. -/
noncomputable def bentSpindle : Comp :=
  { spindle with
    modifier := some fun x y _ => .ok ⟨0, x * y, 1⟩, curvatures := some [⟨"x", fun x _ => .ok (x ^ 2), fun x _ => .ok (2 * x)⟩],
    reflection_axis := some "y", transformations := [.rotate 45 "x", .translate (.callable fun x _ _ => .ok ⟨0, 0, x ^ 3⟩)] }

/-- The hypotheses of `C99_vehicle` are met by a vehicle whose components use every option. -/
example : ∃ st', Veh.generate ⟨fun _ _ => .error .exc, fun _ => 0⟩ 0
      ⟨fun _ => bentSpindle, { components := [0, 1], angleOffset := 30, transformations := CART3D }⟩ = (.ok (), st') ∧
    WatertightAt 3 (st'.heap 0) := by
  refine ⟨_, rfl, ?_⟩
  refine C99_vehicle ⟨fun _ _ => .error .exc, fun _ => 0⟩ 0
    ⟨fun _ => bentSpindle, { components := [0, 1], angleOffset := 30, transformations := CART3D }⟩ _ ?_ rfl 0 (by simp) ?_
    cart3d_plain 3 (by norm_num) ?_ ?_ rfl rfl
  · refine ⟨by decide, ?_, ?_⟩ <;> intros <;> simp [bentSpindle, spindle, RevolvedComponent, Comp.children]
  · refine ⟨?_, ?_, ?_, ?_⟩
    · intro f hf; cases hf; exact fun _ _ _ => ⟨_, rfl⟩
    · intro l hl; cases hl
      intro k hk
      rw [List.mem_singleton] at hk
      subst hk
      exact ⟨.inl rfl, fun x y => ⟨_, _, rfl, rfl⟩⟩
    · intro a ha; cases ha; exact ⟨1, .inl rfl⟩
    · intro t ht
      simp only [bentSpindle, List.mem_cons, List.not_mem_nil, or_false] at ht
      rcases ht with rfl | rfl
      · exact .rotate _ (i := 0) (.inl rfl)
      · exact .callable fun _ _ _ => ⟨_, rfl⟩
  · exact watertight_congr (by norm_num) spindle_watertight.1 rfl rfl rfl rfl rfl
  · intro m hm
    have e : (ownPatches (fun _ => bentSpindle) 0).patches = (ownPatches (fun _ => spindle) 0).patches := rfl
    show _ ∉ (ownPatches (fun _ => bentSpindle) 0).patches.map Prod.fst
    change m ∈ (ownPatches (fun _ => bentSpindle) 0).patches.map Prod.fst at hm
    rw [e, spindle_watertight.2] at hm ⊢
    simp only [List.mem_cons, List.not_mem_nil, or_false] at hm
    rcases hm with rfl | rfl | rfl | rfl <;> decide

/-- The hypotheses of `C99_rigid` are met by the generated spindle with a rotation and a translation. -/
example : ∃ (c : Comp) (fs : List (V → V)) (M : StlMesh) (d : Comp), List.Forall₂ PointMap c.transformations fs ∧
    (∀ t ∈ c.transformations, Rigid t) ∧ c.transformations.length = 2 ∧ WatertightAt 3 c ∧ c.clustering.mirror_y = false ∧
    c.mesh = (.ok M, d) ∧ Closed M.tris := by
  obtain ⟨fs, hfs⟩ := pointMap_of_plain [.rotate 45 "x", .translate (.vector ⟨1, 2, 3⟩)] (by
    intro t ht
    simp only [List.mem_cons, List.not_mem_nil, or_false] at ht
    rcases ht with rfl | rfl
    · exact .rotate _ (i := 0) (.inl rfl)
    · exact .vector _)
  have w : WatertightAt 3 { ownPatches (fun _ => spindle) 0 with
      transformations := [.rotate 45 "x", .translate (.vector ⟨1, 2, 3⟩)] } :=
    watertight_congr (by norm_num) spindle_watertight.1 rfl rfl rfl rfl rfl
  obtain ⟨M, d, h1, h2⟩ := w.2.2.2.2
  refine ⟨_, fs, M, d, hfs, ?_, rfl, w, rfl, h1, h2⟩
  intro t ht
  simp only [List.mem_cons, List.not_mem_nil, or_false] at ht
  rcases ht with rfl | rfl <;> exact trivial

/-- C51 fails for a concrete watertight body on one side of the mirror plane: the spindle lies in `x ≥ 0` and encloses a
positive volume, but together with its appended reflection in `x = 0` the mesh encloses the volume zero. -/
theorem C51_spindle_violated : ∃ (c : Comp) (M M' : StlMesh) (d d' : Comp), c.mesh = (.ok M, d) ∧ Closed M.tris ∧
    0 < signedVolume M.tris ∧ c.append_reflection = true ∧ c.reflection_axis = some "x" ∧
    (c.reflect none).mesh = (.ok M', d') ∧ Closed M'.tris ∧ signedVolume M'.tris = 0 := by
  obtain ⟨h', M, c', h1, h2, h3, h4⟩ := C97_volume _ (fun t => ⟨t, t * (1 - t), 0⟩) (fun t _ _ => spindle_call t)
    ⟨by simp, rfl⟩ ⟨by simp, rfl⟩ 3 (by norm_num) none (fun _ => spindle) 0 rfl
  have e : h' 0 = ownPatches (fun _ => spindle) 0 := by unfold ownPatches; rw [h1]
  set c : Comp := { h' 0 with reflection_axis := some "x" } with hc
  have hn : c.patches.map Prod.fst = ["revolved_fuse_0", "revolved_fuse_1", "revolved_fuse_2", "revolved_fuse_3"] := by
    rw [hc, e]; rfl
  have hd : c.stl_resolution = .int 3 ∧ c.mesh_ = none ∧ c.surfaces = none ∧ c.append_reflection = true := by
    rw [hc, e]; exact ⟨rfl, rfl, rfl, rfl⟩
  have hk : (c.patches.map Prod.fst).Nodup := by rw [hn]; decide
  have hne : c.patches ≠ [] := by intro h; rw [h] at hn; cases hn
  have hmo := (C52_mesh (h' 0) 3 (by norm_num) hd.1 hd.2.1 hd.2.2.1 hk hne).2 M c' h2
  obtain ⟨N, d, hN, hNM, -⟩ := (C52_mesh c 3 (by norm_num) hd.1 hd.2.1 hd.2.2.1 hk hne).1 M.tris hmo
  have hm : ∀ k ∈ c.patches.map Prod.fst, k ++ "_mirrored" ∉ c.patches.map Prod.fst := by
    intro m hm
    rw [hn] at hm ⊢
    simp only [List.mem_cons, List.not_mem_nil, or_false] at hm
    rcases hm with rfl | rfl | rfl | rfl <;> decide
  obtain ⟨M', c'', g1, g2, g3⟩ := C51_violated c "x" 0 (.inl rfl) 3 (by norm_num) hd.1 hd.2.1 hd.2.2.1 hk hm
    (.inl rfl) hd.2.2.2 N d hN
  obtain ⟨K, k1, k2, k3⟩ := C99_reflect c "x" 0 (.inl rfl) 3 (by norm_num) hd.1 hd.2.1 hd.2.2.1 hk hm (.inl rfl) N d hN
    (by rw [hNM]; exact h3)
  rw [g1] at k2
  obtain rfl : M' = K := Except.ok.inj (congrArg Prod.fst k2)
  refine ⟨c, N, M', d, c'', hN, by rw [hNM]; exact h3, ?_, hd.2.2.2, rfl, g1, k3, g3⟩
  rw [hNM, h4]
  have hs : 0 < Real.sin (2 * Real.pi / ((4 * 3 : ℕ) : ℝ)) := by
    apply Real.sin_pos_of_pos_of_lt_pi
    · positivity
    · push_cast; linarith [Real.pi_pos]
  simp only [polygonalVolume, Finset.sum_range_succ, Finset.sum_range_zero]
  norm_num at hs ⊢
  exact hs

end HV
