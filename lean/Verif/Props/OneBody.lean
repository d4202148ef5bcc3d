import Verif.Lemmas.Assembly
import Verif.Props.Motion
import Verif.Lemmas.Glued

/-!
# C117: vehicle transformations move the vehicle as one rigid body
-/

namespace HV
open Spec Veh

namespace Spec

/-- The mesh of the component has these triangles. -/
def MeshIs (c : Comp) (m : TriMesh ℝ) : Prop := ∃ M d, c.mesh = (.ok M, d) ∧ M.tris = m

/-- The component has distinct patches, an integer resolution, is not mirrored on output, and its mesh has not been computed yet. -/
structure Unmeshed (n : ℕ) (c : Comp) : Prop where
  res : c.stl_resolution = .int n
  mesh : c.mesh_ = none
  surf : c.surfaces = none
  names : (c.patches.map Prod.fst).Nodup
  mirror : c.clustering.mirror_y = false

/-- The list consists of rotations about coordinate axes and translations by fixed vectors. -/
def RigidList (ts : List Transf) : Prop := ∀ t ∈ ts, Plain t ∧ Rigid t

/-- Carrying out the transformations one after the other takes every point `p` to `A p`. -/
def InTurn (ts : List Transf) (A : V → V) : Prop := ∃ fs, List.Forall₂ PointMap ts fs ∧ ∀ p, A p = fs.foldl (fun q f => f q) p

end Spec

theorem motion_isometry (A : V → V) (h : IsMotion A) (u v : V) : vdist (A u) (A v) = vdist u v := by
  obtain ⟨a, b, c, d, e, f, g, k, l, x, y, z, hA, h1, h2, h3, h4, h5, h6, -⟩ := motion_rel A h
  apply vdist_eq_of_sq
  rw [vdist_sq, vdist_sq, hA, hA]
  simp only
  linear_combination (u.x - v.x) ^ 2 * h1 + (u.y - v.y) ^ 2 * h2 + (u.z - v.z) ^ 2 * h3 + 2 * (u.x - v.x) * (u.y - v.y) * h4 +
    2 * (u.x - v.x) * (u.z - v.z) * h5 + 2 * (u.y - v.y) * (u.z - v.z) * h6

theorem closedUpTo_isometry {ε : ℝ} {m : TriMesh ℝ} (A : V → V) (hA : ∀ u v, vdist (A u) (A v) = vdist u v) (h : ClosedUpTo ε m) :
    ClosedUpTo ε (mapVerts A m) := by
  obtain ⟨m', h1, h2⟩ := h
  exact ⟨_, within_mapVerts A hA h1, closed_mapVerts _ _ h2⟩

theorem gapFree_isometry {ε : ℝ} {m : TriMesh ℝ} (A : V → V) (hA : ∀ u v, vdist (A u) (A v) = vdist u v) (h : GapFree ε m) :
    GapFree ε (mapVerts A m) := by
  obtain ⟨m', m'', h1, h2, h3⟩ := h
  refine ⟨_, _, within_mapVerts A hA h1, ?_, closed_mapVerts A _ h3⟩
  unfold mapVerts
  rw [List.forall₂_map_left_iff, List.forall₂_map_right_iff]
  refine h2.imp fun t t' ht => ?_
  rcases ht with rfl | rfl
  · exact .inl rfl
  · exact .inr rfl

/-- Vehicle transformations that move points, applied to distinct components. -/
theorem transformAll_acts (ts : List Transf) (fs : List (V → V)) (hf : List.Forall₂ PointMap ts fs) (ks : List ℕ) (hn : ks.Nodup) (h : Heap) :
    ∃ h', transformAll h ts ks = (.ok (), h') ∧ (∀ k, k ∉ ks → h' k = h k) ∧
      ∀ k ∈ ks, ∃ c, ActsOnPatches (fun p q => q = fs.foldl (fun q f => f q) p) (h k) c ∧ h' k = { c with surfaces := none, mesh_ := none } := by
  induction ks generalizing h with
  | nil => exact ⟨h, rfl, fun _ _ => rfl, by simp⟩
  | cons k0 ks ih =>
    obtain ⟨hk0, hn'⟩ := List.nodup_cons.1 hn
    obtain ⟨c, hc, ha⟩ := applyAll_acts ts fs hf (h k0)
    obtain ⟨h', g1, g2, g3⟩ := ih hn' (h.upd k0 { c with surfaces := none, mesh_ := none })
    refine ⟨h', ?_, ?_, ?_⟩
    · unfold transformAll transformOne
      rw [hc]
      exact g1
    · intro k hk
      rw [List.mem_cons, not_or] at hk
      rw [g2 k hk.2, upd_ne _ _ _ _ hk.1]
    · intro k hk
      rcases List.mem_cons.1 hk with rfl | hk
      · exact ⟨c, ha, by rw [g2 _ hk0, upd_self]⟩
      · obtain ⟨c', a', e'⟩ := g3 k hk
        have : k ≠ k0 := fun h => hk0 (h ▸ hk)
        rw [upd_ne _ _ _ _ this] at a'
        exact ⟨c', a', e'⟩

/-- A component whose points are moved by a rigid motion, with its caches cleared. -/
theorem moved_mesh (c c' : Comp) (A : V → V) (hA : IsMotion A) (ha : ActsOnPatches (fun p q => q = A p) c c') (n : ℕ) (hn : 1 ≤ n)
    (hu : Unmeshed n c) : Unmeshed n { c' with surfaces := none, mesh_ := none } ∧
      ∀ m, MeshIs c m → MeshIs { c' with surfaces := none, mesh_ := none } (mapVerts A m) := by
  have hsur : c'.surfaces = none := (congrArg Comp.surfaces ha.1 :).trans hu.surf
  have hme : c'.mesh_ = none := (congrArg Comp.mesh_ ha.1 :).trans hu.mesh
  have e : ({ c' with surfaces := none, mesh_ := none } : Comp) = c' := by rw [← hsur, ← hme]
  rw [e]
  refine ⟨⟨(congrArg Comp.stl_resolution ha.1 :).trans hu.res, hme, hsur, by rw [acts_names ha]; exact hu.names,
    (congrArg (fun c => c.clustering.mirror_y) ha.1 :).trans hu.mirror⟩, ?_⟩
  rintro m ⟨M, d, hM, rfl⟩
  obtain ⟨M', d', k1, -, k3⟩ := mesh_acts c c' A ha n hn hu.res hu.mesh hu.surf hu.names M d hM
  refine ⟨M', d', k1, ?_⟩
  rw [k3 (fun p q u v => cellCentre_motion A hA p q u v), hu.mirror]
  congr 1
  funext p
  simp [viaMirror, meshVertex, MeshArith.real]

/-- C117, `Vehicle.transform`: rotations and translations of a generated vehicle move the meshes of all its components by one and the same
rigid motion, namely by the transformations one after the other.  Missing: vehicles to which a component has been added twice (see
`C117_twice_violated`). -/
theorem C117_transform_partial (st : VState) (a : TransfArg) (hr : RigidList a.toList) (hg : st.veh.generated = true) (hn : st.veh.components.Nodup) :
    ∃ A, InTurn a.toList A ∧ IsMotion A ∧ ∃ st', Veh.transform st a = (.ok (), st') ∧ st'.veh = st.veh ∧
      ∀ k ∈ st.veh.components, ∀ n, 1 ≤ n → Unmeshed n (st.heap k) → Unmeshed n (st'.heap k) ∧
        ∀ m, MeshIs (st.heap k) m → MeshIs (st'.heap k) (mapVerts A m) := by
  obtain ⟨fs, hfs⟩ := pointMap_of_plain a.toList fun t ht => (hr t ht).1
  have hA := isMotion_foldl _ fs hfs fun t ht => (hr t ht).2
  obtain ⟨h', g1, -, g3⟩ := transformAll_acts a.toList fs hfs st.veh.components hn st.heap
  refine ⟨_, ⟨fs, hfs, fun _ => rfl⟩, hA, ⟨h', st.veh⟩, ?_, rfl, ?_⟩
  · unfold Veh.transform
    rw [if_pos hg, g1]
  · intro k hk n hn1 hu
    obtain ⟨c, ha, e⟩ := g3 k hk
    simp only [e]
    exact moved_mesh _ _ _ hA ha n hn1 hu

/-- C117, `Vehicle.generate`: with vehicle transformations that are rotations and translations, `generate` produces the meshes it produces
without them, all moved by one and the same rigid motion, namely by the transformations one after the other.  Missing: as for `C117_transform_partial`. -/
theorem C117_generate_partial (lib : Lib) (depth : ℕ) (st st0 : VState) (hr : RigidList st.veh.transformations) (han : st.veh.analyseOn = none)
    (hn : st.veh.components.Nodup)
    (h0 : generate lib depth ⟨st.heap, { st.veh with transformations := [] }⟩ = (.ok (), st0)) :
    ∃ A, InTurn st.veh.transformations A ∧ IsMotion A ∧ ∃ st', generate lib depth st = (.ok (), st') ∧ st'.veh = { st.veh with generated := true } ∧
      ∀ k ∈ st.veh.components, ∀ n, 1 ≤ n → Unmeshed n (st0.heap k) → Unmeshed n (st'.heap k) ∧
        ∀ m, MeshIs (st0.heap k) m → MeshIs (st'.heap k) (mapVerts A m) := by
  unfold generate generateWith at h0 ⊢
  simp only at h0
  rcases he : genAll st.veh.angleOffset st.heap st.veh.components with ⟨_ | _, h⟩
  · rw [he] at h0; simp at h0
  rw [he] at h0
  simp only [genTransform, if_true, genAnalyse, han, Prod.mk.injEq, true_and] at h0
  subst h0
  simp only [genTransform]
  split_ifs with ht
  · refine ⟨id, ⟨[], by rw [ht]; exact .nil, fun _ => rfl⟩, isMotion_id, ⟨h, { st.veh with generated := true }⟩, by simp only [genAnalyse, han], rfl, fun k _ n _ hu => ⟨hu, fun m hm => ?_⟩⟩
    have : mapVerts id m = m := by simp [mapVerts]
    rw [this]; exact hm
  · obtain ⟨A, hI, hA, st', g1, g2, g3⟩ := C117_transform_partial ⟨h, { st.veh with generated := true }⟩ (.many st.veh.transformations) hr rfl hn
    refine ⟨A, hI, hA, st', ?_, g2, g3⟩
    rw [g1]
    simp only [genAnalyse, g2, han]

/-- C117, consequences for a motion: gaps, and distances between points of any two components, stay as they were. -/
theorem C117_keeps (A : V → V) (hA : IsMotion A) (m : TriMesh ℝ) : (∀ u v, vdist (A u) (A v) = vdist u v) ∧
    (Closed m → Closed (mapVerts A m)) ∧ (∀ ε, ClosedUpTo ε m → ClosedUpTo ε (mapVerts A m)) ∧ (∀ ε, GapFree ε m → GapFree ε (mapVerts A m)) ∧
    surfaceArea (mapVerts A m) = surfaceArea m ∧ (Closed m → signedVolume (mapVerts A m) = signedVolume m) :=
  ⟨motion_isometry A hA, closed_mapVerts A m, fun _ => closedUpTo_isometry A (motion_isometry A hA), fun _ => gapFree_isometry A (motion_isometry A hA),
    surfaceArea_motion A hA m, signedVolume_motion A hA m⟩

theorem meshIs_unique {c : Comp} {m m' : TriMesh ℝ} (h : MeshIs c m) (h' : MeshIs c m') : m = m' := by
  obtain ⟨M, d, h1, rfl⟩ := h
  obtain ⟨M', d', h2, rfl⟩ := h'
  rw [h1] at h2
  cases h2
  rfl

/-- The translation by `v`. -/
noncomputable def shiftBy (v p : V) : V := ⟨p.x + v.x, p.y + v.y, p.z + v.z⟩

theorem transformOne_shift (h : Heap) (k : ℕ) (v : V) (n : ℕ) (hn : 1 ≤ n) (hu : Unmeshed n (h k)) :
    ∃ c, transformOne h [.translate (.vector v)] k = (.ok (), h.upd k c) ∧ Unmeshed n c ∧ ∀ m, MeshIs (h k) m → MeshIs c (mapVerts (shiftBy v) m) := by
  obtain ⟨c, hc, ha⟩ := applyAll_acts [.translate (.vector v)] [shiftBy v] (.cons (fun _ => rfl) .nil) (h k)
  obtain ⟨u, w⟩ := moved_mesh _ _ (shiftBy v) (isMotion_translate v _ fun _ => rfl) ha n hn hu
  refine ⟨_, ?_, u, w⟩
  unfold transformOne
  rw [hc]

/-- C117, violated: a component that has been added to the vehicle twice is moved twice, so that the vehicle does not move as one body. -/
theorem C117_twice_violated (st : VState) (n : ℕ) (hn : 1 ≤ n) (hu : Unmeshed n (st.heap 0)) (h01 : st.heap 1 = st.heap 0) (m : TriMesh ℝ)
    (hm : MeshIs (st.heap 0) m) (hne : m ≠ []) (hg : st.veh.generated = true) (hc : st.veh.components = [0, 0, 1]) (v : V) (hv : v ≠ ⟨0, 0, 0⟩) :
    ∃ st', Veh.transform st (.one (.translate (.vector v))) = (.ok (), st') ∧ MeshIs (st'.heap 0) (mapVerts (shiftBy v) (mapVerts (shiftBy v) m)) ∧
      MeshIs (st'.heap 1) (mapVerts (shiftBy v) m) ∧ ¬ ∃ A : V → V, ∀ k ∈ st.veh.components, MeshIs (st'.heap k) (mapVerts A m) := by
  obtain ⟨c1, a1, a2, a3⟩ := transformOne_shift st.heap 0 v n hn hu
  obtain ⟨c2, b1, b2, b3⟩ := transformOne_shift (st.heap.upd 0 c1) 0 v n hn (by rw [upd_self]; exact a2)
  have e1 : ((st.heap.upd 0 c1).upd 0 c2) 1 = st.heap 0 := by rw [upd_ne _ _ _ _ (by decide), upd_ne _ _ _ _ (by decide), h01]
  obtain ⟨c3, d1, d2, d3⟩ := transformOne_shift ((st.heap.upd 0 c1).upd 0 c2) 1 v n hn (by rw [e1]; exact hu)
  rw [upd_self] at b3
  rw [e1] at d3
  have hm1 := b3 _ (a3 _ hm)
  have hm2 := d3 _ hm
  refine ⟨⟨((st.heap.upd 0 c1).upd 0 c2).upd 1 c3, st.veh⟩, ?_, ?_, ?_, ?_⟩
  · unfold Veh.transform
    simp only [hg, if_true, hc, TransfArg.toList, transformAll, a1, b1, d1]
  · simp only [upd_ne _ _ _ _ (show (0 : ℕ) ≠ 1 by decide), upd_self]; exact hm1
  · simp only [upd_self]; exact hm2
  · rintro ⟨A, hA⟩
    have k0 := hA 0 (by simp [hc])
    have k1 := hA 1 (by simp [hc])
    simp only [upd_ne _ _ _ _ (show (0 : ℕ) ≠ 1 by decide), upd_self] at k0 k1
    have e := (meshIs_unique hm1 k0).trans (meshIs_unique hm2 k1).symm
    cases m with
    | nil => exact hne rfl
    | cons t m =>
      have := congrArg (fun l => (l.head?).map Tri.v0) e
      simp only [mapVerts, List.map_cons, List.head?_cons, Option.map_some, Option.some.injEq, shiftBy, Vec.mk.injEq] at this
      apply hv
      ext
      · show v.x = 0; linarith [this.1]
      · show v.y = 0; linarith [this.2.1]
      · show v.z = 0; linarith [this.2.2]

/-! ## Example -/

/-- A vehicle holding two unit squares, with `l` as its list of components. -/
noncomputable def twoSquares (l : List ℕ) : VState :=
  ⟨fun _ => { componenttype := "wing", gen := .into fun _ => ⟨[], [], [], none⟩, patches := [("a", fun r s => .ok ⟨r, s, 0⟩)] },
    { ({} : Veh) with components := l, generated := true }⟩

theorem twoSquares_unmeshed (l : List ℕ) (k : ℕ) : Unmeshed 2 ((twoSquares l).heap k) ∧ ∃ m, m ≠ [] ∧ MeshIs ((twoSquares l).heap k) m := by
  refine ⟨⟨rfl, rfl, rfl, by simp [twoSquares], rfl⟩, ?_⟩
  obtain ⟨M, d, h1, h2⟩ := samples_mesh ((twoSquares l).heap k) 2 (by norm_num) rfl rfl rfl rfl (by simp [twoSquares]) (by simp [twoSquares])
    [fun i j => ⟨(i : ℝ) / 2, (j : ℝ) / 2, 0⟩] (.cons (fun i _ j _ => by simp) .nil)
  refine ⟨_, ?_, M, d, h1, rfl⟩
  rw [h2]
  simp [gridMesh, List.range_succ, cellTris]

example : ∃ A, IsMotion A ∧ ∃ st', Veh.transform (twoSquares [0, 1]) (.many [.rotate 30 "x", .translate (.vector ⟨1, 2, 3⟩)]) = (.ok (), st') := by
  obtain ⟨A, -, hA, st', h, -⟩ := C117_transform_partial (twoSquares [0, 1]) (.many [.rotate 30 "x", .translate (.vector ⟨1, 2, 3⟩)]) (by
    intro t ht
    simp only [TransfArg.toList, List.mem_cons, List.not_mem_nil, or_false] at ht
    rcases ht with rfl | rfl
    · exact ⟨.rotate _ (i := 0) (.inl rfl), trivial⟩
    · exact ⟨.vector _, trivial⟩) rfl (by simp [twoSquares])
  exact ⟨A, hA, st', h⟩

example : ∃ st', Veh.transform (twoSquares [0, 0, 1]) (.one (.translate (.vector ⟨1, 0, 0⟩))) = (.ok (), st') ∧
    ∃ m, m ≠ [] ∧ ¬ ∃ A : V → V, ∀ k ∈ (twoSquares [0, 0, 1]).veh.components, MeshIs (st'.heap k) (mapVerts A m) := by
  obtain ⟨h1, m, h2, h3⟩ := twoSquares_unmeshed [0, 0, 1] 0
  obtain ⟨st', g1, -, -, g2⟩ := C117_twice_violated (twoSquares [0, 0, 1]) 2 (by norm_num) h1 rfl m h3 h2 rfl rfl ⟨1, 0, 0⟩ (by simp)
  exact ⟨st', g1, m, h2, g2⟩

end HV
