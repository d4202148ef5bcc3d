import Verif.Props.MirrorWedge
import Verif.Lemmas.MeshVertex

/-!
# C136: the dimensions of the examples are the dimensions of their meshes
-/

namespace HV
open Spec Veh

namespace Spec

/-- The points are vertices of the mesh, and the mesh lies in every half-space in which the points lie. -/
def HasCorners (m : TriMesh ℝ) (ps : List V) : Prop := (∀ p ∈ ps, IsVertex p m) ∧
  ∀ a b c d : ℝ, (∀ p ∈ ps, 0 ≤ a * p.x + b * p.y + c * p.z + d) → ∀ v, IsVertex v m → 0 ≤ a * v.x + b * v.y + c * v.z + d

/-- The values of `f` on the vertices of the mesh reach from `lo` to `hi`, and both are taken. -/
def Spans (f : V → ℝ) (lo hi : ℝ) (m : TriMesh ℝ) : Prop :=
  (∀ v, IsVertex v m → lo ≤ f v ∧ f v ≤ hi) ∧ (∃ v, IsVertex v m ∧ f v = lo) ∧ ∃ v, IsVertex v m ∧ f v = hi

/-- The corners of the body between two heights over a quadrilateral. -/
def prism (cx cy : ℕ → ℝ) (z0 z1 : ℝ) : List V :=
  ((List.range 4).map fun k => ⟨cx k, cy k, z0⟩) ++ (List.range 4).map fun k => ⟨cx k, cy k, z1⟩

end Spec

/-- The vertices of the mesh of a grid: the points of the grid and means of four of them. -/
theorem grid_keeps (n : ℕ) (P : ℕ → ℕ → V) (K : V → Prop)
    (hK : ∀ p q r s : V, K p → K q → K r → K s → K (cellCentre MeshArith.real p q r s)) (h : ∀ i ≤ n, ∀ j ≤ n, K (P i j)) :
    ∀ v, IsVertex v (gridMesh MeshArith.real false n n P) → K v := by
  rintro v ⟨t, ht, hv⟩
  obtain ⟨i, hi, j, hj, ht⟩ := mem_cell_of_gridMesh ht
  have a := h i (by omega) j (by omega)
  have b := h (i + 1) (by omega) j (by omega)
  have c := h i (by omega) (j + 1) (by omega)
  have d := h (i + 1) (by omega) (j + 1) (by omega)
  have hc := hK _ _ _ _ a b c d
  simp only [cellTris, meshVertex_real, List.mem_cons, List.not_mem_nil, or_false] at ht
  rcases ht with rfl | rfl | rfl | rfl <;> rcases hv with rfl | rfl | rfl <;> assumption

/-- An affine function. -/
def aff (a b c d : ℝ) (v : V) : ℝ := a * v.x + b * v.y + c * v.z + d

theorem aff_centre (a b c d : ℝ) (p q r s : V) :
    aff a b c d (cellCentre MeshArith.real p q r s) = (aff a b c d p + aff a b c d q + aff a b c d r + aff a b c d s) / 4 := by
  simp only [aff, cellCentre, MeshArith.real]
  ring

theorem isVertex_flatten {v : V} {l : List (TriMesh ℝ)} : IsVertex v l.flatten ↔ ∃ m ∈ l, IsVertex v m := by
  unfold IsVertex
  constructor
  · rintro ⟨t, ht, h⟩
    obtain ⟨m, hm, ht⟩ := List.mem_flatten.1 ht
    exact ⟨m, hm, t, ht, h⟩
  · rintro ⟨m, hm, t, ht, h⟩
    exact ⟨t, List.mem_flatten.2 ⟨m, hm, ht⟩, h⟩

/-- An affine function on a Coons patch of four straight edges that meet. -/
theorem coons_straight (n e s w : PathObj) (F : Surf) (hF : CoonsPatch n e s w = .ok F) (c00 c10 c01 c11 : V)
    (hs : ∀ t, s.call t = .ok (lineAt c00 c10 t)) (hn : ∀ t, n.call t = .ok (lineAt c01 c11 t))
    (hw : ∀ t, w.call t = .ok (lineAt c00 c01 t)) (he : ∀ t, e.call t = .ok (lineAt c10 c11 t)) (a b c d r t : ℝ) (q : V)
    (hq : F r t = .ok q) : aff a b c d q = (1 - r) * (1 - t) * aff a b c d c00 + r * (1 - t) * aff a b c d c10 +
      (1 - r) * t * aff a b c d c01 + r * t * aff a b c d c11 := by
  unfold CoonsPatch at hF
  rw [bind_ok] at hF
  obtain ⟨C, hc, hF⟩ := hF
  cases hF
  obtain ⟨a1, a2, a3, a4, a5, a6, a7, a8, h1, h2, h3, h4, -, -, -, -, -, -, -, -, rfl⟩ := (Coons.ofEdges_ok_iff n e s w _ C).1 hc
  rw [hs] at h1 h2
  rw [hn] at h3 h4
  unfold Coons.call at hq
  simp only [bind_ok, hs, hn, hw, he] at hq
  obtain ⟨q1, g1, q2, g2, q3, g3, q4, g4, g5⟩ := hq
  cases g1; cases g2; cases g3; cases g4; cases g5; cases h1; cases h2; cases h3; cases h4
  simp [Coons.blend, lineAt, aff]
  ring

theorem reversed_line (p q : V) (t : ℝ) : (ReversedPath (Line p q)).call t = .ok (lineAt q p t) := by
  rw [reversed_call]
  show Except.ok (lineAt p q (1 - t)) = _
  congr 1
  ext <;> simp [lineAt] <;> ring

theorem line_call (p q : V) (t : ℝ) : (Line p q).call t = .ok (lineAt p q t) := rfl

theorem bilinear_nonneg {r t x y z w : ℝ} (r0 : 0 ≤ r) (r1 : r ≤ 1) (t0 : 0 ≤ t) (t1 : t ≤ 1) (hx : 0 ≤ x) (hy : 0 ≤ y) (hz : 0 ≤ z)
    (hw : 0 ≤ w) : 0 ≤ (1 - r) * (1 - t) * x + r * (1 - t) * y + (1 - r) * t * z + r * t * w := by
  have := sub_nonneg.2 r1
  have := sub_nonneg.2 t1
  positivity

/-- C136 for straight-edged sections: the mesh of a closed body swept from one quadrilateral section to another at a different height lies in
every half-space that contains the eight corners, which are vertices, at every resolution. -/
theorem C136_prism (cx cy : ℕ → ℝ) (z0 z1 : ℝ) (n : ℕ) (hn : 1 ≤ n) (name : Option String) :
    ∃ c, Swept.init ([z0, z1].map (quadSection cx cy)) true (.int n) name = .ok c ∧ ∀ (hp : Heap) (id : ℕ), hp id = c →
    ∃ h' M c', generatePatches hp id = (.ok (), h') ∧ (h' id).mesh = (.ok M, c') ∧ HasCorners M.tris (prism cx cy z0 z1) := by
  have h := quad_extrusion cx cy [z0, z1]
  have h2 : 2 ≤ ([z0, z1].map (quadSection cx cy)).length := by simp
  obtain ⟨c, hinit, hh⟩ := closed_swept_mesh ([z0, z1].map (quadSection cx cy)) (quadSection cx cy z0) (quadSection cx cy z1) rfl rfl h2 h.len h.total
    (h.closed fun ne hne => ⟨quad_closes _ ne hne, quad_closes _ ne hne⟩) (.int n) n n (Or.inl ⟨rfl, rfl⟩) hn hn name
  refine ⟨c, hinit, fun hp id hid => ?_⟩
  obtain ⟨h', M, c', g1, g2, -, F0, F1, hF0, hF1, t0, t1, -, -, ht⟩ := hh hp id hid
  refine ⟨h', M, c', g1, g2, ?_⟩
  -- the points of the walls
  have hgrid : ∀ ne < 4, ∀ i ≤ n, ∀ j ≤ n, sweptGrid ([z0, z1].map (quadSection cx cy)) n ne i j =
      ⟨side cx ne ((j : ℝ) / n), side cy ne ((j : ℝ) / n), (1 - (i : ℝ) / n) * z0 + (i : ℝ) / n * z1⟩ := by
    intro ne hne i hi j hj
    obtain ⟨a1, a2⟩ := unit_div n i hn hi
    obtain ⟨b1, b2⟩ := unit_div n j hn hj
    obtain ⟨z, e1, e2⟩ := h.edge 0 _ rfl ne hne _ b1 b2
    obtain ⟨z', e1', e2'⟩ := h.edge 1 _ rfl ne hne _ b1 b2
    cases e1; cases e1'
    obtain ⟨q, hq, hv⟩ := C30_between ([edgeOf ne (quadSection cx cy z0), edgeOf ne (quadSection cx cy z1)]) 0 (by simp) ((i : ℝ) / n) a1 a2 _ _ _ e2 e2'
    unfold sweptGrid
    simp only [List.length_cons, List.length_nil, Nat.cast_zero, zero_add] at hq
    norm_num at hq
    simp only [List.map_cons, List.map_nil]
    rw [hq]
    show q = _
    apply Vec.toE_injective
    rw [hv, ← Vec.toE_mul, ← Vec.toE_mul, ← Vec.toE_add]
    congr 1
    ext <;> simp <;> ring
  constructor
  · intro v hv'
    have key : ∀ ne < 4, ∀ i ≤ n, IsVertex (sweptGrid ([z0, z1].map (quadSection cx cy)) n ne i 0) M.tris := by
      intro ne hne i hi
      rw [ht, isVertex_flatten]
      refine ⟨gridMesh MeshArith.real false n n (sweptGrid ([z0, z1].map (quadSection cx cy)) n ne), ?_, gridMesh_vertex n n _ i 0 hn hn hi (by omega)⟩
      rw [List.mem_map]
      exact ⟨(n, sweptGrid _ n ne), List.mem_append_left _ (List.mem_map.2 ⟨ne, List.mem_range.2 hne, rfl⟩), rfl⟩
    have hn0 : (n : ℝ) ≠ 0 := by positivity
    simp only [prism, List.mem_append, List.mem_map, List.mem_range] at hv'
    rcases hv' with ⟨k, hk, rfl⟩ | ⟨k, hk, rfl⟩
    · have := key k hk 0 (by omega)
      rw [hgrid k hk 0 (by omega) 0 (by omega)] at this
      simpa [side] using this
    · have := key k hk n le_rfl
      rw [hgrid k hk n le_rfl 0 (by omega)] at this
      simpa [side, div_self hn0] using this
  · intro a b c d hv v hv'
    have hv : ∀ v ∈ prism cx cy z0 z1, 0 ≤ aff a b c d v := hv
    have A : ∀ k < 4, 0 ≤ aff a b c d ⟨cx k, cy k, z0⟩ := fun k hk => hv _ (List.mem_append_left _ (List.mem_map.2 ⟨k, List.mem_range.2 hk, rfl⟩))
    have B : ∀ k < 4, 0 ≤ aff a b c d ⟨cx k, cy k, z1⟩ := fun k hk => hv _ (List.mem_append_right _ (List.mem_map.2 ⟨k, List.mem_range.2 hk, rfl⟩))
    rw [ht, isVertex_flatten] at hv'
    obtain ⟨m, hm, hv'⟩ := hv'
    rw [List.mem_map] at hm
    obtain ⟨⟨k, P⟩, hP, rfl⟩ := hm
    have hk : k = n ∧ ∀ i ≤ n, ∀ j ≤ n, 0 ≤ aff a b c d (P i j) := by
      rw [List.mem_append] at hP
      rcases hP with hP | hP
      · obtain ⟨ne, hne, e⟩ := List.mem_map.1 hP
        cases e
        have hne := List.mem_range.1 hne
        refine ⟨rfl, fun i hi j hj => ?_⟩
        obtain ⟨a1, a2⟩ := unit_div n i hn hi
        obtain ⟨b1, b2⟩ := unit_div n j hn hj
        rw [hgrid ne hne i hi j hj]
        have := bilinear_nonneg a1 a2 b1 b2 (A ne hne) (B ne hne) (A ((ne + 1) % 4) (by omega)) (B ((ne + 1) % 4) (by omega))
        refine this.trans_eq ?_
        simp only [aff, side]
        ring
      · simp only [List.mem_cons, List.not_mem_nil, or_false] at hP
        rcases hP with e | e <;> cases e <;> refine ⟨rfl, fun i hi j hj => ?_⟩ <;> obtain ⟨a1, a2⟩ := unit_div n i hn hi <;>
          obtain ⟨b1, b2⟩ := unit_div n j hn hj
        · have hF : CoonsPatch (ReversedPath (Line ⟨cx 2, cy 2, z0⟩ ⟨cx 3, cy 3, z0⟩)) (Line ⟨cx 1, cy 1, z0⟩ ⟨cx 2, cy 2, z0⟩)
            (Line ⟨cx 0, cy 0, z0⟩ ⟨cx 1, cy 1, z0⟩) (ReversedPath (Line ⟨cx 3, cy 3, z0⟩ ⟨cx 0, cy 0, z0⟩)) = .ok F0 := hF0
          rw [coons_straight _ _ _ _ _ hF ⟨cx 0, cy 0, z0⟩ ⟨cx 1, cy 1, z0⟩ ⟨cx 3, cy 3, z0⟩ ⟨cx 2, cy 2, z0⟩ (fun t => rfl) (reversed_line _ _)
            (reversed_line _ _) (fun t => rfl) a b c d _ _ _ (okv_eq (t0 i hi j hj))]
          exact bilinear_nonneg a1 a2 b1 b2 (A 0 (by omega)) (A 1 (by omega)) (A 3 (by omega)) (A 2 (by omega))
        · have hF : CoonsPatch (Line ⟨cx 2, cy 2, z1⟩ ⟨cx 3, cy 3, z1⟩) (ReversedPath (Line ⟨cx 3, cy 3, z1⟩ ⟨cx 0, cy 0, z1⟩))
            (ReversedPath (Line ⟨cx 0, cy 0, z1⟩ ⟨cx 1, cy 1, z1⟩)) (Line ⟨cx 1, cy 1, z1⟩ ⟨cx 2, cy 2, z1⟩) = .ok F1 := hF1
          rw [coons_straight _ _ _ _ _ hF ⟨cx 1, cy 1, z1⟩ ⟨cx 0, cy 0, z1⟩ ⟨cx 2, cy 2, z1⟩ ⟨cx 3, cy 3, z1⟩ (reversed_line _ _) (fun t => rfl)
            (fun t => rfl) (reversed_line _ _) a b c d _ _ _ (okv_eq (t1 i hi j hj))]
          exact bilinear_nonneg a1 a2 b1 b2 (B 1 (by omega)) (B 0 (by omega)) (B 2 (by omega)) (B 3 (by omega))
    obtain ⟨rfl, hP'⟩ := hk
    refine grid_keeps k P (fun v => 0 ≤ aff a b c d v) ?_ hP' v hv'
    intro p q r s hp hq hr hs
    rw [aff_centre]
    positivity

/-- An affine function takes its extreme values at corners. -/
theorem spans_of_corners {m : TriMesh ℝ} {ps : List V} (h : HasCorners m ps) (f : V → ℝ) (a b c d : ℝ)
    (hf : ∀ v, f v = aff a b c d v) (lo hi : ℝ) (h1 : ∀ p ∈ ps, lo ≤ f p ∧ f p ≤ hi) (h2 : ∃ p ∈ ps, f p = lo) (h3 : ∃ p ∈ ps, f p = hi) :
    Spans f lo hi m := by
  refine ⟨fun v hv => ⟨?_, ?_⟩, ?_, ?_⟩
  · have := h.2 a b c (d - lo) (fun p hp => by have := (h1 p hp).1; rw [hf] at this; unfold aff at this; linarith) v hv
    rw [hf]; unfold aff; linarith
  · have := h.2 (-a) (-b) (-c) (hi - d) (fun p hp => by have := (h1 p hp).2; rw [hf] at this; unfold aff at this; linarith) v hv
    rw [hf]; unfold aff; linarith
  · obtain ⟨p, hp, e⟩ := h2; exact ⟨p, h.1 p hp, e⟩
  · obtain ⟨p, hp, e⟩ := h3; exact ⟨p, h.1 p hp, e⟩

/-- C136 for the wedge: chord, thickness and wingspan are the extents of the mesh along the axes, and the mesh is centred at the origin. -/
theorem C136_wedge (h : Heap) (id : ℕ) (kwargs : Dict String ℝ) (hk : kwargs.keys.Nodup) (w c t : ℝ)
    (hw : given kwargs "wingspan" 1 w) (hc : given kwargs "chord" 1 c) (ht : given kwargs "thickness" 0.1 t)
    (hw0 : 0 ≤ w) (hc0 : 0 ≤ c) (ht0 : 0 ≤ t) (lib : Lib) (depth : ℕ) :
    ∃ st, Wedge.instanceOf h id kwargs = .ok st ∧ ∀ n : ℕ, 1 ≤ n → ∃ st' M c', generate lib depth (withResolution st id n) = (.ok (), st') ∧
      (st'.heap id).mesh = (.ok M, c') ∧ Spans (·.x) (-(c / 2)) (c / 2) M.tris ∧ Spans (·.y) (-(t / 2)) (t / 2) M.tris ∧
      Spans (·.z) (-(w / 2)) (w / 2) M.tris := by
  obtain ⟨st, h1, h2, h3, -, h5, h6⟩ := C90_partial h id kwargs hk w c t hw hc ht
  obtain ⟨st0, s1, s2, s3, s4⟩ := wedge_swept h id kwargs hk w c t hw hc ht
  rw [h1] at s1
  obtain rfl := Except.ok.inj s1
  refine ⟨st, h1, fun n hn => ?_⟩
  obtain ⟨st', M, c', g1, g2, g3, g4⟩ := h6 n hn lib depth
  change generate lib depth (withResolution st id n) = _ at g1
  have w0 : (withResolution st id n).heap id = Swept.comp (Wedge.sections w c t) 4 true (.int n) none := by
    show (st.heap.upd id { st.heap id with stl_resolution := .int n }) id = _
    rw [upd_self, s3]
    rfl
  have hch : ((withResolution st id n).heap id).children = [] := by unfold Comp.children; rw [w0]; rfl
  have hcs : (withResolution st id n).veh.components = [id] := by rw [withResolution, s2]; rfl
  obtain ⟨g, q1, q2⟩ := generate_plain_component lib depth _ st' (by rw [withResolution, s2]; rfl) (by rw [withResolution, s2]; rfl)
    (by rw [withResolution, s2]; rfl) ⟨by rw [hcs]; simp, fun k hk k' hk' => by
      rw [hcs] at hk hk'
      obtain rfl := List.mem_singleton.1 hk'
      rw [hch]; simp, fun k hk k' hk' hne => by
      rw [hcs] at hk hk'
      rw [List.mem_singleton] at hk hk'
      exact absurd (hk.trans hk'.symm) hne⟩ g1 id (by rw [hcs]; simp)
  have hpipe : st'.heap id = g id := by
    obtain ⟨P, R, T, e⟩ := generatePatches_opts (withResolution st id n).heap id (by rw [hch]; simp)
    rw [q1] at e
    change g id = _ at e
    rw [pipeline_plain (g id) (by rw [e, w0]; rfl) (by rw [e, w0]; rfl) (by rw [e, w0]; rfl) (by rw [e, w0]; rfl)] at q2
    exact (Prod.mk.inj q2).2.symm
  obtain ⟨c₁, i1, hh⟩ := C136_prism (wedgeX c) (wedgeY t) (-(w / 2)) (w / 2) n hn none
  rw [← wedge_sections, s4 n hn] at i1
  obtain rfl := Except.ok.inj i1
  obtain ⟨g', M', d, k1, k2, k3⟩ := hh _ id w0
  rw [q1] at k1
  obtain rfl := (Prod.mk.inj k1).2
  rw [← hpipe, g2] at k2
  obtain rfl := Except.ok.inj (Prod.mk.inj k2).1
  have hp : prism (wedgeX c) (wedgeY t) (-(w / 2)) (w / 2) = [⟨0, t / 2, -(w / 2)⟩, ⟨-(c / 2), 0, -(w / 2)⟩, ⟨0, -(t / 2), -(w / 2)⟩,
      ⟨c / 2, 0, -(w / 2)⟩, ⟨0, t / 2, w / 2⟩, ⟨-(c / 2), 0, w / 2⟩, ⟨0, -(t / 2), w / 2⟩, ⟨c / 2, 0, w / 2⟩] := rfl
  rw [hp] at k3
  refine ⟨st', M, c', g1, g2, ?_, ?_, ?_⟩
  · refine spans_of_corners k3 _ 1 0 0 0 (fun v => by simp [aff]) _ _ ?_ ⟨⟨-(c / 2), 0, w / 2⟩, by simp, rfl⟩ ⟨⟨c / 2, 0, w / 2⟩, by simp, rfl⟩
    intro p hp
    simp only [List.mem_cons, List.not_mem_nil, or_false] at hp
    rcases hp with rfl | rfl | rfl | rfl | rfl | rfl | rfl | rfl <;> constructor <;> simp <;> linarith
  · refine spans_of_corners k3 _ 0 1 0 0 (fun v => by simp [aff]) _ _ ?_ ⟨⟨0, -(t / 2), w / 2⟩, by simp, rfl⟩ ⟨⟨0, t / 2, w / 2⟩, by simp, rfl⟩
    intro p hp
    simp only [List.mem_cons, List.not_mem_nil, or_false] at hp
    rcases hp with rfl | rfl | rfl | rfl | rfl | rfl | rfl | rfl <;> constructor <;> simp <;> linarith
  · refine spans_of_corners k3 _ 0 0 1 0 (fun v => by simp [aff]) _ _ ?_ ⟨⟨c / 2, 0, -(w / 2)⟩, by simp, rfl⟩ ⟨⟨c / 2, 0, w / 2⟩, by simp, rfl⟩
    intro p hp
    simp only [List.mem_cons, List.not_mem_nil, or_false] at hp
    rcases hp with rfl | rfl | rfl | rfl | rfl | rfl | rfl | rfl <;> constructor <;> simp <;> linarith

/-- The lines of the Finner that are turned about its axis. -/
noncomputable def finnerLines (p : Finner.Params) : List (ℝ → V) :=
  [lineAt ⟨0, 0, 0⟩ ⟨p.nose_length, p.diameter / 2, 0⟩,
    lineAt ⟨p.nose_length, p.diameter / 2, 0⟩ ⟨p.total_length, p.diameter / 2, 0⟩,
    lineAt ⟨p.total_length, p.diameter / 2, 0⟩ ⟨p.total_length, 0, 0⟩]

/-- The mesh of the fuselage of the Finner consists of the grids of its lines. -/
theorem finner_fuselage_grids (h : Heap) (ids : ℕ → ℕ) (hi : Function.Injective ids) (kwargs : Dict String ℝ) (p : Finner.Params)
    (ha : FinnerArgs kwargs p) (st st' : VState) (s0 : Finner.instanceOf h ids kwargs = .ok st) (n : ℕ) (hn : 1 ≤ n) (lib : Lib) (depth : ℕ)
    (g1 : generate lib depth (withResolution st (ids 0) n) = (.ok (), st')) (M : StlMesh) (c : Comp)
    (g2 : (st'.heap (ids 0)).mesh = (.ok M, c)) :
    M.tris = ((allGrids n (finnerLines p)).map (gridMesh MeshArith.real false n n)).flatten := by
  obtain ⟨st, s1, s2, s3, s4, s5, s6, s7⟩ := finner_instance h ids hi kwargs p ha
  rw [s1] at s0
  obtain rfl := Except.ok.inj s0
  set w := withResolution st (ids 0) n with hw
  have w0 : w.heap (ids 0) = { fuselageComp ids with stl_resolution := .int n } := by
    show (st.heap.upd (ids 0) { st.heap (ids 0) with stl_resolution := .int n }) (ids 0) = _
    rw [upd_self, s3]
  have wk : ∀ k, k ≠ 0 → w.heap (ids k) = st.heap (ids k) := fun k hk => upd_ne _ _ _ _ (hi.ne hk)
  have eb : Finner.rocketBase p = ⟨p.total_length, p.diameter / 2, 0⟩ := by ext <;> simp [Finner.rocketBase]
  have en : Finner.noseBase p = ⟨p.nose_length, p.diameter / 2, 0⟩ := by ext <;> simp [Finner.noseBase]
  have ee : Finner.rocketBase p - ⟨0, (Finner.rocketBase p).y, 0⟩ = ⟨p.total_length, 0, 0⟩ := by rw [eb]; ext <;> simp
  obtain ⟨g, M', c', k1, k2, -, k3⟩ := revolved_composite_mesh w.heap (ids 0) [ids 1, ids 2, ids 3]
    [Finner.noseLine p, Finner.fuselageLine p, Finner.baseLine p]
    [lineAt ⟨0, 0, 0⟩ ⟨p.nose_length, p.diameter / 2, 0⟩,
      lineAt ⟨p.nose_length, p.diameter / 2, 0⟩ ⟨p.total_length, p.diameter / 2, 0⟩,
      lineAt ⟨p.total_length, p.diameter / 2, 0⟩ ⟨p.total_length, 0, 0⟩] (by simp [hi.eq_iff]) (by simp [hi.eq_iff]) (by simp)
    (by rw [w0]; rfl)
    (.cons ⟨by rw [wk 1 (by omega), s4], by rw [wk 1 (by omega), s4]; rfl⟩ (.cons ⟨by rw [wk 2 (by omega), s5], by rw [wk 2 (by omega), s5]; rfl⟩
      (.cons ⟨by rw [wk 3 (by omega), s6], by rw [wk 3 (by omega), s6]; rfl⟩ .nil)))
    (.cons (fun t _ _ => by unfold Finner.noseLine; rw [en]; rfl)
      (.cons (fun t _ _ => by unfold Finner.fuselageLine; rw [en, eb]; rfl)
        (.cons (fun t _ _ => by unfold Finner.baseLine; rw [ee, eb]; rfl) .nil))) n hn
    (by rw [w0]) (by rw [w0]; rfl) (by rw [w0]; rfl) (by rw [w0]; rfl)
  obtain ⟨gF, MF, cF, a1, a2, a3, -⟩ := fuselage_mesh w.heap ids hi p n hn w0 (by rw [wk 1 (by omega), s4])
    (by rw [wk 2 (by omega), s5]) (by rw [wk 3 (by omega), s6])
  have wf : ∀ i < 4, w.heap (ids (4 + i)) = finComp p i := fun i h4 => by rw [wk _ (by omega), s7 i h4]
  have hcs : w.veh.components = [ids 0, ids 4, ids 5, ids 6, ids 7] := by rw [hw, withResolution, s2]; rfl
  have hmem : ∀ k ∈ w.veh.components, k = ids 0 ∨ ∃ i < 4, k = ids (4 + i) := by
    intro k hk
    rw [hcs] at hk
    simp only [List.mem_cons, List.not_mem_nil, or_false] at hk
    rcases hk with rfl | rfl | rfl | rfl | rfl
    · exact .inl rfl
    · exact .inr ⟨0, by norm_num, rfl⟩
    · exact .inr ⟨1, by norm_num, rfl⟩
    · exact .inr ⟨2, by norm_num, rfl⟩
    · exact .inr ⟨3, by norm_num, rfl⟩
  have hch0 : (w.heap (ids 0)).children = [ids 1, ids 2, ids 3] := by unfold Comp.children; rw [w0]; rfl
  have hchf : ∀ i < 4, (w.heap (ids (4 + i))).children = [] := fun i h4 => by unfold Comp.children; rw [wf i h4]; rfl
  obtain ⟨g', q1, q2⟩ := generate_plain_component lib depth w st' (by rw [hw, withResolution, s2]; rfl) (by rw [hw, withResolution, s2]; rfl)
    (by rw [hw, withResolution, s2]; rfl)
    ⟨by rw [hcs]; simp [hi.eq_iff], fun k hk k' hk' => by
      rcases hmem k' hk' with rfl | ⟨i, h4, rfl⟩
      · rw [hch0]
        rcases hmem k hk with rfl | ⟨j, j4, rfl⟩
        · simp [hi.eq_iff]
        · simp only [List.mem_cons, List.not_mem_nil, or_false, hi.eq_iff]; omega
      · rw [hchf i h4]; simp, fun k hk k' hk' hne j hj => by
      rcases hmem k' hk' with rfl | ⟨i, h4, rfl⟩
      · rcases hmem k hk with rfl | ⟨i', h4', rfl⟩
        · exact absurd rfl hne
        · rw [hchf i' h4'] at hj; simp at hj
      · rw [hchf i h4]; simp⟩ g1 (ids 0) (by rw [hcs]; simp)
  rw [k1] at q1 a1
  obtain rfl : g = g' := congrArg Prod.snd q1
  obtain rfl : g = gF := congrArg Prod.snd a1
  rw [a2] at q2
  have e : st'.heap (ids 0) = g (ids 0) := (congrArg Prod.snd q2).symm
  rw [e, k2] at g2
  obtain rfl := Except.ok.inj (Prod.mk.inj g2).1
  exact k3

/-- A convex region that contains the fuselage of the Finner. -/
def inRocket (p : Finner.Params) (v : V) : Prop := 0 ≤ v.x ∧ v.x ≤ p.total_length ∧ ∀ a b : ℝ, a ^ 2 + b ^ 2 = 1 →
  a * v.y + b * v.z ≤ p.diameter / 2 ∧ (a * v.y + b * v.z) * p.nose_length ≤ p.diameter / 2 * v.x

theorem inRocket_centre (p : Finner.Params) (q r s t : V) (hq : inRocket p q) (hr : inRocket p r) (hs : inRocket p s) (ht : inRocket p t) :
    inRocket p (cellCentre MeshArith.real q r s t) := by
  obtain ⟨q1, q2, q3⟩ := hq
  obtain ⟨r1, r2, r3⟩ := hr
  obtain ⟨s1, s2, s3⟩ := hs
  obtain ⟨t1, t2, t3⟩ := ht
  refine ⟨?_, ?_, fun a b h => ?_⟩
  · simp only [cellCentre, MeshArith.real]; linarith
  · simp only [cellCentre, MeshArith.real]; linarith
  · obtain ⟨q4, q5⟩ := q3 a b h
    obtain ⟨r4, r5⟩ := r3 a b h
    obtain ⟨s4, s5⟩ := s3 a b h
    obtain ⟨t4, t5⟩ := t3 a b h
    constructor
    · simp only [cellCentre, MeshArith.real]; linarith
    · simp only [cellCentre, MeshArith.real]; linarith

theorem inRocket_turned (p : Finner.Params) (hn : 0 ≤ p.nose_length) (v : V) (hz : v.z = 0) (h0 : 0 ≤ v.x) (h1 : v.x ≤ p.total_length) (h2 : 0 ≤ v.y)
    (h3 : v.y ≤ p.diameter / 2) (h4 : v.y * p.nose_length ≤ p.diameter / 2 * v.x) (θ : ℝ) : inRocket p (revolveRot θ v) := by
  refine ⟨h0, h1, fun a b hab => ?_⟩
  have e : a * (revolveRot θ v).y + b * (revolveRot θ v).z = v.y * (a * Real.cos θ - b * Real.sin θ) := by
    simp only [revolveRot, hz]; ring
  have hx : (revolveRot θ v).x = v.x := rfl
  have hle : a * Real.cos θ - b * Real.sin θ ≤ 1 := by
    have := Real.sin_sq_add_cos_sq θ
    nlinarith [sq_nonneg (a * Real.sin θ + b * Real.cos θ), sq_nonneg (a * Real.cos θ - b * Real.sin θ - 1),
      sq_nonneg (a - Real.cos θ), sq_nonneg (b + Real.sin θ)]
  have k : v.y * (a * Real.cos θ - b * Real.sin θ) ≤ v.y := mul_le_of_le_one_right h2 hle
  rw [e, hx]
  exact ⟨k.trans h3, (mul_le_mul_of_nonneg_right k hn).trans h4⟩

theorem inRocket_radius {p : Finner.Params} (hd : 0 ≤ p.diameter) {v : V} (h : inRocket p v) :
    Real.sqrt (v.y ^ 2 + v.z ^ 2) ≤ p.diameter / 2 ∧ Real.sqrt (v.y ^ 2 + v.z ^ 2) * p.nose_length ≤ p.diameter / 2 * v.x := by
  obtain ⟨h1, h2, h3⟩ := h
  set r := Real.sqrt (v.y ^ 2 + v.z ^ 2) with hr
  have hr2 : r ^ 2 = v.y ^ 2 + v.z ^ 2 := Real.sq_sqrt (by positivity)
  rcases (Real.sqrt_nonneg (v.y ^ 2 + v.z ^ 2)).eq_or_lt with h0 | h0
  · rw [← hr] at h0
    rw [← h0]
    constructor
    · positivity
    · rw [zero_mul]; positivity
  · rw [← hr] at h0
    have := h3 (v.y / r) (v.z / r) (by field_simp; linarith)
    have e : v.y / r * v.y + v.z / r * v.z = r := by field_simp; linarith
    rwa [e] at this

namespace Spec

/-- The component of a point in a direction. -/
def along (u v : V) : ℝ := u.x * v.x + u.y * v.y + u.z * v.z

end Spec

theorem along_turn (i : ℕ) (u v : V) : along (quarterTurn^[i] u) (quarterTurn^[i] v) = along u v := by
  induction i with
  | zero => rfl
  | succ i ih =>
    rw [Function.iterate_succ_apply', Function.iterate_succ_apply', ← ih]
    simp only [along, quarterTurn]
    ring

theorem turn_x (i : ℕ) (v : V) : (quarterTurn^[i] v).x = v.x := by
  induction i with
  | zero => rfl
  | succ i ih => rw [Function.iterate_succ_apply', ← ih]; rfl

theorem isVertex_mapVerts {f : V → V} {m : TriMesh ℝ} {v : V} : IsVertex v (mapVerts f m) ↔ ∃ u, IsVertex u m ∧ v = f u := by
  unfold IsVertex mapVerts
  constructor
  · rintro ⟨t, ht, h⟩
    obtain ⟨t', ht', rfl⟩ := List.mem_map.1 ht
    rcases h with h | h | h
    · exact ⟨_, ⟨t', ht', .inl rfl⟩, h⟩
    · exact ⟨_, ⟨t', ht', .inr (.inl rfl)⟩, h⟩
    · exact ⟨_, ⟨t', ht', .inr (.inr rfl)⟩, h⟩
  · rintro ⟨u, ⟨t, ht, h⟩, rfl⟩
    refine ⟨_, List.mem_map.2 ⟨t, ht, rfl⟩, ?_⟩
    rcases h with rfl | rfl | rfl
    · exact .inl rfl
    · exact .inr (.inl rfl)
    · exact .inr (.inr rfl)

theorem spans_mapVerts {f : V → V} {m : TriMesh ℝ} {g : V → ℝ} {lo hi : ℝ} (h : Spans (fun v => g (f v)) lo hi m) :
    Spans g lo hi (mapVerts f m) := by
  obtain ⟨h1, ⟨v, h2, h3⟩, ⟨w, h4, h5⟩⟩ := h
  refine ⟨fun v hv => ?_, ⟨f v, isVertex_mapVerts.2 ⟨v, h2, rfl⟩, h3⟩, ⟨f w, isVertex_mapVerts.2 ⟨w, h4, rfl⟩, h5⟩⟩
  obtain ⟨u, hu, rfl⟩ := isVertex_mapVerts.1 hv
  exact h1 u hu

/-- C136 for the Finner: the documented dimensions are those of the meshes.  The fuselage reaches from 0 to `total_length` along the axis and
measures `diameter` across; it lies within its cylinder and within the cone of the nose, which reaches the full diameter at `nose_length`.  Each fin
reaches from `total_length - fin_length` to `total_length` along the axis, from `diameter / 2` outwards by `fin_height`, and is `max_fin_thickness` thick. -/
theorem C136_finner (h : Heap) (ids : ℕ → ℕ) (hi : Function.Injective ids) (kwargs : Dict String ℝ) (p : Finner.Params)
    (ha : FinnerArgs kwargs p) (hd : 0 ≤ p.diameter) (hn0 : 0 ≤ p.nose_length) (hn1 : p.nose_length ≤ p.total_length)
    (hf : 0 ≤ p.fin_height ∧ 0 ≤ p.fin_length ∧ 0 ≤ p.max_fin_thickness) (lib : Lib) (depth : ℕ) :
    ∃ st, Finner.instanceOf h ids kwargs = .ok st ∧ ∀ n : ℕ, 1 ≤ n → ∃ st', generate lib depth (withResolution st (ids 0) n) = (.ok (), st') ∧
      (∃ M c, (st'.heap (ids 0)).mesh = (.ok M, c) ∧ Spans (·.x) 0 p.total_length M.tris ∧
        Spans (·.y) (-(p.diameter / 2)) (p.diameter / 2) M.tris ∧ Spans (·.z) (-(p.diameter / 2)) (p.diameter / 2) M.tris ∧
        (∀ v, IsVertex v M.tris → Real.sqrt (v.y ^ 2 + v.z ^ 2) ≤ p.diameter / 2 ∧
          Real.sqrt (v.y ^ 2 + v.z ^ 2) * p.nose_length ≤ p.diameter / 2 * v.x) ∧
        IsVertex ⟨p.nose_length, p.diameter / 2, 0⟩ M.tris) ∧
      ∀ i < 4, ∃ M c, (st'.heap (ids (4 + i))).mesh = (.ok M, c) ∧
        Spans (·.x) (p.total_length - p.fin_length) p.total_length M.tris ∧
        Spans (along (quarterTurn^[i] ⟨0, 0, 1⟩)) (p.diameter / 2) (p.diameter / 2 + p.fin_height) M.tris ∧
        Spans (along (quarterTurn^[i] ⟨0, 1, 0⟩)) (-(p.max_fin_thickness / 2)) (p.max_fin_thickness / 2) M.tris := by
  obtain ⟨st, s1, -, -, -, -, fin, h0, M0, c0, i1, i2, i3, r9⟩ := C103_finner h ids hi kwargs p ha
  refine ⟨st, s1, fun n hn => ?_⟩
  obtain ⟨st', g1, ⟨M, c, g2, -, -⟩, g5⟩ := r9 n hn lib depth
  refine ⟨st', g1, ⟨M, c, g2, ?_⟩, fun i h4 => ?_⟩
  · have hM := finner_fuselage_grids h ids hi kwargs p ha st st' s1 n hn lib depth g1 M c g2
    have hnn : (n : ℝ) ≠ 0 := by positivity
    have hL : 0 ≤ p.total_length := hn0.trans hn1
    have hK : ∀ v, IsVertex v M.tris → inRocket p v := by
      intro v hv
      rw [hM, isVertex_flatten] at hv
      obtain ⟨m, hm, hv⟩ := hv
      obtain ⟨P, hP, rfl⟩ := List.mem_map.1 hm
      refine grid_keeps n P (inRocket p) (inRocket_centre p) ?_ v hv
      intro i hi' j hj
      obtain ⟨a1, a2⟩ := unit_div n i hn hi'
      have a3 := sub_nonneg.2 a2
      unfold allGrids finnerLines at hP
      simp only [List.mem_flatMap, List.mem_map, List.mem_cons, List.not_mem_nil, or_false] at hP
      obtain ⟨f, hf', k, -, rfl⟩ := hP
      unfold revolveGrid
      rcases hf' with rfl | rfl | rfl
      · apply inRocket_turned p hn0 <;> simp only [lineAt, Vec.add_x, Vec.add_y, Vec.add_z, Vec.mul_x, Vec.mul_y, Vec.mul_z] <;>
          nlinarith [mul_nonneg (mul_nonneg hd a1) (sub_nonneg.2 hn1), mul_nonneg hd (sub_nonneg.2 hn1), mul_nonneg (mul_nonneg hd a1) hn0]
      · apply inRocket_turned p hn0 <;> simp only [lineAt, Vec.add_x, Vec.add_y, Vec.add_z, Vec.mul_x, Vec.mul_y, Vec.mul_z] <;>
          nlinarith [mul_nonneg (mul_nonneg hd a1) (sub_nonneg.2 hn1), mul_nonneg hd (sub_nonneg.2 hn1), mul_nonneg (mul_nonneg hd a1) hn0]
      · apply inRocket_turned p hn0 <;> simp only [lineAt, Vec.add_x, Vec.add_y, Vec.add_z, Vec.mul_x, Vec.mul_y, Vec.mul_z] <;>
          nlinarith [mul_nonneg (mul_nonneg hd a1) (sub_nonneg.2 hn1), mul_nonneg hd (sub_nonneg.2 hn1), mul_nonneg (mul_nonneg hd a1) hn0]
    have hV : ∀ f ∈ finnerLines p, ∀ k < 4, ∀ i ≤ n, IsVertex (revolveGrid f n k i 0) M.tris := by
      intro f hf' k hk i hi'
      rw [hM, isVertex_flatten]
      refine ⟨gridMesh MeshArith.real false n n (revolveGrid f n k), List.mem_map.2 ⟨_, ?_, rfl⟩, gridMesh_vertex n n _ i 0 hn hn hi' (by omega)⟩
      exact List.mem_flatMap.2 ⟨f, hf', List.mem_map.2 ⟨k, List.mem_range.2 hk, rfl⟩⟩
    have v0 : IsVertex ⟨0, 0, 0⟩ M.tris := by
      have := hV _ (by unfold finnerLines; exact List.mem_cons_self) 0 (by omega) 0 (by omega)
      simpa [revolveGrid, revolveRot, lineAt] using this
    have vk : ∀ k : ℕ, k < 4 → IsVertex (revolveRot ((k : ℝ) * Real.pi / 2) ⟨p.nose_length, p.diameter / 2, 0⟩) M.tris := by
      intro k hk
      have := hV (lineAt ⟨p.nose_length, p.diameter / 2, 0⟩ ⟨p.total_length, p.diameter / 2, 0⟩) (by simp [finnerLines]) k hk 0 (by omega)
      have e : lineAt (⟨p.nose_length, p.diameter / 2, 0⟩ : V) ⟨p.total_length, p.diameter / 2, 0⟩ 0 = ⟨p.nose_length, p.diameter / 2, 0⟩ := by
        ext <;> simp [lineAt]
      simpa [revolveGrid, e] using this
    have vL : IsVertex ⟨p.total_length, 0, 0⟩ M.tris := by
      have := hV (lineAt ⟨p.total_length, p.diameter / 2, 0⟩ ⟨p.total_length, 0, 0⟩) (by simp [finnerLines]) 0 (by omega) n le_rfl
      simpa [revolveGrid, revolveRot, lineAt, div_self hnn] using this
    have w0 := vk 0 (by omega)
    have w1 := vk 1 (by omega)
    have w2 := vk 2 (by omega)
    have w3 := vk 3 (by omega)
    have e2 : ((2 : ℕ) : ℝ) * Real.pi / 2 = Real.pi := by push_cast; ring
    have e3 : ((3 : ℕ) : ℝ) * Real.pi / 2 = Real.pi + Real.pi / 2 := by push_cast; ring
    rw [e2] at w2
    rw [e3] at w3
    simp [revolveRot, Real.sin_add, Real.cos_add] at w0 w1 w2 w3
    have hy : ∀ v, IsVertex v M.tris → ∀ a b : ℝ, a ^ 2 + b ^ 2 = 1 → a * v.y + b * v.z ≤ p.diameter / 2 := fun v hv a b hab => ((hK v hv).2.2 a b hab).1
    refine ⟨⟨fun v hv => ⟨(hK v hv).1, (hK v hv).2.1⟩, ⟨_, v0, rfl⟩, ⟨_, vL, rfl⟩⟩,
      ⟨fun v hv => ⟨?_, ?_⟩, ⟨_, w2, rfl⟩, ⟨_, w0, rfl⟩⟩, ⟨fun v hv => ⟨?_, ?_⟩, ⟨_, w1, rfl⟩, ⟨_, w3, rfl⟩⟩,
      fun v hv => inRocket_radius hd (hK v hv), w0⟩
    · have := hy v hv (-1) 0 (by norm_num); linarith
    · have := hy v hv 1 0 (by norm_num); linarith
    · have := hy v hv 0 (-1) (by norm_num); linarith
    · have := hy v hv 0 1 (by norm_num); linarith
  · obtain ⟨M, c, m1, -, -, m4⟩ := g5 i h4
    obtain ⟨c₁, j1, hh⟩ := C136_prism (finX p.max_fin_thickness) (finY p.fin_length) 0 p.fin_height 4 (by norm_num) none
    have hq : [0, p.fin_height].map (quadSection (finX p.max_fin_thickness) (finY p.fin_length)) =
        [0, p.fin_height].map fun z => [Line ⟨0, p.fin_length, z⟩ ⟨p.max_fin_thickness / 2, 0, z⟩,
        Line ⟨p.max_fin_thickness / 2, 0, z⟩ ⟨0, 0, z⟩, Line ⟨0, 0, z⟩ ⟨-(p.max_fin_thickness / 2), 0, z⟩,
        Line ⟨-(p.max_fin_thickness / 2), 0, z⟩ ⟨0, p.fin_length, z⟩] := by simp [quadSection, finX, finY]
    rw [hq] at j1
    have j1' := i1.symm.trans j1
    obtain rfl := Except.ok.inj j1'
    obtain ⟨h0', M0', c0', k1, k2, k3⟩ := hh (fun _ => fin) 0 rfl
    rw [i2] at k1
    obtain rfl := (Prod.mk.inj k1).2
    rw [i3] at k2
    obtain rfl := Except.ok.inj (Prod.mk.inj k2).1
    have hp : prism (finX p.max_fin_thickness) (finY p.fin_length) 0 p.fin_height = [⟨0, p.fin_length, 0⟩, ⟨p.max_fin_thickness / 2, 0, 0⟩, ⟨0, 0, 0⟩,
        ⟨-(p.max_fin_thickness / 2), 0, 0⟩, ⟨0, p.fin_length, p.fin_height⟩, ⟨p.max_fin_thickness / 2, 0, p.fin_height⟩, ⟨0, 0, p.fin_height⟩,
        ⟨-(p.max_fin_thickness / 2), 0, p.fin_height⟩] := by
      simp [prism, finX, finY, List.range_succ]
    rw [hp] at k3
    obtain ⟨f1, f2, f3⟩ := hf
    have er : ∀ v, along (quarterTurn^[i] ⟨0, 0, 1⟩) (quarterTurn^[i] (finPlace p.diameter p.total_length v)) = v.z + p.diameter / 2 := fun v => by
      rw [along_turn]; simp [along, finPlace]
    have el : ∀ v, along (quarterTurn^[i] ⟨0, 1, 0⟩) (quarterTurn^[i] (finPlace p.diameter p.total_length v)) = v.x := fun v => by
      rw [along_turn]; simp [along, finPlace]
    refine ⟨M, c, m1, ?_, ?_, ?_⟩
    · rw [m4]
      apply spans_mapVerts
      refine spans_of_corners k3 _ 0 (-1) 0 p.total_length (fun v => by simp [aff, turn_x, finPlace]; ring) _ _ ?_ ⟨⟨0, p.fin_length, 0⟩, by simp, by simp [turn_x, finPlace]⟩
        ⟨⟨0, 0, 0⟩, by simp, by simp [turn_x, finPlace]⟩
      intro q hq
      simp only [List.mem_cons, List.not_mem_nil, or_false] at hq
      rcases hq with rfl | rfl | rfl | rfl | rfl | rfl | rfl | rfl <;> constructor <;> simp [turn_x, finPlace] <;> linarith
    · rw [m4]
      apply spans_mapVerts
      refine spans_of_corners k3 _ 0 0 1 (p.diameter / 2) (fun v => by simp [aff, er]) _ _ ?_
        ⟨⟨0, 0, 0⟩, by simp, by simp [er]⟩ ⟨⟨0, 0, p.fin_height⟩, by simp, by simp [er]; ring⟩
      intro q hq
      simp only [List.mem_cons, List.not_mem_nil, or_false] at hq
      rcases hq with rfl | rfl | rfl | rfl | rfl | rfl | rfl | rfl <;> rw [er] <;> constructor <;> simp <;> linarith
    · rw [m4]
      apply spans_mapVerts
      refine spans_of_corners k3 _ 1 0 0 0 (fun v => by simp [aff, el]) _ _ ?_
        ⟨⟨-(p.max_fin_thickness / 2), 0, 0⟩, by simp, by simp [el]⟩
        ⟨⟨p.max_fin_thickness / 2, 0, 0⟩, by simp, by simp [el]⟩
      intro q hq
      simp only [List.mem_cons, List.not_mem_nil, or_false] at hq
      rcases hq with rfl | rfl | rfl | rfl | rfl | rfl | rfl | rfl <;> rw [el] <;> constructor <;> simp <;> linarith

/-- Dimensions that meet the hypotheses of `C136_finner` and of `C136_wedge`. -/
example : FinnerArgs [("fin_height", 2), ("diameter", 3)] ⟨3, 10, 2.84, 2, 1, 0.08⟩ ∧ Function.Injective (fun k : ℕ => k + 5) ∧
    (0 : ℝ) ≤ 2.84 ∧ (2.84 : ℝ) ≤ 10 ∧ Dict.keys [("thickness", (2 : ℝ)), ("chord", 3)] = ["thickness", "chord"] ∧
    given [("thickness", (2 : ℝ)), ("chord", 3)] "wingspan" 1 1 ∧ given [("thickness", (2 : ℝ)), ("chord", 3)] "chord" 1 3 ∧
    given [("thickness", (2 : ℝ)), ("chord", 3)] "thickness" 0.1 2 := by
  refine ⟨⟨by decide, .inl ?_, .inr ⟨?_, rfl⟩, .inr ⟨?_, rfl⟩, .inl ?_, .inr ⟨?_, rfl⟩, .inr ⟨?_, rfl⟩⟩, fun a b h => by simpa using h, by norm_num,
    by norm_num, rfl, .inr ⟨?_, rfl⟩, .inl ?_, .inl ?_⟩ <;> simp

end HV
