import Verif.Props.PassCheck
import Verif.Props.Storage
import Verif.Props.Symmetric
import Verif.Props.Size

/-!
# C160 for the Finner: its fins pass `stl_check`, its body does not
-/

namespace HV
open Spec Veh

/-! ## Watertight meshes and maps of the vertices -/

/-- If the image of a closed mesh is watertight, so is the mesh. -/
theorem watertight_of_image (F : V → V) (m : TriMesh ℝ) (h : Watertight (mapVerts F m)) (hc : Closed m) : Watertight m := by
  obtain ⟨h1, h2⟩ := h
  rw [edges_mapVerts] at h1 h2
  exact watertight_of_closed m h1.of_map (fun e he hee => (h2 (F e.1, F e.2) (List.mem_map.2 ⟨e, he, rfl⟩)).1 (by rw [hee])) hc

/-- Moving the vertices without merging any keeps a mesh watertight. -/
theorem watertight_moved (A : V → V) (hA : Function.Injective A) (m : TriMesh ℝ) (h : Watertight m) : Watertight (mapVerts A m) := by
  obtain ⟨h1, h2⟩ := h
  unfold Watertight
  rw [edges_mapVerts]
  constructor
  · refine h1.map fun e e' hee => ?_
    simp only [Prod.mk.injEq] at hee
    exact Prod.ext (hA hee.1) (hA hee.2)
  · intro e he
    obtain ⟨e0, he0, rfl⟩ := List.mem_map.1 he
    exact ⟨fun h => (h2 e0 he0).1 (hA h), List.mem_map.2 ⟨(e0.2, e0.1), (h2 e0 he0).2, rfl⟩⟩

/-- A map that takes one bilinear patch to another takes its mesh to the mesh of the other: the centre of a cell is the point of the
patch in the middle of the cell. -/
theorem quad_image (F : V → V) (A B D C A' B' D' C' : V) (n : ℕ) (hn : 1 ≤ n)
    (h : ∀ u v : ℝ, 0 ≤ u → u ≤ 1 → 0 ≤ v → v ≤ 1 → F (quadPt A B D C u v) = quadPt A' B' D' C' u v) :
    gridMesh MeshArith.real false n n (quadGrid n A' B' D' C') = mapVerts F (gridMesh MeshArith.real false n n (quadGrid n A B D C)) := by
  have hn0 : (0 : ℝ) < n := by positivity
  have hv : ∀ p : V, meshVertex MeshArith.real false p = p := fun p => by simp [meshVertex, MeshArith.real]
  have cen : ∀ (A B D C : V) (i j : ℕ), cellCentre MeshArith.real (quadGrid n A B D C i j) (quadGrid n A B D C (i + 1) j)
      (quadGrid n A B D C i (j + 1)) (quadGrid n A B D C (i + 1) (j + 1)) = quadPt A B D C (((i : ℝ) + 1 / 2) / n) (((j : ℝ) + 1 / 2) / n) := by
    intro A B D C i j
    simp only [quadGrid, quadPt, cellCentre, MeshArith.real]
    push_cast
    ext <;> simp <;> field_simp <;> ring
  have gr : ∀ i ≤ n, ∀ j ≤ n, quadGrid n A' B' D' C' i j = F (quadGrid n A B D C i j) := by
    intro i hi j hj
    obtain ⟨a1, a2⟩ := unit_div n i hn hi
    obtain ⟨b1, b2⟩ := unit_div n j hn hj
    exact (h _ _ a1 a2 b1 b2).symm
  simp only [gridMesh, mapVerts, List.map_flatten, List.map_map]
  congr 1
  apply List.map_congr_left
  intro i hi
  simp only [Function.comp, List.map_flatten, List.map_map]
  congr 1
  apply List.map_congr_left
  intro j hj
  have hi := List.mem_range.1 hi
  have hj := List.mem_range.1 hj
  have mid : ∀ k < n, 0 ≤ ((k : ℝ) + 1 / 2) / n ∧ ((k : ℝ) + 1 / 2) / n ≤ 1 := by
    intro k hk
    have : (k : ℝ) + 1 ≤ n := by exact_mod_cast hk
    refine ⟨by positivity, ?_⟩
    rw [div_le_one hn0]
    linarith
  have hc := h _ _ (mid i hi).1 (mid i hi).2 (mid j hj).1 (mid j hj).2
  rw [← cen, ← cen] at hc
  simp only [Function.comp, cellTris, hv, List.map_cons, List.map_nil]
  rw [gr i hi.le j hj.le, gr (i + 1) hi j hj.le, gr i hi.le (j + 1) hj, gr (i + 1) hi (j + 1) hj] at hc ⊢
  rw [hc]

/-! ## The fin

The section of the fin has four corners of which one is in the middle of the base, so that it is a triangle.  Pulling that corner out makes
it strictly convex; the mesh of the fin is taken to the mesh of that body. -/

/-- The section with the corner pulled out. -/
noncomputable def kiteY (L : ℝ) : ℕ → ℝ := fun i => if i = 0 then L else if i = 2 then -L else 0

theorem kite_convex (t L : ℝ) (ht : 0 < t) (hL : 0 < L) : StrictlyConvex (-1) (finX t) (kiteY L) := by
  have h : 0 < t * L := mul_pos ht hL
  intro k hk
  interval_cases k <;> simp [finX, kiteY] <;> nlinarith

open Classical in
/-- Pulling the corner out. -/
noncomputable def pullOut (t L : ℝ) (p : V) : V :=
  if h : ∃ q : ℝ × ℝ, 0 ≤ q.1 ∧ q.1 ≤ 1 ∧ 0 ≤ q.2 ∧ q.2 ≤ 1 ∧ p.x = t / 2 * (q.1 - q.2) ∧ p.y = L * ((1 - q.1) * (1 - q.2)) then
    ⟨p.x, p.y - L * (h.choose.1 * h.choose.2), p.z⟩ else p

theorem fin_injective {a b c d : ℝ} (ha : a ≤ 1) (hb : b ≤ 1) (hc : c ≤ 1) (hd : d ≤ 1) (h1 : a - b = c - d)
    (h2 : (1 - a) * (1 - b) = (1 - c) * (1 - d)) : a * b = c * d := by
  have e : a = c + (b - d) := by linarith
  have h3 : (b - d) * ((1 - c) + (1 - b)) = 0 := by
    rw [e] at h2
    linarith [h2]
  rcases mul_eq_zero.1 h3 with h | h
  · have : b = d := by linarith
    rw [e, h, this, add_zero]
  · have hb1 : b = 1 := by linarith
    have hc1 : c = 1 := by linarith
    subst hb1
    subst hc1
    linarith

theorem pullOut_eq (t L : ℝ) (ht : 0 < t) (hL : 0 < L) (U S : ℝ) (u0 : 0 ≤ U) (u1 : U ≤ 1) (s0 : 0 ≤ S) (s1 : S ≤ 1) (p : V)
    (hx : p.x = t / 2 * (U - S)) (hy : p.y = L * ((1 - U) * (1 - S))) : pullOut t L p = ⟨p.x, p.y - L * (U * S), p.z⟩ := by
  have hex : ∃ q : ℝ × ℝ, 0 ≤ q.1 ∧ q.1 ≤ 1 ∧ 0 ≤ q.2 ∧ q.2 ≤ 1 ∧ p.x = t / 2 * (q.1 - q.2) ∧ p.y = L * ((1 - q.1) * (1 - q.2)) :=
    ⟨(U, S), u0, u1, s0, s1, hx, hy⟩
  unfold pullOut
  rw [dif_pos hex]
  obtain ⟨-, c2, -, c4, c5, c6⟩ := hex.choose_spec
  have e1 : hex.choose.1 - hex.choose.2 = U - S := mul_left_cancel₀ (by positivity) (c5.symm.trans hx)
  have e2 : (1 - hex.choose.1) * (1 - hex.choose.2) = (1 - U) * (1 - S) := mul_left_cancel₀ hL.ne' (c6.symm.trans hy)
  rw [fin_injective c2 c4 u1 s1 e1 e2]

/-- The drawing of the fin is watertight. -/
theorem fin_watertight (p : Finner.Params) (ht : 0 < p.max_fin_thickness) (hL : 0 < p.fin_length) (hh : p.fin_height ≠ 0) (g : Heap) (M : StlMesh)
    (d : Comp) (e1 : generatePatches (fun _ => Swept.comp (Finner.finSections p) 4 true (.int 4) none) 0 = (.ok (), g))
    (e2 : (g 0).mesh = (.ok M, d)) : Watertight M.tris := by
  set t := p.max_fin_thickness
  set L := p.fin_length
  set H := p.fin_height
  obtain ⟨c1, i1, m1⟩ := hexahedron_mesh (fun k => ⟨finX t k, finY L k, 0⟩) (fun k => ⟨finX t k, finY L k, H⟩) 4 (by norm_num) none
  obtain ⟨c2, i2, m2⟩ := hexahedron_mesh (fun k => ⟨finX t k, kiteY L k, 0⟩) (fun k => ⟨finX t k, kiteY L k, H⟩) 4 (by norm_num) none
  obtain ⟨c3, i3, m3⟩ := C160_prism_partial (-1) (finX t) (kiteY L) 0 H (Ne.symm hh) (kite_convex t L ht hL) 4 (by norm_num) none
  have same : Swept.init ([0, H].map (quadSection (finX t) (kiteY L))) true (.int 4) none =
      Swept.init [cornerSection (fun k => ⟨finX t k, kiteY L k, 0⟩), cornerSection (fun k => ⟨finX t k, kiteY L k, H⟩)] true (.int 4) none := rfl
  rw [same, i2] at i3
  obtain rfl := Except.ok.inj i3
  have same' : Swept.init (Finner.finSections p) true (.int 4) none =
      Swept.init [cornerSection (fun k => ⟨finX t k, finY L k, 0⟩), cornerSection (fun k => ⟨finX t k, finY L k, H⟩)] true (.int 4) none := by
    rw [fin_sections]; rfl
  rw [← same', (fin_mesh p).1] at i1
  obtain rfl := Except.ok.inj i1
  obtain ⟨h1, M1, d1, a1, a2, a3, -, -, -, -, -, a4⟩ := m1 (fun _ => Swept.comp (Finner.finSections p) 4 true (.int 4) none) 0 rfl
  rw [e1] at a1
  obtain rfl : g = h1 := congrArg Prod.snd a1
  rw [e2] at a2
  obtain rfl : M = M1 := by have := congrArg Prod.fst a2; simpa using this
  obtain ⟨h2, M2, d2, b1, b2, -, -, -, -, -, -, b4⟩ := m2 (fun _ => c2) 0 rfl
  obtain ⟨h3, M3, d3, k1, k2, k3, -⟩ := m3 (fun _ => c2) 0 rfl
  rw [b1] at k1
  obtain rfl : h2 = h3 := congrArg Prod.snd k1
  rw [b2] at k2
  obtain rfl : M2 = M3 := by have := congrArg Prod.fst k2; simpa using this
  refine watertight_of_image (pullOut t L) _ ?_ a3
  convert k3 using 1
  rw [a4, b4]
  simp only [List.flatten_cons, List.flatten_nil, List.append_nil]
  have app : ∀ a b : TriMesh ℝ, mapVerts (pullOut t L) (a ++ b) = mapVerts (pullOut t L) a ++ mapVerts (pullOut t L) b := fun a b => by
    simp [mapVerts]
  simp only [app]
  have img : ∀ A B D C A' B' D' C' : V, ∀ U S : ℝ → ℝ → ℝ, (∀ u v, 0 ≤ u → u ≤ 1 → 0 ≤ v → v ≤ 1 → (0 ≤ U u v ∧ U u v ≤ 1 ∧ 0 ≤ S u v ∧ S u v ≤ 1) ∧
      (quadPt A B D C u v).x = t / 2 * (U u v - S u v) ∧ (quadPt A B D C u v).y = L * ((1 - U u v) * (1 - S u v)) ∧
      (quadPt A' B' D' C' u v).x = (quadPt A B D C u v).x ∧ (quadPt A' B' D' C' u v).y = (quadPt A B D C u v).y - L * (U u v * S u v) ∧
      (quadPt A' B' D' C' u v).z = (quadPt A B D C u v).z) →
      mapVerts (pullOut t L) (gridMesh MeshArith.real false 4 4 (quadGrid 4 A B D C)) = gridMesh MeshArith.real false 4 4 (quadGrid 4 A' B' D' C') := by
    intro A B D C A' B' D' C' U S hyp
    refine (quad_image (pullOut t L) A B D C A' B' D' C' 4 (by norm_num) fun u v u0 u1 v0 v1 => ?_).symm
    obtain ⟨⟨q1, q2, q3, q4⟩, q5, q6, q7, q8, q9⟩ := hyp u v u0 u1 v0 v1
    rw [pullOut_eq t L ht hL _ _ q1 q2 q3 q4 _ q5 q6]
    exact Vec.ext q7.symm q8.symm q9.symm
  congr 1
  · refine img _ _ _ _ _ _ _ _ (fun _ v => v) (fun _ _ => 0) fun u v u0 u1 v0 v1 => ⟨⟨v0, v1, le_rfl, zero_le_one⟩, ?_⟩
    simp [quadPt, finX, finY, kiteY]
    constructor <;> ring
  congr 1
  · refine img _ _ _ _ _ _ _ _ (fun _ _ => 1) (fun _ v => v) fun u v u0 u1 v0 v1 => ⟨⟨zero_le_one, le_rfl, v0, v1⟩, ?_⟩
    simp [quadPt, finX, finY, kiteY]
    constructor <;> ring
  congr 1
  · refine img _ _ _ _ _ _ _ _ (fun _ v => 1 - v) (fun _ _ => 1) fun u v u0 u1 v0 v1 => ⟨⟨by linarith, by linarith, zero_le_one, le_rfl⟩, ?_⟩
    simp [quadPt, finX, finY, kiteY]
    constructor <;> ring
  congr 1
  · refine img _ _ _ _ _ _ _ _ (fun _ _ => 0) (fun _ v => 1 - v) fun u v u0 u1 v0 v1 => ⟨⟨le_rfl, zero_le_one, by linarith, by linarith⟩, ?_⟩
    simp [quadPt, finX, finY, kiteY]
    constructor <;> ring
  congr 1
  · refine img _ _ _ _ _ _ _ _ (fun u _ => u) (fun _ v => v) fun u v u0 u1 v0 v1 => ⟨⟨u0, u1, v0, v1⟩, ?_⟩
    simp [quadPt, finX, finY, kiteY]
    constructor <;> ring
  · refine img _ _ _ _ _ _ _ _ (fun u _ => 1 - u) (fun _ v => v) fun u v u0 u1 v0 v1 => ⟨⟨by linarith, by linarith, v0, v1⟩, ?_⟩
    simp [quadPt, finX, finY, kiteY]
    constructor <;> ring

/-! ## The vehicle -/

theorem finner_unshared (ids : ℕ → ℕ) (hi : Function.Injective ids) (p : Finner.Params) (w : VState) (hcs : w.veh.components = [ids 0, ids 4, ids 5, ids 6, ids 7])
    (hch0 : (w.heap (ids 0)).children = [ids 1, ids 2, ids 3]) (wf : ∀ i < 4, w.heap (ids (4 + i)) = finComp p i) :
    Unshared w.heap w.veh.components := by
  have hmem : ∀ k ∈ w.veh.components, k = ids 0 ∨ ∃ i < 4, k = ids (4 + i) := by
    intro k hk
    rw [hcs] at hk
    simp only [List.mem_cons, List.not_mem_nil, or_false] at hk
    rcases hk with rfl | rfl | rfl | rfl | rfl
    · exact .inl rfl
    · exact .inr ⟨0, by norm_num, rfl⟩
    · exact .inr ⟨1, by norm_num, rfl⟩
    · exact .inr ⟨2, by norm_num, rfl⟩
    · exact .inr ⟨3, by norm_num, rfl⟩
  have hchf : ∀ i < 4, (w.heap (ids (4 + i))).children = [] := fun i h4 => by unfold Comp.children; rw [wf i h4]; rfl
  exact ⟨by rw [hcs]; simp [hi.eq_iff], fun k hk k' hk' => by
      rcases hmem k' hk' with rfl | ⟨i, h4, rfl⟩
      · rw [hch0]
        rcases hmem k hk with rfl | ⟨j, j4, rfl⟩
        · simp [hi.eq_iff]
        · simp only [List.mem_cons, List.not_mem_nil, or_false, hi.eq_iff]; omega
      · rw [hchf i h4]; simp, fun k hk k' hk' hne j hj => by
      rcases hmem k' hk' with rfl | ⟨i, h4, rfl⟩
      · rcases hmem k hk with rfl | ⟨i', h4', rfl⟩
        · exact absurd rfl hne
        · rw [hchf i' h4'] at hj; simp at hj
      · rw [hchf i h4]; simp⟩

theorem turn_injective (i : ℕ) : Function.Injective fun v : V => quarterTurn^[i] v := by
  apply Function.Injective.iterate
  intro a b h
  have hx := congrArg Vec.x h
  have hy := congrArg Vec.y h
  have hz := congrArg Vec.z h
  simp only [quarterTurn] at hx hy hz
  exact Vec.ext hx hz (neg_injective hy)

theorem place_injective (D T : ℝ) : Function.Injective (finPlace D T) := by
  intro a b h
  have hx := congrArg Vec.x h
  have hy := congrArg Vec.y h
  have hz := congrArg Vec.z h
  simp only [finPlace] at hx hy hz
  exact Vec.ext hy (by linarith) (by linarith)

/-- The meshes of the generated Finner are computed afresh. -/
theorem finner_fresh (h : Heap) (ids : ℕ → ℕ) (hi : Function.Injective ids) (kwargs : Dict String ℝ) (p : Finner.Params)
    (ha : FinnerArgs kwargs p) (st st' : VState) (s0 : Finner.instanceOf h ids kwargs = .ok st) (n : ℕ) (lib : Lib) (depth : ℕ)
    (g1 : generate lib depth (withResolution st (ids 0) n) = (.ok (), st')) (k : ℕ) (hk : k ∈ [ids 0, ids 4, ids 5, ids 6, ids 7])
    (M : StlMesh) (c : Comp) (hM : (st'.heap k).mesh = (.ok M, c)) : M = StlMesh.ofTris M.tris := by
  obtain ⟨st, s1, s2, s3, s4, s5, s6, s7⟩ := finner_instance h ids hi kwargs p ha
  rw [s1] at s0
  obtain rfl := Except.ok.inj s0
  set w := withResolution st (ids 0) n with hw
  have w0 : w.heap (ids 0) = { fuselageComp ids with stl_resolution := .int n } := by
    show (st.heap.upd (ids 0) { st.heap (ids 0) with stl_resolution := .int n }) (ids 0) = _
    rw [upd_self, s3]
  have wk : ∀ k, k ≠ 0 → w.heap (ids k) = st.heap (ids k) := fun k hk => upd_ne _ _ _ _ (hi.ne hk)
  have wv : w.veh = finnerVeh ids := s2
  have wf : ∀ i < 4, w.heap (ids (4 + i)) = finComp p i := fun i h4 => by rw [wk _ (by omega), s7 i h4]
  have hcs : w.veh.components = [ids 0, ids 4, ids 5, ids 6, ids 7] := by rw [wv]; rfl
  have hch0 : (w.heap (ids 0)).children = [ids 1, ids 2, ids 3] := by unfold Comp.children; rw [w0]; rfl
  obtain ⟨g, q1, q2⟩ := generate_plain_component lib depth w st' (by rw [wv]; rfl) (by rw [wv]; rfl) (by rw [wv]; rfl)
    (finner_unshared ids hi p w hcs hch0 wf) g1 k (by rw [hcs]; exact hk)
  have hfin : ∀ i < 4, ids (4 + i) ∉ (w.heap (ids (4 + i))).children ∧ (w.heap (ids (4 + i))).mesh_ = none := by
    intro i h4
    rw [wf i h4]
    exact ⟨by simp [Comp.children, finComp, Swept.comp], rfl⟩
  have hnew : k ∉ (w.heap k).children ∧ (w.heap k).mesh_ = none := by
    simp only [List.mem_cons, List.not_mem_nil, or_false] at hk
    rcases hk with rfl | rfl | rfl | rfl | rfl
    · exact ⟨by rw [hch0]; simp [hi.eq_iff], by rw [w0]; rfl⟩
    · exact hfin 0 (by norm_num)
    · exact hfin 1 (by norm_num)
    · exact hfin 2 (by norm_num)
    · exact hfin 3 (by norm_num)
  obtain ⟨P, R, S, e⟩ := generatePatches_opts w.heap k hnew.1
  rw [q1] at e
  obtain ⟨P', e'⟩ := pipeline_frame 0 (g k)
  rw [q2] at e'
  refine mesh_ofTris (st'.heap k) ?_ M c hM
  simp only at e e'
  rw [e', e]
  exact hnew.2

/-- C160: the fins of the generated Finner pass the check, whatever its dimensions. -/
theorem C160_finner_partial (h : Heap) (ids : ℕ → ℕ) (hi : Function.Injective ids) (kwargs : Dict String ℝ) (p : Finner.Params)
    (ha : FinnerArgs kwargs p) (ht : 0 < p.max_fin_thickness) (hL : 0 < p.fin_length) (hh : p.fin_height ≠ 0) (lib : Lib) (depth : ℕ) :
    ∃ st st', Finner.instanceOf h ids kwargs = .ok st ∧ generate lib depth st = (.ok (), st') ∧
      ∀ i < 4, ∃ k M c, st'.veh.named.get? ("fin_" ++ toString (i + 1)) = some k ∧ (st'.heap k).mesh = (.ok M, c) ∧ Watertight M.tris ∧
        ∀ (eps : ℝ) (pa : Bool), 0 ≤ eps → stlCheck eps M pa true = .ok true := by
  obtain ⟨st, s1, -, s2, s3, s4, fin, h0, M0, c0, f1, f2, f3, f4⟩ := C103_finner h ids hi kwargs p ha
  obtain ⟨st', g1, -, g3⟩ := f4 8 (by norm_num) lib depth
  have hfin : fin = Swept.comp (Finner.finSections p) 4 true (.int 4) none := by
    have := (fin_mesh p).1
    rw [fin_sections] at this
    have e : ([0, p.fin_height].map fun z => [Line ⟨0, p.fin_length, z⟩ ⟨p.max_fin_thickness / 2, 0, z⟩,
        Line ⟨p.max_fin_thickness / 2, 0, z⟩ ⟨0, 0, z⟩, Line ⟨0, 0, z⟩ ⟨-(p.max_fin_thickness / 2), 0, z⟩,
        Line ⟨-(p.max_fin_thickness / 2), 0, z⟩ ⟨0, p.fin_length, z⟩]) =
        [0, p.fin_height].map (quadSection (finX p.max_fin_thickness) (finY p.fin_length)) := by simp [quadSection, finX, finY]
    rw [e, this] at f1
    rw [fin_sections]
    exact (Except.ok.inj f1).symm
  subst hfin
  have hw0 := fin_watertight p ht hL hh h0 M0 c0 f2 f3
  have hfresh := finner_fresh h ids hi kwargs p ha st st' s1 8 lib depth g1
  rw [s4] at g1
  have hn : st'.veh.named = st.veh.named := by
    obtain ⟨e1, e2, e3⟩ : st.veh.angleOffset = 0 ∧ st.veh.transformations = [] ∧ st.veh.analyseOn = none := by
      obtain ⟨st0, i1, i2, -⟩ := finner_instance h ids hi kwargs p ha
      rw [s1] at i1
      obtain rfl := Except.ok.inj i1
      rw [i2]
      exact ⟨rfl, rfl, rfl⟩
    have g1' := g1
    unfold generate generateWith at g1'
    rcases hg : genAll st.veh.angleOffset st.heap st.veh.components with ⟨r, h'⟩
    rw [hg] at g1'
    cases r with
    | error e => simp at g1'
    | ok u =>
      simp only [genTransform, e2, if_true, genAnalyse, e3] at g1'
      have := congrArg (fun x => x.2.veh.named) g1'
      exact this.symm
  refine ⟨st, st', s1, g1, fun i h4 => ?_⟩
  obtain ⟨M, c, k1, -, -, k2⟩ := g3 i h4
  have hwt : Watertight M.tris := by
    rw [k2]
    exact watertight_moved _ ((turn_injective i).comp (place_injective _ _)) _ hw0
  have hof := hfresh (ids (4 + i)) (by interval_cases i <;> simp) M c k1
  refine ⟨ids (4 + i), M, c, ?_, k1, hwt, fun eps pa heps => ?_⟩
  · have n1 : "fin_" ++ toString (0 + 1) = "fin_1" := by decide
    have n2 : "fin_" ++ toString (1 + 1) = "fin_2" := by decide
    have n3 : "fin_" ++ toString (2 + 1) = "fin_3" := by decide
    have n4 : "fin_" ++ toString (3 + 1) = "fin_4" := by decide
    rw [hn, s3]
    interval_cases i
    · rw [n1]; simp [Dict.get?]
    · rw [n2]; simp [Dict.get?]
    · rw [n3]; simp [Dict.get?]
    · rw [n4]; simp [Dict.get?]
  · rw [hof]
    obtain ⟨b, hb, hbi⟩ := verdict eps heps M.tris pa
    rw [hb]
    congr 1
    exact hbi.2 hwt

/-- C160 fails for the body of the Finner: at every resolution its mesh is closed, but the check rejects it because of the degenerate
triangles at the tip of the nose. -/
theorem C160_finner_violated (h : Heap) (ids : ℕ → ℕ) (hi : Function.Injective ids) (kwargs : Dict String ℝ) (p : Finner.Params)
    (ha : FinnerArgs kwargs p) (lib : Lib) (depth : ℕ) (n : ℕ) (hn : 1 ≤ n) :
    ∃ st st' M c, Finner.instanceOf h ids kwargs = .ok st ∧ st.veh.named.get? "fuselage" = some (ids 0) ∧
      generate lib depth (withResolution st (ids 0) n) = (.ok (), st') ∧
      (st'.heap (ids 0)).mesh = (.ok M, c) ∧ Closed M.tris ∧ ∀ (eps : ℝ) (pa : Bool), 0 ≤ eps → stlCheck eps M pa true = .ok false := by
  obtain ⟨st, s1, -, s2, s3, s4, fin, h0, M0, c0, f1, f2, f3, f4⟩ := C103_finner h ids hi kwargs p ha
  obtain ⟨st', g1, ⟨M, c, g2, g3, -⟩, -⟩ := f4 n hn lib depth
  have hF := finner_fuselage_grids h ids hi kwargs p ha st st' s1 n hn lib depth g1 M c g2
  have hof := finner_fresh h ids hi kwargs p ha st st' s1 n lib depth g1 (ids 0) (by simp) M c g2
  refine ⟨st, st', M, c, s1, by rw [s3]; simp [Dict.get?], g1, g2, g3, fun eps pa heps => ?_⟩
  rw [hof]
  obtain ⟨b, hb, hbi⟩ := verdict eps heps M.tris pa
  rw [hb]
  congr 1
  cases b with
  | false => rfl
  | true =>
    exfalso
    set G := revolveGrid (lineAt ⟨0, 0, 0⟩ ⟨p.nose_length, p.diameter / 2, 0⟩) n 0 with hG
    have mem : ∀ t ∈ cellTris MeshArith.real false (G 0 0) (G 1 0) (G 0 1) (G 1 1), t ∈ M.tris := by
      intro t ht
      rw [hF, List.mem_flatten]
      refine ⟨gridMesh MeshArith.real false n n G, List.mem_map.2 ⟨G, ?_, rfl⟩, (mem_gridMesh _ _ _ _ _ _).2 ⟨0, hn, 0, hn, ht⟩⟩
      rw [hG]
      exact List.mem_flatMap.2 ⟨_, List.mem_cons_self, List.mem_map.2 ⟨0, by simp, rfl⟩⟩
    have tip : ∀ j, G 0 j = ⟨0, 0, 0⟩ := by
      intro j
      simp [hG, revolveGrid, revolveRot, lineAt]
    have hw := hbi.1 rfl
    have hex : ∃ t ∈ cellTris MeshArith.real false (G 0 0) (G 1 0) (G 0 1) (G 1 1), ∃ e ∈ triEdges t, e.1 = e.2 := by
      rw [tip 0, tip 1]
      simp only [cellTris, meshVertex_real]
      simp [triEdges]
    obtain ⟨t, ht, e, he, hee⟩ := hex
    exact (hw.2 e (List.mem_flatMap.2 ⟨t, mem t ht, he⟩)).1 hee

/-- The default dimensions meet the hypotheses of `C160_finner_partial`. -/
example : FinnerArgs [] ⟨1, 10, 2.84, 1, 1, 0.08⟩ ∧ (0 : ℝ) < 0.08 ∧ (0 : ℝ) < 1 ∧ (1 : ℝ) ≠ 0 := by
  refine ⟨⟨by decide, .inr ⟨?_, rfl⟩, .inr ⟨?_, rfl⟩, .inr ⟨?_, rfl⟩, .inr ⟨?_, rfl⟩, .inr ⟨?_, rfl⟩, .inr ⟨?_, rfl⟩⟩, ?_, ?_, ?_⟩ <;>
    norm_num

end HV
