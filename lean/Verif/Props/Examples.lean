import Verif.Model.Examples
import Verif.Props.Degenerate
import Verif.Props.Clustering
import Verif.Props.Bezier
import Verif.Props.Roberts
import Verif.Props.Size
import Verif.Lemmas.VehicleFrame
import Verif.Props.VehicleFiles

/-! C150: the example scripts for single components.  C151: analysing a single component. -/

namespace HV
open Spec

namespace Spec

/-- The script ends normally and has written one file, with this name and a mesh with this property. -/
def Writes (r : Res (Option (String × StlMesh))) (file : String) (p : TriMesh ℝ → Prop) : Prop :=
  ∃ M : StlMesh, r = .ok (some (file, M)) ∧ p M.tris

/-- Every vertex is at most `r` from the origin. -/
def InBall (r : ℝ) (m : TriMesh ℝ) : Prop := ∀ v, IsVertex v m → v.x ^ 2 + v.y ^ 2 + v.z ^ 2 ≤ r ^ 2

end Spec

/-- What a script writes when the component generates and meshes. -/
theorem finish_writes {h : Heap} {id : ℕ} (hghost : (h id).ghost = false) (hch : id ∉ (h id).children) {p : TriMesh ℝ → Prop} (file : String)
    (H : ∃ h' M c', generatePatches h id = (.ok (), h') ∧ (h' id).mesh = (.ok M, c') ∧ p M.tris) : Writes (Examples.finish h id file).1 file p := by
  obtain ⟨h', M, c', h1, h2, h3⟩ := H
  obtain ⟨P, R, S, h4⟩ := generatePatches_opts h id hch
  rw [h1] at h4
  refine ⟨M, ?_, h3⟩
  have hg : (h' id).ghost = false := (congrArg Comp.ghost h4).trans hghost
  simp only [Examples.finish, h1, Comp.toStl, hg, Bool.false_eq_true, if_false, h2, Option.map_some]

theorem inBall_centre {r : ℝ} (p q s t : V) (hp : p.x ^ 2 + p.y ^ 2 + p.z ^ 2 ≤ r ^ 2) (hq : q.x ^ 2 + q.y ^ 2 + q.z ^ 2 ≤ r ^ 2)
    (hs : s.x ^ 2 + s.y ^ 2 + s.z ^ 2 ≤ r ^ 2) (ht : t.x ^ 2 + t.y ^ 2 + t.z ^ 2 ≤ r ^ 2) :
    (cellCentre MeshArith.real p q s t).x ^ 2 + (cellCentre MeshArith.real p q s t).y ^ 2 + (cellCentre MeshArith.real p q s t).z ^ 2 ≤ r ^ 2 := by
  have four : ∀ a b c d : ℝ, (1 / 4 * (a + b + c + d)) ^ 2 ≤ (a ^ 2 + b ^ 2 + c ^ 2 + d ^ 2) / 4 := by
    intro a b c d
    nlinarith [sq_nonneg (a - b), sq_nonneg (a - c), sq_nonneg (a - d), sq_nonneg (b - c), sq_nonneg (b - d), sq_nonneg (c - d)]
  have e : ∀ a b c d : ℝ, MeshArith.real.mul MeshArith.real.quarter (MeshArith.real.add (MeshArith.real.add (MeshArith.real.add a b) c) d) =
      1 / 4 * (a + b + c + d) := by
    intro a b c d; simp only [MeshArith.real]; norm_num
  simp only [cellCentre, e]
  have := four p.x q.x s.x t.x
  have := four p.y q.y s.y t.y
  have := four p.z q.z s.z t.z
  linarith

/-- The faces of the cube `[-1,1]³`: one coordinate is 1 or -1, and they reach everywhere. -/
theorem facePt_one (n : ℕ) (f : String) (i j : ℕ) : (facePt n f i j).x ^ 2 = 1 ∨ (facePt n f i j).y ^ 2 = 1 ∨ (facePt n f i j).z ^ 2 = 1 := by
  unfold facePt
  split_ifs <;> simp

/-- C150 for the cube script: a file is written, with a mesh without gaps and without degenerate triangles that reaches from
`-a` to `a` in each direction. -/
theorem C150_cube_partial (h : Heap) (id : ℕ) (a : ℝ) (ha : 0 < a) (n : ℕ) (hn : 1 ≤ n) :
    Writes (Examples.cube h id a n).1 "cube.stl" fun m => EvenEdges m ∧ (∀ t ∈ m, ¬ Degenerate t) ∧
      Spans Vec.x (-a) a m ∧ Spans Vec.y (-a) a m ∧ Spans Vec.z (-a) a m := by
  refine finish_writes (by rw [upd_self]; rfl) (by rw [upd_self]; simp [Comp.children, Cube]) "cube.stl" ?_
  have hid : (h.upd id (Cube a ⟨0, 0, 0⟩ n none)) id = Cube a ⟨0, 0, 0⟩ n none := upd_self _ _ _
  obtain ⟨h', M, c', hg, hM, he, -, ht⟩ := faces_mesh (h.upd id (Cube a ⟨0, 0, 0⟩ n none)) id (CubePatch a ⟨0, 0, 0⟩)
    (fun p => ⟨p.x * a + 0, p.y * a + 0, p.z * a + 0⟩) n hn
    (by
      intro f hf i _ j _
      simp only [CubePatch, cubeFace_grid n f hf, bind, Except.bind, pure, Except.pure])
    (by rw [hid]; rfl) (by rw [hid]; rfl) (by rw [hid]; rfl) (by rw [hid]; rfl) (by rw [hid]; rfl) (by rw [hid]; rfl)
  obtain ⟨h'', M', c'', hg', hM', hdeg⟩ := C149_cube a ha.ne' ⟨0, 0, 0⟩ n hn none _ id hid
  rw [hg] at hg'
  obtain rfl : h' = h'' := congrArg Prod.snd hg'
  rw [hM] at hM'
  obtain rfl : M = M' := by injection congrArg Prod.fst hM'
  have inside : ∀ v, IsVertex v M.tris → (-a ≤ v.x ∧ v.x ≤ a) ∧ (-a ≤ v.y ∧ v.y ≤ a) ∧ (-a ≤ v.z ∧ v.z ≤ a) := by
    intro v hv
    rw [ht, isVertex_flatten] at hv
    obtain ⟨l, hl, hv⟩ := hv
    obtain ⟨P, hP, rfl⟩ := List.mem_map.1 hl
    obtain ⟨f, hf, rfl⟩ := List.mem_map.1 hP
    refine grid_keeps n _ (fun v => (-a ≤ v.x ∧ v.x ≤ a) ∧ (-a ≤ v.y ∧ v.y ≤ a) ∧ (-a ≤ v.z ∧ v.z ≤ a)) ?_ ?_ v hv
    · intro p q r s hp hq hr hs
      simp only [cellCentre, MeshArith.real]
      refine ⟨⟨?_, ?_⟩, ⟨?_, ?_⟩, ⟨?_, ?_⟩⟩ <;> linarith [hp.1.1, hp.1.2, hp.2.1.1, hp.2.1.2, hp.2.2.1, hp.2.2.2, hq.1.1, hq.1.2, hq.2.1.1, hq.2.1.2, hq.2.2.1, hq.2.2.2,
        hr.1.1, hr.1.2, hr.2.1.1, hr.2.1.2, hr.2.2.1, hr.2.2.2, hs.1.1, hs.1.2, hs.2.1.1, hs.2.1.2, hs.2.2.1, hs.2.2.2]
    · intro i hi j hj
      obtain ⟨⟨hx, hy⟩, hz⟩ := facePt_mem n hn f i j hi hj
      have b : ∀ u : ℝ, u ^ 2 ≤ 1 → -a ≤ u * a + 0 ∧ u * a + 0 ≤ a := by
        intro u hu
        obtain ⟨h1, h2⟩ := abs_le.1 ((sq_le_one_iff_abs_le_one u).1 hu)
        constructor <;> nlinarith
      exact ⟨b _ hx, b _ hy, b _ hz⟩
  have vertex : ∀ f ∈ faceNames, ∀ i ≤ n, ∀ j ≤ n, IsVertex (⟨(facePt n f i j).x * a + 0, (facePt n f i j).y * a + 0, (facePt n f i j).z * a + 0⟩ : V) M.tris := by
    intro f hf i hi j hj
    rw [ht, isVertex_flatten]
    exact ⟨_, List.mem_map.2 ⟨_, List.mem_map.2 ⟨f, hf, rfl⟩, rfl⟩,
      gridMesh_vertex n n (fun i j => (⟨(facePt n f i j).x * a + 0, (facePt n f i j).y * a + 0, (facePt n f i j).z * a + 0⟩ : V)) i j hn hn hi hj⟩
  have o : (0 : ℕ) ≤ n := Nat.zero_le n
  refine ⟨h', M, c', hg, hM, he, hdeg, ⟨fun v hv => (inside v hv).1, ?_, ?_⟩, ⟨fun v hv => (inside v hv).2.1, ?_, ?_⟩, ⟨fun v hv => (inside v hv).2.2, ?_, ?_⟩⟩
  · exact ⟨_, vertex "west" (by simp [faceNames]) 0 o 0 o, by simp [facePt]⟩
  · exact ⟨_, vertex "east" (by simp [faceNames]) 0 o 0 o, by simp [facePt]⟩
  · exact ⟨_, vertex "south" (by simp [faceNames]) 0 o 0 o, by simp [facePt]⟩
  · exact ⟨_, vertex "north" (by simp [faceNames]) 0 o 0 o, by simp [facePt]⟩
  · exact ⟨_, vertex "bottom" (by simp [faceNames]) 0 o 0 o, by simp [facePt]⟩
  · exact ⟨_, vertex "top" (by simp [faceNames]) 0 o 0 o, by simp [facePt]⟩

/-- C150 fails for the cube script: the side of the cube written is not the one passed but twice as long. -/
theorem C150_cube_violated (h : Heap) (id : ℕ) (a : ℝ) (ha : 0 < a) (n : ℕ) (hn : 1 ≤ n) :
    Writes (Examples.cube h id a n).1 "cube.stl" fun m => ∃ u v, IsVertex u m ∧ IsVertex v m ∧ v.x - u.x = 2 * a ∧ 2 * a ≠ a := by
  obtain ⟨M, h1, -, -, h2, -⟩ := C150_cube_partial h id a ha n hn
  obtain ⟨u, hu, e1⟩ := h2.2.1
  obtain ⟨v, hv, e2⟩ := h2.2.2
  exact ⟨M, h1, u, v, hu, hv, by rw [e1, e2]; ring, by linarith⟩

/-- C150 for the sphere script: a file is written, with a mesh without gaps and without degenerate triangles whose vertices
lie in the ball of radius `r`; if the number of cells is even, it reaches from `-r` to `r` in each direction. -/
theorem C150_sphere (h : Heap) (id : ℕ) (r : ℝ) (hr : 0 < r) (n : ℕ) (hn : 1 ≤ n) :
    Writes (Examples.sphere h id r n).1 "sphere.stl" fun m => EvenEdges m ∧ (∀ t ∈ m, ¬ Degenerate t) ∧ InBall r m ∧
      (∀ f ∈ faceNames, ∀ i ≤ n, ∀ j ≤ n, ∃ v, SpherePatch r ⟨0, 0, 0⟩ f ((i : ℝ) / n) ((j : ℝ) / n) = .ok v ∧ IsVertex v m ∧
        v.x ^ 2 + v.y ^ 2 + v.z ^ 2 = r ^ 2) ∧
      (Even n → Spans Vec.x (-r) r m ∧ Spans Vec.y (-r) r m ∧ Spans Vec.z (-r) r m) := by
  refine finish_writes (by rw [upd_self]; rfl) (by rw [upd_self]; simp [Comp.children, Sphere]) "sphere.stl" ?_
  have hid : (h.upd id (Sphere r ⟨0, 0, 0⟩ n none)) id = Sphere r ⟨0, 0, 0⟩ n none := upd_self _ _ _
  obtain ⟨h', M, c', hg, hM, he, -, ht⟩ := faces_mesh (h.upd id (Sphere r ⟨0, 0, 0⟩ n none)) id (SpherePatch r ⟨0, 0, 0⟩)
    (fun p => ⟨p.x * sphereG p.y p.z * r + 0, p.y * sphereG p.x p.z * r + 0, p.z * sphereG p.x p.y * r + 0⟩) n hn
    (fun f hf i hi j hj => SpherePatch_grid r ⟨0, 0, 0⟩ n hn f hf i hi j hj)
    (by rw [hid]; rfl) (by rw [hid]; rfl) (by rw [hid]; rfl) (by rw [hid]; rfl) (by rw [hid]; rfl) (by rw [hid]; rfl)
  obtain ⟨h'', M', c'', hg', hM', hdeg⟩ := C149_sphere r hr.ne' ⟨0, 0, 0⟩ n hn none _ id hid
  rw [hg] at hg'
  obtain rfl : h' = h'' := congrArg Prod.snd hg'
  rw [hM] at hM'
  obtain rfl : M = M' := by injection congrArg Prod.fst hM'
  have on : ∀ f i j, i ≤ n → j ≤ n → ((facePt n f i j).x * sphereG (facePt n f i j).y (facePt n f i j).z * r + 0) ^ 2 +
      ((facePt n f i j).y * sphereG (facePt n f i j).x (facePt n f i j).z * r + 0) ^ 2 +
      ((facePt n f i j).z * sphereG (facePt n f i j).x (facePt n f i j).y * r + 0) ^ 2 = r ^ 2 := by
    intro f i j hi hj
    obtain ⟨⟨hx, hy⟩, hz⟩ := facePt_mem n hn f i j hi hj
    have h1 := facePt_one n f i j
    set p := facePt n f i j
    have sq : ∀ u v : ℝ, u ^ 2 ≤ 1 → v ^ 2 ≤ 1 → sphereG u v ^ 2 = 1 - u ^ 2 / 2 - v ^ 2 / 2 + u ^ 2 * v ^ 2 / 3 := by
      intro u v hu hv
      rw [sphereG, Real.sq_sqrt]
      · ring
      · nlinarith [mul_nonneg (sq_nonneg u) (sq_nonneg v)]
    have e : (p.x * sphereG p.y p.z * r + 0) ^ 2 + (p.y * sphereG p.x p.z * r + 0) ^ 2 + (p.z * sphereG p.x p.y * r + 0) ^ 2 =
        (p.x ^ 2 * sphereG p.y p.z ^ 2 + p.y ^ 2 * sphereG p.x p.z ^ 2 + p.z ^ 2 * sphereG p.x p.y ^ 2) * r ^ 2 := by ring
    rw [e, sq _ _ hy hz, sq _ _ hx hz, sq _ _ hx hy]
    have e2 : p.x ^ 2 * (1 - p.y ^ 2 / 2 - p.z ^ 2 / 2 + p.y ^ 2 * p.z ^ 2 / 3) + p.y ^ 2 * (1 - p.x ^ 2 / 2 - p.z ^ 2 / 2 + p.x ^ 2 * p.z ^ 2 / 3) +
        p.z ^ 2 * (1 - p.x ^ 2 / 2 - p.y ^ 2 / 2 + p.x ^ 2 * p.y ^ 2 / 3) = 1 - (1 - p.x ^ 2) * (1 - p.y ^ 2) * (1 - p.z ^ 2) := by ring
    rw [e2]
    rcases h1 with h1 | h1 | h1 <;> rw [h1] <;> ring
  have ball : InBall r M.tris := by
    intro v hv
    rw [ht, isVertex_flatten] at hv
    obtain ⟨l, hl, hv⟩ := hv
    obtain ⟨P, hP, rfl⟩ := List.mem_map.1 hl
    obtain ⟨f, hf, rfl⟩ := List.mem_map.1 hP
    exact grid_keeps n _ (fun v => v.x ^ 2 + v.y ^ 2 + v.z ^ 2 ≤ r ^ 2) inBall_centre (fun i hi j hj => (on f i j hi hj).le) v hv
  have vertex : ∀ f ∈ faceNames, ∀ i ≤ n, ∀ j ≤ n, IsVertex (⟨(facePt n f i j).x * sphereG (facePt n f i j).y (facePt n f i j).z * r + 0,
      (facePt n f i j).y * sphereG (facePt n f i j).x (facePt n f i j).z * r + 0, (facePt n f i j).z * sphereG (facePt n f i j).x (facePt n f i j).y * r + 0⟩ : V) M.tris := by
    intro f hf i hi j hj
    rw [ht, isVertex_flatten]
    exact ⟨_, List.mem_map.2 ⟨_, List.mem_map.2 ⟨f, hf, rfl⟩, rfl⟩,
      gridMesh_vertex n n (fun i j => (⟨(facePt n f i j).x * sphereG (facePt n f i j).y (facePt n f i j).z * r + 0,
      (facePt n f i j).y * sphereG (facePt n f i j).x (facePt n f i j).z * r + 0, (facePt n f i j).z * sphereG (facePt n f i j).x (facePt n f i j).y * r + 0⟩ : V)) i j hn hn hi hj⟩
  refine ⟨h', M, c', hg, hM, he, hdeg, ball, fun f hf i hi j hj => ⟨_, SpherePatch_grid r ⟨0, 0, 0⟩ n hn f hf i hi j hj, vertex f hf i hi j hj, on f i j hi hj⟩, ?_⟩
  rintro ⟨k, rfl⟩
  have hk : (k : ℝ) ≠ 0 := by
    have : k ≠ 0 := by omega
    exact_mod_cast this
  have mid : gridT (k + k) k = 0 := by
    unfold gridT; push_cast; field_simp; ring
  have s0 : sphereG 0 0 = 1 := by simp [sphereG]
  have lim : ∀ v, IsVertex v M.tris → (-r ≤ v.x ∧ v.x ≤ r) ∧ (-r ≤ v.y ∧ v.y ≤ r) ∧ (-r ≤ v.z ∧ v.z ≤ r) := by
    intro v hv
    have := ball v hv
    exact ⟨abs_le.1 (abs_le_of_sq_le_sq (by nlinarith [sq_nonneg v.y, sq_nonneg v.z]) hr.le), abs_le.1 (abs_le_of_sq_le_sq (by nlinarith [sq_nonneg v.x, sq_nonneg v.z]) hr.le),
      abs_le.1 (abs_le_of_sq_le_sq (by nlinarith [sq_nonneg v.y, sq_nonneg v.x]) hr.le)⟩
  have o : k ≤ k + k := by omega
  refine ⟨⟨fun v hv => (lim v hv).1, ?_, ?_⟩, ⟨fun v hv => (lim v hv).2.1, ?_, ?_⟩, ⟨fun v hv => (lim v hv).2.2, ?_, ?_⟩⟩
  · exact ⟨_, vertex "west" (by simp [faceNames]) k o k o, by simp [facePt, mid, s0]⟩
  · exact ⟨_, vertex "east" (by simp [faceNames]) k o k o, by simp [facePt, mid, s0]⟩
  · exact ⟨_, vertex "south" (by simp [faceNames]) k o k o, by simp [facePt, mid, s0]⟩
  · exact ⟨_, vertex "north" (by simp [faceNames]) k o k o, by simp [facePt, mid, s0]⟩
  · exact ⟨_, vertex "bottom" (by simp [faceNames]) k o k o, by simp [facePt, mid, s0]⟩
  · exact ⟨_, vertex "top" (by simp [faceNames]) k o k o, by simp [facePt, mid, s0]⟩

/-- C150 for the script with the body of revolution: if the first and the last control point lie on the axis, the file
contains a closed surface, whatever the strength of the clustering. -/
theorem C150_revolved (h : Heap) (id : ℕ) (B : List V) (p q : V) (hp : B.head? = some p) (hq : B.getLast? = some q) (h0 : OnXAxis p) (h1 : OnXAxis q)
    (beta : ℝ) (hb : 1 < beta) (n : ℕ) (hn : 1 ≤ n) : Writes (Examples.revolved h id B beta n).1 "revolve.stl" Closed := by
  have hB : B ≠ [] := by rintro rfl; simp at hp
  obtain ⟨c1, c2, c3, -⟩ := C07_bernstein B
  choose f hf _ using c1 hB
  have e0 : f 0 = p := by have := c2 p hp; rw [hf] at this; injection this
  have e1 : f 1 = q := by have := c3 q hq; rw [hf] at this; injection this
  obtain ⟨g, g1, g2, g3, -, g4⟩ := C18_roberts beta hb false true
  refine finish_writes (by rw [upd_self]; rfl) (by rw [upd_self]; simp [Comp.children, RevolvedComponent, Comp.addClusteringOptions]) "revolve.stl" ?_
  refine C100_revolved_partial (Bezier B) f (fun t _ _ => hf t) (by rw [e0]; exact h0) (by rw [e1]; exact h1) n hn none
    (some (RobertsFunction.call false true beta)) none ?_ (by simp) _ id (upd_self _ _ _)
  rintro w hw
  obtain rfl : RobertsFunction.call false true beta = w := by injection hw
  refine ⟨fun t t0 t1 => ⟨g t, g1 t, ?_⟩, ?_, ?_⟩
  · exact ⟨(g4.mapsTo ⟨t0, t1⟩).1, (g4.mapsTo ⟨t0, t1⟩).2⟩
  · rw [RobertsFunction.call, g1, g2]
  · rw [RobertsFunction.call, g1, g3]

/-- C150 fails for the script with the swept component: it ends with a `TypeError` before anything is generated, and writes
no file. -/
theorem C150_swept_violated (h : Heap) (id : ℕ) (sections : List (List PathObj)) (n : ℕ) :
    Examples.swept h id sections n = (.error .type, h) ∧ ∀ file p, ¬ Writes (Examples.swept h id sections n).1 file p := by
  have e : Examples.swept h id sections n = (.error .type, h) := by
    simp [Examples.swept, bindKeywords, Swept.parameters]
  refine ⟨e, ?_⟩
  rintro file p ⟨M, h1, -⟩
  rw [e] at h1
  cases h1

/-- The values of the scripts. -/
example (h : Heap) : Writes (Examples.cube h 0 1 5).1 "cube.stl" (fun m => Spans Vec.x (-1) 1 m) ∧
    Writes (Examples.sphere h 0 1 20).1 "sphere.stl" (fun m => Spans Vec.x (-1) 1 m) ∧
    Writes (Examples.revolved h 0 [⟨0, 0, 0⟩, ⟨0.5, 0.1, 0⟩, ⟨0.9, 0.5, 0⟩, ⟨1, 0, 0⟩] 1.01 50).1 "revolve.stl" Closed := by
  obtain ⟨M, h1, -, -, h2, -⟩ := C150_cube_partial h 0 1 one_pos 5 (by norm_num)
  obtain ⟨N, k1, -, -, -, -, k2⟩ := C150_sphere h 0 1 one_pos 20 (by norm_num)
  exact ⟨⟨M, h1, h2⟩, ⟨N, k1, (k2 ⟨10, rfl⟩).1⟩,
    C150_revolved h 0 _ ⟨0, 0, 0⟩ ⟨1, 0, 0⟩ rfl rfl ⟨rfl, rfl⟩ ⟨rfl, rfl⟩ 1.01 (by norm_num) 50 (by norm_num)⟩

/-! ### Analysing a component -/

/-- C151: `analyse` of a component reports the mesh that `to_stl` writes, in whichever order the two are called and however
often, and changes no patch and no setting. -/
theorem C151_analyse (lib : Lib) (c : Comp) (M : StlMesh) (c' : Comp) (h : c.mesh = (.ok M, c')) (hg : c.ghost = false) (file : String) :
    (c.analyse lib).1 = lib.massProps M 1 ∧
    ((c.analyse lib).2.toStl (some file)).1 = .ok (some (file, M)) ∧
    ((c.toStl (some file)).2.analyse lib).1 = lib.massProps M 1 ∧
    ((c.analyse lib).2.analyse lib) = c.analyse lib := by
  have hs := mesh_stable c M c' h
  have hg' : c'.ghost = false := by
    obtain ⟨s, m, e⟩ := mesh_frame c
    rw [h] at e
    exact (congrArg Comp.ghost e).trans hg
  have a1 : c.analyse lib = (lib.massProps M 1, c') := by simp only [Comp.analyse, h]
  have a2 : c'.analyse lib = (lib.massProps M 1, c') := by simp only [Comp.analyse, hs]
  have t1 : c.toStl (some file) = (.ok (some (file, M)), c') := by
    simp only [Comp.toStl, hg, Bool.false_eq_true, if_false, h, Option.map_some]
  have t2 : c'.toStl (some file) = (.ok (some (file, M)), c') := by
    simp only [Comp.toStl, hg', Bool.false_eq_true, if_false, hs, Option.map_some]
  refine ⟨by rw [a1], by rw [a1, t2], by rw [t1, a2], by rw [a1, a2]⟩

namespace Spec

/-- Mass properties as physics has them: volume and centre of gravity do not depend on the density, mass and inertia are
proportional to it. -/
def Proportional (lib : Lib) : Prop := ∀ m ρ p, lib.massProps m ρ = .ok p →
  ∃ q, lib.massProps m 1 = .ok q ∧ p.volume = q.volume ∧ p.cog = q.cog ∧ ∀ i j, p.moi i j = ρ * q.moi i j

end Spec

theorem assessOne_reads {lib : Lib} {dens : Dict String ℝ} {h h' : Heap} {e : String × ℕ} {p : CompProps} (H : Veh.assessOne lib dens h e = (.ok p, h')) :
    ∃ M c ρ, (h e.2).mesh = (.ok M, c) ∧ dens.get e.1 = .ok ρ ∧ lib.massProps M ρ = .ok p.props ∧ h' = h.upd e.2 c ∧ c.mesh = (.ok M, c) := by
  unfold Veh.assessOne at H
  rcases hm : (h e.2).mesh with ⟨x | M, c⟩ <;> rw [hm] at H
  · cases H
  have hs := mesh_stable _ M c hm
  dsimp only at H
  rcases hd : dens.get e.1 with x | ρ <;> rw [hd] at H
  · cases H
  dsimp only at H
  rcases hp : lib.massProps M ρ with x | q <;> rw [hp] at H
  · cases H
  dsimp only at H
  rw [hs] at H
  simp only [Prod.mk.injEq, Except.ok.injEq] at H
  obtain ⟨rfl, rfl⟩ := H
  exact ⟨M, c, ρ, rfl, rfl, hp, rfl, hs⟩

/-- Reading one component does not change what `analyse` says of any. -/
theorem assessOne_analyse {lib : Lib} {dens : Dict String ℝ} {h h' : Heap} {e : String × ℕ} {p : CompProps} (H : Veh.assessOne lib dens h e = (.ok p, h')) (id : ℕ) :
    ((h' id).analyse lib).1 = ((h id).analyse lib).1 := by
  obtain ⟨M, c, ρ, h1, -, -, rfl, h2⟩ := assessOne_reads H
  by_cases hid : id = e.2
  · subst hid
    rw [upd_self]
    simp only [Comp.analyse, h1, h2]
  · rw [upd_ne _ _ _ _ hid]

theorem assessAll_analyse {lib : Lib} (hlib : Proportional lib) {dens : Dict String ℝ} : ∀ {l : List (String × ℕ)} {h h' : Heap} {ps : List (String × CompProps)},
    Veh.assessAll lib dens h l = (.ok ps, h') → (∀ id, ((h' id).analyse lib).1 = ((h id).analyse lib).1) ∧
      ∀ e ∈ l, ∃ p ρ q, (e.1, p) ∈ ps ∧ dens.get e.1 = .ok ρ ∧ ((h e.2).analyse lib).1 = .ok q ∧ p.props.volume = q.volume ∧ p.props.cog = q.cog ∧
        ∀ i j, p.props.moi i j = ρ * q.moi i j := by
  intro l
  induction l with
  | nil =>
    intro h h' ps H
    cases H
    exact ⟨fun _ => rfl, by simp⟩
  | cons e es ih =>
    intro h h' ps H
    unfold Veh.assessAll at H
    rcases h1 : Veh.assessOne lib dens h e with ⟨x | p, k⟩ <;> rw [h1] at H
    · cases H
    dsimp only at H
    rcases h2 : Veh.assessAll lib dens k es with ⟨x | qs, k'⟩ <;> rw [h2] at H
    · cases H
    simp only [Prod.mk.injEq, Except.ok.injEq] at H
    obtain ⟨rfl, rfl⟩ := H
    obtain ⟨i1, i2⟩ := ih h2
    have i3 := assessOne_analyse h1
    refine ⟨fun id => (i1 id).trans (i3 id), ?_⟩
    intro f hf
    rcases List.mem_cons.1 hf with rfl | hf
    · obtain ⟨M, c, ρ, a1, a2, a3, -, -⟩ := assessOne_reads h1
      obtain ⟨q, b1, b2⟩ := hlib M ρ p.props a3
      refine ⟨p, ρ, q, List.mem_cons_self, a2, ?_, b2⟩
      simp only [Comp.analyse, a1, b1]
    · obtain ⟨p', ρ, q, c1, c2, c3, c4⟩ := i2 f hf
      refine ⟨p', ρ, q, List.mem_cons_of_mem _ c1, c2, ?_, c4⟩
      rw [← i3]; exact c3

theorem summarise_components {l : List (String × CompProps)} {a : Analysis} (h : Veh.summarise l = .ok a) : a.components = l := by
  unfold Veh.summarise at h
  rcases hc : Veh.compositeCog l (l.foldl (fun a e => a + e.2.props.mass) 0) with x | c <;> simp only [hc, bind, Except.bind, pure, Except.pure] at h
  · cases h
  · injection h with h
    rw [← h]

theorem analyseGenerated_agrees {lib : Lib} (hlib : Proportional lib) {st st' : VState} {dens : Dict String ℝ} {a : Analysis}
    (H : Veh.analyseGenerated lib st dens = (.ok a, st')) : st'.veh.named = st.veh.named ∧
    ∀ e ∈ st.veh.named, ∃ p ρ q, (e.1, p) ∈ a.components ∧ dens.get e.1 = .ok ρ ∧ ((st'.heap e.2).analyse lib).1 = .ok q ∧
      p.props.volume = q.volume ∧ p.props.cog = q.cog ∧ ∀ i j, p.props.moi i j = ρ * q.moi i j := by
  unfold Veh.analyseGenerated at H
  rcases h1 : Veh.assessAll lib dens st.heap st.veh.named with ⟨x | l, h⟩ <;> rw [h1] at H
  · cases H
  dsimp only at H
  rcases h2 : Veh.summarise l with x | b <;> rw [h2] at H
  · cases H
  simp only [Prod.mk.injEq, Except.ok.injEq] at H
  obtain ⟨rfl, rfl⟩ := H
  obtain ⟨i1, i2⟩ := assessAll_analyse hlib h1
  refine ⟨rfl, fun e he => ?_⟩
  obtain ⟨p, ρ, q, c1, c2, c3, c4⟩ := i2 e he
  refine ⟨p, ρ, q, by rw [summarise_components h2]; exact c1, c2, ?_, c4⟩
  rw [i1]; exact c3

/-- C151: after `vehicle.analyse(densities)`, `component.analyse()` of each component reports the volume and the centre of
gravity the vehicle's analysis has for it, and the inertia for density one. -/
theorem C151_vehicle (lib : Lib) (hlib : Proportional lib) (depth : ℕ) (st st' : VState) (dens : Dict String ℝ) (a : Analysis)
    (H : Veh.analyse lib (depth + 1) st dens = (.ok a, st')) :
    ∀ e ∈ st'.veh.named, ∃ p ρ q, (e.1, p) ∈ a.components ∧ dens.get e.1 = .ok ρ ∧ ((st'.heap e.2).analyse lib).1 = .ok q ∧
      p.props.volume = q.volume ∧ p.props.cog = q.cog ∧ ∀ i j, p.props.moi i j = ρ * q.moi i j := by
  rw [Veh.analyse, Veh.analyseWith] at H
  split_ifs at H
  · obtain ⟨h1, h2⟩ := analyseGenerated_agrees hlib H
    rw [h1]; exact h2
  · rcases hg : Veh.generateWith (Veh.analyse lib depth) st with ⟨x | _, k⟩ <;> rw [hg] at H
    · cases H
    · obtain ⟨h1, h2⟩ := analyseGenerated_agrees hlib H
      rw [h1]; exact h2

/-- A library that takes the number of triangles for the volume, and a generated cube. -/
example : ∃ (lib : Lib) (c c' : Comp) (M : StlMesh), Proportional lib ∧ c.mesh = (.ok M, c') ∧ c.ghost = false := by
  obtain ⟨h', M, c', h1, h2, -⟩ := C149_cube 1 one_ne_zero ⟨0, 0, 0⟩ 2 (by norm_num) none (fun _ => Cube 1 ⟨0, 0, 0⟩ 2 none) 0 rfl
  obtain ⟨P, R, S, h4⟩ := generatePatches_opts (fun _ => Cube 1 ⟨0, 0, 0⟩ 2 none) 0 (by simp [Comp.children, Cube])
  rw [h1] at h4
  refine ⟨⟨fun m ρ => .ok ⟨m.tris.length, ρ * m.tris.length, ⟨0, 0, 0⟩, fun _ _ => ρ⟩, fun _ => 0⟩, h' 0, c', M, ?_, h2, congrArg Comp.ghost h4⟩
  intro m ρ p hp
  injection hp with hp
  subst hp
  exact ⟨_, rfl, rfl, rfl, fun i j => by simp⟩

/-- A vehicle that consists of this cube. -/
example (h : Heap) (c c' : Comp) (M : StlMesh) (hc : h 0 = c) (hm : c.mesh = (.ok M, c')) (hM : M.tris ≠ []) (v : Veh) (hv : v.generated = true)
    (hn : v.named = [("body", 0)]) :
    ∃ a st', Veh.analyse ⟨fun m ρ => .ok ⟨m.tris.length, ρ * m.tris.length, ⟨0, 0, 0⟩, fun _ _ => ρ⟩, fun _ => 0⟩ 1 ⟨h, v⟩ [("body", 2)] = (.ok a, st') := by
  subst hc
  have hs := mesh_stable _ M c' hm
  have hd : Dict.get ([("body", 2)] : Dict String ℝ) "body" = .ok 2 := by simp [Dict.get, Dict.get?]
  simp [Veh.analyse, Veh.analyseWith, hv, Veh.analyseGenerated, hn, Veh.assessAll, Veh.assessOne, hm, hs, hd, Veh.summarise, Veh.compositeCog, hM,
    bind, Except.bind, pure, Except.pure]

end HV
