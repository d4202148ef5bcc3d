import Verif.Lemmas.Grid
import Verif.Props.Roberts
import Verif.Spec.Euclid
import Mathlib.Analysis.Convex.Combination

/-!
# C37–C43: meshing one patch
-/

namespace HV

open Spec

/-! ## C37 -/

/-- C37: `4*ni*nj` triangles; the four triangles of cell `(i,j)` are at positions `4*(i*nj+j)+0..3` and have
the stated corners: grid points with y multiplied by `y_mult`, and the scaled sum of the four corners.
For any arithmetic and any parameter lists. -/
theorem C37_layout {α β : Type} (ar : MeshArith α β) (mirror : Bool) (surf : α → α → Res (Vec α)) (ni nj : ℕ)
    (hi : 1 ≤ ni) (hj : 1 ≤ nj) (rL sL : List α) (m : TriMesh β)
    (h : meshFromLists ar mirror surf ni nj rL sL = .ok m) :
    m.length = 4 * ni * nj ∧
    ∀ i < ni, ∀ j < nj, ∃ r r' s s' p00 p10 p01 p11,
      rL[i]? = some r ∧ rL[i + 1]? = some r' ∧ sL[j]? = some s ∧ sL[j + 1]? = some s' ∧
      surf r s = .ok p00 ∧ surf r' s = .ok p10 ∧ surf r s' = .ok p01 ∧ surf r' s' = .ok p11 ∧
      let v : Vec α → Vec β := fun p => ⟨ar.store p.x, ar.store (ar.mul (ar.ymult mirror) p.y), ar.store p.z⟩
      let q (a b c d : α) : α := ar.mul ar.quarter (ar.add (ar.add (ar.add a b) c) d)
      let c : Vec β := v ⟨q p00.x p10.x p01.x p11.x, q p00.y p10.y p01.y p11.y, q p00.z p10.z p01.z p11.z⟩
      m[4 * (i * nj + j) + 0]? = some ⟨v p00, v p10, c⟩ ∧
      m[4 * (i * nj + j) + 1]? = some ⟨v p10, v p11, c⟩ ∧
      m[4 * (i * nj + j) + 2]? = some ⟨v p11, v p01, c⟩ ∧
      m[4 * (i * nj + j) + 3]? = some ⟨v p01, v p00, c⟩ := by
  obtain ⟨P, hP, rfl⟩ := meshFromLists_inv ar mirror surf ni nj hi hj rL sL m h
  refine ⟨gridMesh_length ar mirror ni nj P, fun i hi' j hj' => ?_⟩
  obtain ⟨r, s, hr, hs, h00⟩ := pointAt_ok.1 (hP i (by omega) j (by omega))
  obtain ⟨r', s', hr', hs', h11⟩ := pointAt_ok.1 (hP (i + 1) (by omega) (j + 1) (by omega))
  obtain ⟨r2, s2, hr2, hs2, h10⟩ := pointAt_ok.1 (hP (i + 1) (by omega) j (by omega))
  obtain ⟨r3, s3, hr3, hs3, h01⟩ := pointAt_ok.1 (hP i (by omega) (j + 1) (by omega))
  obtain rfl : r2 = r' := by rw [hr'] at hr2; exact (Option.some.inj hr2).symm
  obtain rfl : s2 = s := by rw [hs] at hs2; exact (Option.some.inj hs2).symm
  obtain rfl : r3 = r := by rw [hr] at hr3; exact (Option.some.inj hr3).symm
  obtain rfl : s3 = s' := by rw [hs'] at hs3; exact (Option.some.inj hs3).symm
  refine ⟨r3, r2, s2, s3, _, _, _, _, hr, hr', hs, hs', h00, h10, h01, h11, ?_⟩
  refine ⟨?_, ?_, ?_, ?_⟩ <;> rw [gridMesh_get ar mirror ni nj P i j _ hi' hj' (by norm_num)] <;> rfl

/-- A total surface and parameter lists of the right length always mesh. -/
theorem C37_total {α β : Type} (ar : MeshArith α β) (mirror : Bool) (surf : α → α → Vec α) (ni nj : ℕ)
    (rL sL : List α) (hr : rL.length = ni + 1) (hs : sL.length = nj + 1) :
    ∃ m, meshFromLists ar mirror (fun r s => .ok (surf r s)) ni nj rL sL = .ok m := by
  have hp : ∀ i ≤ ni, ∀ j ≤ nj, ∃ p, pointAt (fun r s => .ok (surf r s)) rL sL i j = .ok p := by
    intro i hi j hj
    exact ⟨_, pointAt_ok.2 ⟨rL[i], sL[j], List.getElem?_eq_getElem _, List.getElem?_eq_getElem _, rfl⟩⟩
  obtain ⟨p0, -⟩ := hp 0 (by omega) 0 (by omega)
  refine ⟨_, meshFromLists_eq ar mirror _ ni nj rL sL
    (fun i j => match pointAt (fun r s => .ok (surf r s)) rL sL i j with | .ok p => p | .error _ => p0) ?_⟩
  intro i hi j hj
  obtain ⟨p, hp⟩ := hp i hi j hj
  simp only [hp]

/-- Witness: the unit square with a 2 x 1 grid. -/
example : ∃ m, meshFromLists MeshArith.real false (fun r s => .ok (⟨r, s, 0⟩ : V)) 2 1 [0, 0.5, 1] [0, 1] = .ok m ∧
    m.length = 8 := by
  obtain ⟨m, hm⟩ := C37_total MeshArith.real false (fun r s => (⟨r, s, 0⟩ : V)) 2 1 [0, 0.5, 1] [0, 1] rfl rfl
  exact ⟨m, hm, (C37_layout _ _ _ 2 1 (by norm_num) (by norm_num) _ _ m hm).1⟩

/-! ## C38 -/

/-- C38: there is an array of stored boundary vertices, the stored surface points at the grid parameters, such
that for all `a b` the surplus of directed edge `(a,b)` over `(b,a)` in the mesh is that in the boundary loop.  No
law of the arithmetic or of the rounding is used. -/
theorem C38_conforming {α β : Type} (ar : MeshArith α β) (mirror : Bool) (surf : α → α → Res (Vec α)) (ni nj : ℕ)
    (hi : 1 ≤ ni) (hj : 1 ≤ nj) (rL sL : List α) (m : TriMesh β)
    (h : meshFromLists ar mirror surf ni nj rL sL = .ok m) :
    ∃ p : ℕ → ℕ → Vec β,
      (∀ i ≤ ni, ∀ j ≤ nj, ∃ r s q, rL[i]? = some r ∧ sL[j]? = some s ∧ surf r s = .ok q ∧
        p i j = ⟨ar.store q.x, ar.store (ar.mul (ar.ymult mirror) q.y), ar.store q.z⟩) ∧
      ∀ a b, (edgeCount (edges m) a b : ℤ) - edgeCount (edges m) b a
        = edgeCount (boundaryLoop p ni nj) a b - edgeCount (boundaryLoop p ni nj) b a := by
  obtain ⟨P, hP, rfl⟩ := meshFromLists_inv ar mirror surf ni nj hi hj rL sL m h
  refine ⟨fun i j => meshVertex ar mirror (P i j), ?_, ?_⟩
  · intro i hi j hj
    obtain ⟨r, s, hr, hs, hp⟩ := pointAt_ok.1 (hP i hi j hj)
    exact ⟨r, s, _, hr, hs, hp, rfl⟩
  · intro a b
    rw [← edgeSum_detect, ← edgeSum_detect, edgeSum_gridMesh ar _ (detect_anti a b), edgeSum_boundaryLoop _ (detect_anti a b)]

/-- C38, interior edges: an edge that does not occur on the boundary loop in either direction occurs exactly as often
as its reverse. -/
theorem C38_interior {α β : Type} (ar : MeshArith α β) (mirror : Bool) (surf : α → α → Res (Vec α)) (ni nj : ℕ)
    (hi : 1 ≤ ni) (hj : 1 ≤ nj) (rL sL : List α) (m : TriMesh β)
    (h : meshFromLists ar mirror surf ni nj rL sL = .ok m) :
    ∃ p : ℕ → ℕ → Vec β,
      (∀ i ≤ ni, ∀ j ≤ nj, ∃ r s q, rL[i]? = some r ∧ sL[j]? = some s ∧ surf r s = .ok q ∧
        p i j = ⟨ar.store q.x, ar.store (ar.mul (ar.ymult mirror) q.y), ar.store q.z⟩) ∧
      ∀ a b, (a, b) ∉ boundaryLoop p ni nj → (b, a) ∉ boundaryLoop p ni nj →
        edgeCount (edges m) a b = edgeCount (edges m) b a := by
  obtain ⟨p, hp, hb⟩ := C38_conforming ar mirror surf ni nj hi hj rL sL m h
  refine ⟨p, hp, fun a b h1 h2 => ?_⟩
  have := hb a b
  rw [edgeCount_eq_zero h1, edgeCount_eq_zero h2] at this
  omega

/-- Witness: the hypotheses of C38 are met by a curved surface on a 3 x 2 grid. -/
example : ∃ m, meshFromLists MeshArith.real false (fun r s => .ok (⟨r, s, r * s⟩ : V)) 3 2 [0, 0.2, 0.5, 1] [0, 0.3, 1]
    = .ok m :=
  C37_total _ _ (fun r s => (⟨r, s, r * s⟩ : V)) 3 2 _ _ rfl rfl

/-! ## C39 -/

/-- C39: in exact arithmetic without mirroring each triangle has two corners on the surface at grid parameters and as
third corner the mean of the four surface points of its cell, which lies in their convex hull. -/
theorem C39_on_surface (surf : Surf) (ni nj : ℕ) (hi : 1 ≤ ni) (hj : 1 ≤ nj) (rL sL : List ℝ) (m : TriMesh ℝ)
    (h : meshFromLists MeshArith.real false surf ni nj rL sL = .ok m) (t : Tri ℝ) (ht : t ∈ m) :
    ∃ i < ni, ∃ j < nj, ∃ r r' s s' p00 p10 p01 p11,
      rL[i]? = some r ∧ rL[i + 1]? = some r' ∧ sL[j]? = some s ∧ sL[j + 1]? = some s' ∧
      surf r s = .ok p00 ∧ surf r' s = .ok p10 ∧ surf r s' = .ok p01 ∧ surf r' s' = .ok p11 ∧
      ((t.v0, t.v1) = (p00, p10) ∨ (t.v0, t.v1) = (p10, p11) ∨ (t.v0, t.v1) = (p11, p01) ∨
        (t.v0, t.v1) = (p01, p00)) ∧
      toE t.v2 = (1 / 4 : ℝ) • (toE p00 + toE p10 + toE p01 + toE p11) ∧
      toE t.v2 ∈ convexHull ℝ {toE p00, toE p10, toE p01, toE p11} := by
  obtain ⟨P, hP, rfl⟩ := meshFromLists_inv MeshArith.real false surf ni nj hi hj rL sL m h
  obtain ⟨i, hi', j, hj', ht⟩ := (mem_gridMesh _ _ _ _ _ _).1 ht
  obtain ⟨r, s, hr, hs, h00⟩ := pointAt_ok.1 (hP i (by omega) j (by omega))
  obtain ⟨r', s', hr', hs', h11⟩ := pointAt_ok.1 (hP (i + 1) (by omega) (j + 1) (by omega))
  obtain ⟨r2, s2, hr2, hs2, h10⟩ := pointAt_ok.1 (hP (i + 1) (by omega) j (by omega))
  obtain ⟨r3, s3, hr3, hs3, h01⟩ := pointAt_ok.1 (hP i (by omega) (j + 1) (by omega))
  obtain rfl : r2 = r' := by rw [hr'] at hr2; exact (Option.some.inj hr2).symm
  obtain rfl : s2 = s := by rw [hs] at hs2; exact (Option.some.inj hs2).symm
  obtain rfl : r3 = r := by rw [hr] at hr3; exact (Option.some.inj hr3).symm
  obtain rfl : s3 = s' := by rw [hs'] at hs3; exact (Option.some.inj hs3).symm
  refine ⟨i, hi', j, hj', r3, r2, s2, s3, _, _, _, _, hr, hr', hs, hs', h00, h10, h01, h11, ?_⟩
  generalize P i j = a at *
  generalize P (i + 1) j = b at *
  generalize P i (j + 1) = c at *
  generalize P (i + 1) (j + 1) = d at *
  have hv : ∀ p : V, meshVertex MeshArith.real false p = p := by
    intro p; ext <;> simp [meshVertex, MeshArith.real]
  have hcen : toE (meshVertex MeshArith.real false (cellCentre MeshArith.real a b c d)) =
      (1 / 4 : ℝ) • (toE a + toE b + toE c + toE d) := by
    rw [hv]
    ext k
    fin_cases k <;> simp [toE, cellCentre, MeshArith.real] <;> ring
  have hhull : toE (meshVertex MeshArith.real false (cellCentre MeshArith.real a b c d)) ∈
      convexHull ℝ {toE a, toE b, toE c, toE d} := by
    rw [hcen]
    have hc := convex_convexHull ℝ ({toE a, toE b, toE c, toE d} : Set _)
    have ha : toE a ∈ convexHull ℝ ({toE a, toE b, toE c, toE d} : Set _) := subset_convexHull _ _ (by simp)
    have hb : toE b ∈ convexHull ℝ ({toE a, toE b, toE c, toE d} : Set _) := subset_convexHull _ _ (by simp)
    have hcc : toE c ∈ convexHull ℝ ({toE a, toE b, toE c, toE d} : Set _) := subset_convexHull _ _ (by simp)
    have hd : toE d ∈ convexHull ℝ ({toE a, toE b, toE c, toE d} : Set _) := subset_convexHull _ _ (by simp)
    have h1 := hc ha hb (a := 1 / 2) (b := 1 / 2) (by norm_num) (by norm_num) (by norm_num)
    have h2 := hc hcc hd (a := 1 / 2) (b := 1 / 2) (by norm_num) (by norm_num) (by norm_num)
    have h3 := hc h1 h2 (a := 1 / 2) (b := 1 / 2) (by norm_num) (by norm_num) (by norm_num)
    convert h3 using 1
    module
  simp only [cellTris, List.mem_cons, List.not_mem_nil, or_false] at ht
  rcases ht with rfl | rfl | rfl | rfl
  · exact ⟨Or.inl (by simp only [hv]), hcen, hhull⟩
  · exact ⟨Or.inr (Or.inl (by simp only [hv])), hcen, hhull⟩
  · exact ⟨Or.inr (Or.inr (Or.inl (by simp only [hv]))), hcen, hhull⟩
  · exact ⟨Or.inr (Or.inr (Or.inr (by simp only [hv]))), hcen, hhull⟩

/-- Witness: a mesh with triangles exists. -/
example : ∃ m, meshFromLists MeshArith.real false (fun r s => .ok (⟨r, s, r * s⟩ : V)) 1 1 [0, 1] [0, 1] = .ok m ∧
    m.length = 4 := by
  obtain ⟨m, hm⟩ := C37_total MeshArith.real false (fun r s => (⟨r, s, r * s⟩ : V)) 1 1 [0, 1] [0, 1] rfl rfl
  exact ⟨m, hm, (C37_layout _ _ _ 1 1 (by norm_num) (by norm_num) _ _ m hm).1⟩

/-! ## C40 -/

theorem defaultVertexFunc_eq (n : ℕ) (hn : 1 ≤ n) (sp : ℝ) (hsp : 0 < sp) :
    defaultVertexFunc 0 1 (n + 1) sp =
      .ok ((List.range (n + 1)).map fun (i : ℕ) => ((i : ℝ) / n) ^ sp) := by
  have hn0 : (n : ℝ) ≠ 0 := by positivity
  unfold defaultVertexFunc
  have hd : pdiv 1 (((n + 1 : ℕ) : ℝ) - 1) = .ok (1 / n) := by
    have : (((n + 1 : ℕ) : ℝ) - 1) = n := by push_cast; ring
    rw [this]; simp [pdiv, hn0]
  simp only [hd, bind, Except.bind]
  apply mapM_range_ok
  intro i hi
  have : ppow ((i : ℝ) * (1 / n)) sp = .ok (((i : ℝ) / n) ^ sp) := by
    unfold ppow
    rw [if_neg (by intro h; linarith [h.2])]
    rw [mul_one_div]
  simp only [this, pure, Except.pure]
  congr 1
  ring

/-- C40: for positive spacing the parameters run strictly from 0 to 1. -/
theorem C40_runs (n : ℕ) (hn : 1 ≤ n) (sp : ℝ) (hsp : 0 < sp) :
    ∃ l, defaultVertexFunc 0 1 (n + 1) sp = .ok l ∧ RunsFromTo l 0 1 n := by
  refine ⟨_, defaultVertexFunc_eq n hn sp hsp, ?_⟩
  have hn0 : (0 : ℝ) < n := by exact_mod_cast hn
  refine ⟨by simp, ?_, ?_, ?_⟩
  · rw [List.head?_eq_getElem?, List.getElem?_eq_getElem (by simp)]
    simp [Real.zero_rpow hsp.ne']
  · rw [List.getLast?_eq_getElem?, List.getElem?_eq_getElem (by simp)]
    simp [hn0.ne']
  · rw [List.pairwise_map]
    refine List.Pairwise.imp ?_ List.pairwise_lt_range
    intro a b hab
    apply Real.rpow_lt_rpow (by positivity) _ hsp
    have : (a : ℝ) < b := by exact_mod_cast hab
    exact div_lt_div_of_pos_right this hn0

/-- C40: spacing 1 is uniform. -/
theorem C40_uniform (n : ℕ) (hn : 1 ≤ n) :
    defaultVertexFunc 0 1 (n + 1) 1 = .ok ((List.range (n + 1)).map fun (i : ℕ) => (i : ℝ) / n) := by
  rw [defaultVertexFunc_eq n hn 1 one_pos]
  simp

/-- C40: resolution 0 raises a division error. -/
theorem C40_zero (sp lb ub : ℝ) : defaultVertexFunc lb ub 1 sp = .error .zeroDiv := by
  simp [defaultVertexFunc, pdiv, bind, Except.bind]

/-- C40 for `surfce_to_stl`: with default options and positive resolution a total surface is meshed with parameters
running from 0 to 1 in both directions. -/
theorem C40_default_mesh (surf : ℝ → ℝ → V) (ni nj : ℕ) (hi : 1 ≤ ni) (hj : 1 ≤ nj) (o : MeshOpts)
    (h1 : o.i_clustering = none) (h2 : o.j_clustering = none) (hsi : 0 < o.si) (hsj : 0 < o.sj) :
    ∃ rL sL m, RunsFromTo rL 0 1 ni ∧ RunsFromTo sL 0 1 nj ∧
      surfceToStl (fun r s => .ok (surf r s)) ni nj o = .ok m ∧
      meshFromLists MeshArith.real o.mirror_y (fun r s => .ok (surf r s)) ni nj rL sL = .ok m := by
  obtain ⟨rL, hr, hR⟩ := C40_runs ni hi o.si hsi
  obtain ⟨sL, hs, hS⟩ := C40_runs nj hj o.sj hsj
  obtain ⟨m, hm⟩ := C37_total MeshArith.real o.mirror_y surf ni nj rL sL hR.1 hS.1
  refine ⟨rL, sL, m, hR, hS, ?_, hm⟩
  unfold surfceToStl rList sList
  simp only [h1, h2, hr, hs, ok_bind, hm]

example : (0 : ℝ) < ({ si := 1.5, sj := 0.7 } : MeshOpts).si ∧ (0 : ℝ) < ({ si := 1.5, sj := 0.7 } : MeshOpts).sj := by
  norm_num

/-! ## C41 -/

/-- C41, violated: with a j clustering function and more cells along s than along r every total surface fails to mesh
with an index error. -/
theorem C41_index_violated (surf : ℝ → ℝ → V) (f : ℝ → ℝ) (ni nj : ℕ) (hi : 1 ≤ ni) (h : ni < nj) :
    surfceToStl (fun r s => .ok (surf r s)) ni nj { j_clustering := some fun t => .ok (f t) } = .error .index := by
  have hs : sList { j_clustering := some fun t => .ok (f t) } ni nj = .ok ((linspace01 (ni + 1)).map f) := by
    unfold sList
    exact mapM_ok _ _ _ fun _ _ => rfl
  have hr : rList { j_clustering := some fun t => .ok (f t) } ni =
      .ok ((List.range (ni + 1)).map fun (i : ℕ) => (i : ℝ) / ni) := by
    unfold rList
    exact C40_uniform ni hi
  unfold surfceToStl
  rw [hr, hs, ok_bind, ok_bind]
  set rL := (List.range (ni + 1)).map fun (i : ℕ) => (i : ℝ) / ni with hrL
  set sL := (linspace01 (ni + 1)).map f with hsL
  have lr : rL.length = ni + 1 := by simp [hrL]
  have ls : sL.length = ni + 1 := by simp [hsL, linspace01]
  have hp : ∀ i ≤ ni, ∀ j ≤ ni, ∃ p, pointAt (fun r s => .ok (surf r s)) rL sL i j = .ok p := by
    intro i hi j hj
    exact ⟨_, pointAt_ok.2 ⟨rL[i], sL[j], List.getElem?_eq_getElem _, List.getElem?_eq_getElem _, rfl⟩⟩
  have hlast : ∀ i ≤ ni, pointAt (fun r s => .ok (surf r s)) rL sL i (ni + 1) = .error .index := by
    intro i hi
    unfold pointAt
    have h1 : SweptPatch.getIdx rL i = .ok rL[i] := getIdx_ok.2 (List.getElem?_eq_getElem (by omega))
    have h2 : SweptPatch.getIdx sL (ni + 1) = .error .index := by
      unfold SweptPatch.getIdx
      rw [List.getElem?_eq_none (by omega)]
    rw [h1, ok_bind, h2, error_bind]
  have hrow : ((List.range nj).mapM fun j => cellAt MeshArith.real false (fun r s => .ok (surf r s)) rL sL 0 j)
      = .error .index := by
    obtain ⟨k, rfl⟩ : ∃ k, nj = ni + 1 + k := ⟨nj - (ni + 1), by omega⟩
    have hsplit : List.range (ni + 1 + k) = List.range ni ++ (ni :: (List.range k).map (ni + 1 + ·)) := by
      rw [List.range_add, List.range_succ]
      simp
    rw [hsplit, List.mapM_append]
    have hok : ∃ l, ((List.range ni).mapM fun j => cellAt MeshArith.real false (fun r s => .ok (surf r s)) rL sL 0 j)
        = .ok l := by
      have : ∀ j, j < ni → ∃ c, cellAt MeshArith.real false (fun r s => .ok (surf r s)) rL sL 0 j = .ok c := by
        intro j hj
        obtain ⟨p1, h1⟩ := hp 0 (by omega) j (by omega)
        obtain ⟨p2, h2⟩ := hp 1 (by omega) j (by omega)
        obtain ⟨p3, h3⟩ := hp 0 (by omega) (j + 1) (by omega)
        obtain ⟨p4, h4⟩ := hp 1 (by omega) (j + 1) (by omega)
        refine ⟨cellTris MeshArith.real false p1 p2 p3 p4, ?_⟩
        rw [cellAt_eq, h1, h2, h3, h4]
        rfl
      refine ⟨_, mapM_range_ok (f := fun j =>
        match cellAt MeshArith.real false (fun r s => .ok (surf r s)) rL sL 0 j with | .ok c => c | .error _ => []) ?_⟩
      intro j hj
      obtain ⟨c, hc⟩ := this j hj
      simp only [hc]
    obtain ⟨l, hl⟩ := hok
    have hbad : cellAt MeshArith.real false (fun r s => .ok (surf r s)) rL sL 0 ni = .error .index := by
      obtain ⟨p1, h1⟩ := hp 0 (by omega) ni (by omega)
      obtain ⟨p2, h2⟩ := hp 1 (by omega) ni (by omega)
      rw [cellAt_eq, h1, ok_bind, h2, ok_bind, hlast 0 (by omega), error_bind]
    rw [hl, ok_bind, List.mapM_cons, hbad, error_bind, error_bind]
  unfold meshFromLists
  obtain ⟨k, rfl⟩ : ∃ k, ni = k + 1 := ⟨ni - 1, by omega⟩
  rw [List.range_succ_eq_map, List.mapM_cons, hrow, error_bind, error_bind]

/-- C41, violated: with fewer cells along s the mesh stops short of `s = 1`.  For a 2 x 1 mesh of the unit square with the
identity as clustering function no vertex is on the edge `s = 1`. -/
theorem C41_short_violated :
    ∃ m, surfceToStl (fun r s => .ok ⟨r, s, 0⟩) 2 1 { j_clustering := some fun t => .ok t } = .ok m ∧
      ∀ t ∈ m, t.v0.y ≤ 1 / 2 ∧ t.v1.y ≤ 1 / 2 ∧ t.v2.y ≤ 1 / 2 := by
  have hs : sList { j_clustering := some fun t => .ok t } 2 1 = .ok ((linspace01 3).map id) := by
    unfold sList
    exact mapM_ok _ _ _ fun _ _ => rfl
  have hr : rList { j_clustering := some fun t => .ok t } 2 =
      .ok ((List.range 3).map fun (i : ℕ) => (i : ℝ) / (2 : ℕ)) := by
    unfold rList
    exact C40_uniform 2 (by norm_num)
  unfold surfceToStl
  rw [hr, hs, ok_bind, ok_bind]
  refine ⟨_, meshFromLists_eq MeshArith.real false _ 2 1 _ _ (fun i j => ⟨(i : ℝ) / 2, (j : ℝ) / 2, 0⟩) ?_, ?_⟩
  · intro i hi j hj
    rw [pointAt_ok]
    refine ⟨(i : ℝ) / 2, (j : ℝ) / 2, ?_, ?_, rfl⟩
    · rw [List.getElem?_eq_getElem (by simp; omega)]; simp
    · rw [List.getElem?_eq_getElem (by simp [linspace01]; omega)]; simp [linspace01]; norm_num
  · intro t ht
    obtain ⟨i, hi, j, hj, ht⟩ := (mem_gridMesh _ _ _ _ _ _).1 ht
    obtain rfl : j = 0 := by omega
    simp only [cellTris, List.mem_cons, List.not_mem_nil, or_false] at ht
    rcases ht with rfl | rfl | rfl | rfl <;> simp [meshVertex, cellCentre, MeshArith.real] <;> norm_num

/-- C41 for equal resolutions: the s parameters are the clustering function on `nj + 1` uniform points, and likewise for r.
Missing: `ni ≠ nj`, where the property fails for j. -/
theorem C41_partial (surf : ℝ → ℝ → V) (f g : ℝ → ℝ) (n : ℕ) (hn : 1 ≤ n) :
    ∃ m, surfceToStl (fun r s => .ok (surf r s)) n n
        { i_clustering := some fun t => .ok (g t), j_clustering := some fun t => .ok (f t) } = .ok m ∧
      meshFromLists MeshArith.real false (fun r s => .ok (surf r s)) n n
        ((List.range (n + 1)).map fun (i : ℕ) => g ((i : ℝ) / n))
        ((List.range (n + 1)).map fun (i : ℕ) => f ((i : ℝ) / n)) = .ok m := by
  have hf : ∀ h : ℝ → ℝ, ((linspace01 (n + 1)).mapM fun t => (.ok (h t) : Res ℝ)) =
      .ok ((List.range (n + 1)).map fun (i : ℕ) => h ((i : ℝ) / n)) := by
    intro h
    have := mapM_ok (l := linspace01 (n + 1)) (g := fun t => (.ok (h t) : Res ℝ)) (h := h) fun _ _ => rfl
    rw [this]
    unfold linspace01
    rw [List.map_map]
    congr 1
    apply List.map_congr_left
    intro i _
    simp
  obtain ⟨m, hm⟩ := C37_total MeshArith.real false surf n n
    ((List.range (n + 1)).map fun (i : ℕ) => g ((i : ℝ) / n))
    ((List.range (n + 1)).map fun (i : ℕ) => f ((i : ℝ) / n)) (by simp) (by simp)
  refine ⟨m, ?_, hm⟩
  unfold surfceToStl rList sList
  simp only [hf, ok_bind, hm]

/-- C41, the i direction alone works for every `ni`, `nj`. -/
theorem C41_i_partial (surf : ℝ → ℝ → V) (g : ℝ → ℝ) (ni nj : ℕ) (hj : 1 ≤ nj) :
    ∃ m, surfceToStl (fun r s => .ok (surf r s)) ni nj { i_clustering := some fun t => .ok (g t) } = .ok m ∧
      meshFromLists MeshArith.real false (fun r s => .ok (surf r s)) ni nj
        ((List.range (ni + 1)).map fun (i : ℕ) => g ((i : ℝ) / ni))
        ((List.range (nj + 1)).map fun (i : ℕ) => (i : ℝ) / nj) = .ok m := by
  have hf : ((linspace01 (ni + 1)).mapM fun t => (.ok (g t) : Res ℝ)) =
      .ok ((List.range (ni + 1)).map fun (i : ℕ) => g ((i : ℝ) / ni)) := by
    have := mapM_ok (l := linspace01 (ni + 1)) (g := fun t => (.ok (g t) : Res ℝ)) (h := g) fun _ _ => rfl
    rw [this]
    unfold linspace01
    rw [List.map_map]
    congr 1
    apply List.map_congr_left
    intro i _
    simp
  obtain ⟨m, hm⟩ := C37_total MeshArith.real false surf ni nj
    ((List.range (ni + 1)).map fun (i : ℕ) => g ((i : ℝ) / ni))
    ((List.range (nj + 1)).map fun (i : ℕ) => (i : ℝ) / nj) (by simp) (by simp)
  refine ⟨m, ?_, hm⟩
  unfold surfceToStl rList sList
  simp only [hf, ok_bind, C40_uniform nj hj, hm]

/-! ## C42 -/

/-- C42: mirroring negates the stored y of every vertex, triangle by triangle, provided multiplying by `-1` negates and
multiplying by `1` does nothing up to storing. -/
theorem C42_mirror {α β : Type} (ar : MeshArith α β) (neg : β → β)
    (hneg : ∀ y, ar.store (ar.mul (ar.ymult true) y) = neg (ar.store (ar.mul (ar.ymult false) y)))
    (surf : α → α → Res (Vec α)) (ni nj : ℕ) (hi : 1 ≤ ni) (hj : 1 ≤ nj) (rL sL : List α) (m : TriMesh β)
    (h : meshFromLists ar false surf ni nj rL sL = .ok m) :
    meshFromLists ar true surf ni nj rL sL = .ok (mapVerts (fun p => ⟨p.x, neg p.y, p.z⟩) m) := by
  obtain ⟨P, hP, rfl⟩ := meshFromLists_inv ar false surf ni nj hi hj rL sL m h
  rw [meshFromLists_eq ar true surf ni nj rL sL P hP]
  congr 1
  have hv : ∀ p : Vec α, meshVertex ar true p =
      ⟨(meshVertex ar false p).x, neg (meshVertex ar false p).y, (meshVertex ar false p).z⟩ := by
    intro p; simp [meshVertex, hneg]
  simp only [gridMesh, mapVerts, List.map_flatten, List.map_map]
  congr 1
  apply List.map_congr_left
  intro i _
  simp only [Function.comp_apply, List.map_flatten, List.map_map]
  congr 1
  apply List.map_congr_left
  intro j _
  simp [cellTris, hv]

theorem signedVolume_mirror (m : TriMesh ℝ) :
    signedVolume (mapVerts (fun p => ⟨p.x, -p.y, p.z⟩) m) = -signedVolume m := by
  induction m with
  | nil => simp [signedVolume, mapVerts]
  | cons t m ih =>
    have e1 : signedVolume (t :: m) = det3 t.v0 t.v1 t.v2 / 6 + signedVolume m := by simp [signedVolume]
    have e2 : signedVolume (mapVerts (fun p => ⟨p.x, -p.y, p.z⟩) (t :: m)) =
        -(det3 t.v0 t.v1 t.v2 / 6) + signedVolume (mapVerts (fun p => ⟨p.x, -p.y, p.z⟩) m) := by
      simp only [signedVolume, mapVerts, List.map_cons, List.sum_cons, det3]
      ring
    rw [e1, e2, ih]
    ring

/-- C42 for `surfce_to_stl` in exact arithmetic: `mirror_y` negates y and the signed volume. -/
theorem C42_surfce_to_stl (surf : Surf) (ni nj : ℕ) (hi : 1 ≤ ni) (hj : 1 ≤ nj) (o : MeshOpts) (ho : o.mirror_y = false)
    (m : TriMesh ℝ) (h : surfceToStl surf ni nj o = .ok m) :
    ∃ m', surfceToStl surf ni nj { o with mirror_y := true } = .ok m' ∧
      m' = mapVerts (fun p => ⟨p.x, -p.y, p.z⟩) m ∧ signedVolume m' = -signedVolume m := by
  unfold surfceToStl at h
  obtain ⟨rL, hr, h⟩ := bind_ok.1 h
  obtain ⟨sL, hs, h⟩ := bind_ok.1 h
  rw [ho] at h
  have := C42_mirror MeshArith.real (fun y => -y) (by simp [MeshArith.real]) surf ni nj hi hj rL sL m h
  refine ⟨_, ?_, rfl, signedVolume_mirror m⟩
  have hr' : rList { o with mirror_y := true } ni = .ok rL := by rw [← hr]; rfl
  have hs' : sList { o with mirror_y := true } ni nj = .ok sL := by rw [← hs]; rfl
  unfold surfceToStl
  rw [hr', hs', ok_bind, ok_bind]
  exact this

/-- Witness: a surface with non-zero volume contribution meshes. -/
example : ∃ m, surfceToStl (fun r s => .ok ⟨r, s, 1⟩) 1 1 = .ok m := by
  obtain ⟨_, _, m, _, _, h, _⟩ := C40_default_mesh (fun r s => ⟨r, s, 1⟩) 1 1 (by norm_num) (by norm_num) {} rfl rfl
    (by norm_num) (by norm_num)
  exact ⟨m, h⟩

/-! ## C43 -/

/-- The cross product as an antisymmetric function of an edge. -/
def edgeCross (a b : V) : Fin 3 → ℝ := ![a.y * b.z - a.z * b.y, a.z * b.x - a.x * b.z, a.x * b.y - a.y * b.x]

theorem edgeCross_anti : Anti edgeCross := by
  intro a b
  ext k
  fin_cases k <;> simp [edgeCross] <;> ring

theorem vectorArea2_eq (m : TriMesh ℝ) : vectorArea2 m = edgeSum edgeCross (edges m) := by
  induction m with
  | nil => rfl
  | cons t m ih =>
    have e1 : vectorArea2 (t :: m) = triArea2 t + vectorArea2 m := by simp [vectorArea2]
    have e2 : edges (t :: m) = triEdges t ++ edges m := rfl
    rw [e1, e2, edgeSum_append, ih]
    congr 1
    ext k
    fin_cases k <;> simp [triArea2, edgeSum, triEdges, edgeCross] <;> ring

/-- C43: two patch meshes whose surfaces agree at the boundary grid parameters have the same summed normals. -/
theorem C43_boundary (surf surf' : Surf) (mirror : Bool) (ni nj : ℕ) (hi : 1 ≤ ni) (hj : 1 ≤ nj) (rL sL : List ℝ)
    (m m' : TriMesh ℝ) (h : meshFromLists MeshArith.real mirror surf ni nj rL sL = .ok m)
    (h' : meshFromLists MeshArith.real mirror surf' ni nj rL sL = .ok m')
    (hb : ∀ i j r s, (i = 0 ∨ i = ni ∨ j = 0 ∨ j = nj) → rL[i]? = some r → sL[j]? = some s → surf r s = surf' r s) :
    vectorArea2 m = vectorArea2 m' := by
  obtain ⟨P, hP, rfl⟩ := meshFromLists_inv _ mirror surf ni nj hi hj rL sL m h
  obtain ⟨P', hP', rfl⟩ := meshFromLists_inv _ mirror surf' ni nj hi hj rL sL m' h'
  have key : ∀ i ≤ ni, ∀ j ≤ nj, (i = 0 ∨ i = ni ∨ j = 0 ∨ j = nj) → P i j = P' i j := by
    intro i hi j hj hij
    obtain ⟨r, s, hr, hs, hp⟩ := pointAt_ok.1 (hP i hi j hj)
    obtain ⟨r', s', hr', hs', hp'⟩ := pointAt_ok.1 (hP' i hi j hj)
    obtain rfl : r = r' := by rw [hr] at hr'; exact Option.some.inj hr'
    obtain rfl : s = s' := by rw [hs] at hs'; exact Option.some.inj hs'
    have := hb i j r s hij hr hs
    rw [hp, hp'] at this
    exact Except.ok.inj this
  rw [vectorArea2_eq, vectorArea2_eq, edgeSum_gridMesh _ _ edgeCross_anti, edgeSum_gridMesh _ _ edgeCross_anti]
  have k1 : ∀ i ≤ ni, P i 0 = P' i 0 := fun i hi => key i hi 0 (by omega) (by simp)
  have k2 : ∀ i ≤ ni, P i nj = P' i nj := fun i hi => key i hi nj (by omega) (by simp)
  have k3 : ∀ j ≤ nj, P 0 j = P' 0 j := fun j hj => key 0 (by omega) j hj (by simp)
  have k4 : ∀ j ≤ nj, P ni j = P' ni j := fun j hj => key ni (by omega) j hj (by simp)
  rw [pathSum_congr (q := fun i => meshVertex MeshArith.real mirror (P' i 0)) _ (fun i hi => by rw [k1 i hi]),
    pathSum_congr (p := fun j => meshVertex MeshArith.real mirror (P ni j))
      (q := fun j => meshVertex MeshArith.real mirror (P' ni j)) _ (fun j hj => by rw [k4 j hj]),
    pathSum_congr (p := fun i => meshVertex MeshArith.real mirror (P i nj))
      (q := fun i => meshVertex MeshArith.real mirror (P' i nj)) _ (fun i hi => by rw [k2 i hi]),
    pathSum_congr (p := fun j => meshVertex MeshArith.real mirror (P 0 j))
      (q := fun j => meshVertex MeshArith.real mirror (P' 0 j)) _ (fun j hj => by rw [k3 j hj])]

/-- A closed mesh has vanishing vector area. -/
theorem vectorArea2_closed (m : TriMesh ℝ) (h : Closed m) : vectorArea2 m = 0 := by
  rw [vectorArea2_eq]
  apply edgeSum_eq_zero_of_balanced _ edgeCross_anti _ _ h
  intro a ha
  ext k
  have := congrFun ha k
  simp at this
  simpa using by linarith

/-- C43: the signed volume of a closed mesh does not change under translation. -/
theorem C43_volume_translate (m : TriMesh ℝ) (h : Closed m) (d : V) :
    signedVolume (mapVerts (fun p => ⟨p.x + d.x, p.y + d.y, p.z + d.z⟩) m) = signedVolume m := by
  have key : ∀ m : TriMesh ℝ, ∃ w : Fin 3 → ℝ, w = vectorArea2 m ∧
      signedVolume (mapVerts (fun p => ⟨p.x + d.x, p.y + d.y, p.z + d.z⟩) m) =
        signedVolume m + (d.x * w 0 + d.y * w 1 + d.z * w 2) / 6 := by
    intro m
    induction m with
    | nil => exact ⟨_, rfl, by simp [signedVolume, mapVerts, vectorArea2]⟩
    | cons t m ih =>
      obtain ⟨w, hw, ih⟩ := ih
      refine ⟨_, rfl, ?_⟩
      have e1 : vectorArea2 (t :: m) = triArea2 t + w := by rw [hw]; simp [vectorArea2]
      have e2 : signedVolume (t :: m) = det3 t.v0 t.v1 t.v2 / 6 + signedVolume m := by simp [signedVolume]
      have e3 : signedVolume (mapVerts (fun p => ⟨p.x + d.x, p.y + d.y, p.z + d.z⟩) (t :: m)) =
          det3 ⟨t.v0.x + d.x, t.v0.y + d.y, t.v0.z + d.z⟩ ⟨t.v1.x + d.x, t.v1.y + d.y, t.v1.z + d.z⟩
            ⟨t.v2.x + d.x, t.v2.y + d.y, t.v2.z + d.z⟩ / 6
          + signedVolume (mapVerts (fun p => ⟨p.x + d.x, p.y + d.y, p.z + d.z⟩) m) := by
        simp [signedVolume, mapVerts]
      rw [e1, e2, e3, ih]
      simp only [Pi.add_apply, triArea2, det3, Matrix.cons_val_zero, Matrix.cons_val_one, Matrix.cons_val]
      ring
  obtain ⟨w, hw, h'⟩ := key m
  rw [h', hw, vectorArea2_closed m h]
  simp

/-- The four faces of a tetrahedron, outward. -/
def tetra (a b c d : V) : TriMesh ℝ := [⟨a, c, b⟩, ⟨a, b, d⟩, ⟨b, c, d⟩, ⟨c, a, d⟩]

theorem tetra_closed (a b c d : V) : Closed (tetra a b c d) := by
  rw [closed_iff_edgeSum]
  intro φ this
  simp only [edgeSum, edges, tetra, triEdges, List.flatMap_cons, List.flatMap_nil, List.cons_append, List.nil_append,
    List.map_cons, List.map_nil, List.sum_cons, List.sum_nil]
  rw [this a b, this a c, this a d, this b c, this b d, this c d]
  ring

/-- Witness: a closed mesh with non-zero volume. -/
example : Closed (tetra ⟨0, 0, 0⟩ ⟨1, 0, 0⟩ ⟨0, 1, 0⟩ ⟨0, 0, 1⟩) ∧
    signedVolume (tetra ⟨0, 0, 0⟩ ⟨1, 0, 0⟩ ⟨0, 1, 0⟩ ⟨0, 0, 1⟩) = 1 / 6 := by
  refine ⟨tetra_closed _ _ _ _, ?_⟩
  simp [signedVolume, tetra, det3]

/-- Witness: a flat and a bumped surface with the same boundary both mesh on a 2 x 2 grid. -/
example : (∃ m, meshFromLists MeshArith.real false (fun r s => .ok ⟨r, s, 0⟩) 2 2 [0, 0.5, 1] [0, 0.5, 1] = .ok m) ∧
    (∃ m, meshFromLists MeshArith.real false (fun r s => .ok ⟨r, s, r * (1 - r) * s * (1 - s)⟩) 2 2 [0, 0.5, 1]
      [0, 0.5, 1] = .ok m) :=
  ⟨C37_total _ _ (fun r s => ⟨r, s, 0⟩) 2 2 _ _ rfl rfl, C37_total _ _ (fun r s => ⟨r, s, r * (1 - r) * s * (1 - s)⟩) 2 2 _ _ rfl rfl⟩

end HV
