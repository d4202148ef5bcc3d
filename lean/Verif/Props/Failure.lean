import Verif.Model.Grid
import Verif.Props.Component

/-!
# C112, C113: operations that fail

`Component.grid`, `Component.to_vtk`; what a failed attempt at meshing leaves behind.
-/

namespace HV

open Spec

/-! ## C112: structured grids -/

/-- C112 is violated by every component: `grid` of a component with patches raises, and writing VTK files raises for every component. -/
theorem C112_violated (c : Comp) (h : c.patches ≠ []) : (∃ e, c.grid.1 = .error e) ∧ ∃ e, c.toVtk.1 = .error e := by
  refine ⟨?_, _, rfl⟩
  unfold Comp.grid
  rcases hp : c.patches with _ | ⟨a, l⟩
  · exact absurd hp h
  · exact ⟨_, rfl⟩

/-- C112, in part: the failing methods leave the component as it was.  Missing: there are no grids. -/
theorem C112_partial (c : Comp) : c.grid.2 = c ∧ c.toVtk.2 = c := by
  refine ⟨?_, rfl⟩
  unfold Comp.grid
  rcases c.patches with _ | ⟨a, l⟩ <;> rfl

example : demoComp.patches ≠ [] := by simp [demoComp]

/-! ## C113: a failed attempt at meshing -/

namespace Spec

/-- The component, whose mesh has not been computed, fails to mesh: patches `good` can be meshed, with triangles `m`, the next one fails. -/
structure FailsAfter (c : Comp) (n : ℕ) (good : List (String × Surf)) (bad : String × Surf) (e : PyErr) (m : TriMesh ℝ) : Prop where
  names : c.patches.keys.Nodup
  resolution : c.stl_resolution = .int n
  mesh_ : c.mesh_ = none
  surfaces : c.surfaces = none
  meshed : MeshOf c.clustering (fun _ => n) (fun _ => n) good m
  fails : surfceToStl bad.2 n n c.clustering = .error e
  patches : ∃ rest, c.patches = good ++ bad :: rest

end Spec

theorem surfaceLoop_fails (o : MeshOpts) (n : ℕ) (bad : String × Surf) (e : PyErr) (rest : List (String × Surf))
    (hb : surfceToStl bad.2 n n o = .error e) : ∀ (good : List (String × Surf)) (parts : List (TriMesh ℝ)) (acc : Dict String (TriMesh ℝ)),
    List.Forall₂ (fun (x : String × Surf) part => surfceToStl x.2 n n o = .ok part) good parts →
      Comp.surfaceLoop o acc ((good ++ bad :: rest).map fun x => (x.1, x.2, n, n)) =
        (.error e, Dict.setAll acc ((good.map Prod.fst).zip parts)) ∧
      ((good ++ bad :: rest).map fun x => (x.1, x.2, n, n)).mapM (Comp.wrapper o) = .error e := by
  intro good parts acc h
  induction h generalizing acc with
  | nil =>
    constructor
    · simp [Comp.surfaceLoop, Comp.wrapper, hb, bind, Except.bind, Dict.setAll]
    · simp [Comp.wrapper, hb, bind, Except.bind]
  | @cons a b l1 l2 h _ ih =>
    obtain ⟨i1, -⟩ := ih (acc.set a.1 b)
    obtain ⟨-, i2⟩ := ih acc
    constructor
    · simp only [List.cons_append, List.map_cons, Comp.surfaceLoop, Comp.wrapper, h, bind, Except.bind, pure, Except.pure]
      rw [i1]
      rfl
    · simp only [List.cons_append, List.map_cons, List.mapM_cons]
      rw [i2]
      simp only [Comp.wrapper, h, bind, Except.bind, pure, Except.pure]

theorem surface_fails {c : Comp} {n : ℕ} {good : List (String × Surf)} {bad : String × Surf} {e : PyErr} {m : TriMesh ℝ}
    (h : FailsAfter c n good bad e m) : ∃ parts, m = parts.flatten ∧ parts.length = good.length ∧
      c.mesh = (.error e, { c with surfaces := some (if c.multiprocess then [] else (good.map Prod.fst).zip parts) }) := by
  obtain ⟨parts, hp, hm⟩ := h.meshed
  obtain ⟨rest, hr⟩ := h.patches
  refine ⟨parts, hm, hp.length_eq.symm, ?_⟩
  obtain ⟨k1, k2⟩ := surfaceLoop_fails c.clustering n bad e rest h.fails good parts [] hp
  rw [← hr] at k1 k2
  have hn : ((good.map Prod.fst).zip parts).map Prod.fst = good.map Prod.fst := by
    rw [List.map_fst_zip]
    simp [hp.length_eq]
  rw [Dict.setAll_nil_nodup _ (by
    rw [hn]
    have := h.names
    rw [hr] at this
    simp only [Dict.keys, List.map_append] at this
    exact (List.nodup_append.1 this).1)] at k1
  have hl : c.patches.length ≠ 0 := by rw [hr]; simp
  have hs : c.surface = (.error e, { c with surfaces := some (if c.multiprocess then [] else (good.map Prod.fst).zip parts) }) := by
    unfold Comp.surface
    rw [if_neg hl, Option.getD_none, caseOf_int c n h.resolution]
    simp only [Comp.surfaceCases]
    rw [k1, k2]
    rcases c.multiprocess <;> rfl
  rw [mesh_eq_of_none c h.mesh_ h.surfaces, hs]

/-- C113 is violated with multiprocessing (the default): if one patch cannot be meshed, every later use of the mesh raises a `ValueError`,
whatever is done to the patches, resolution and clustering of the component in between. -/
theorem C113_parallel_violated (c : Comp) (n : ℕ) (good : List (String × Surf)) (bad : String × Surf) (e : PyErr) (m : TriMesh ℝ)
    (h : FailsAfter c n good bad e m) (hp : c.multiprocess = true) :
    ∃ c', c.mesh = (.error e, c') ∧ ∀ patches res o, ({ c' with patches := patches, stl_resolution := res, clustering := o } : Comp).mesh.1 =
      .error .value := by
  obtain ⟨parts, -, -, h1⟩ := surface_fails h
  refine ⟨_, h1, fun patches res o => ?_⟩
  simp [Comp.mesh, Comp.buildMesh, Comp.combine, h.mesh_, hp]

/-- C113 is violated without multiprocessing: if a patch after the first cannot be meshed, the first use of the mesh raises, the second
returns the mesh of the patches before it. -/
theorem C113_sequential_violated (c : Comp) (n : ℕ) (good : List (String × Surf)) (bad : String × Surf) (e : PyErr) (m : TriMesh ℝ)
    (h : FailsAfter c n good bad e m) (hp : c.multiprocess = false) (hg : good ≠ []) :
    ∃ c' M c'', c.mesh = (.error e, c') ∧ c'.mesh = (.ok M, c'') ∧ M.tris = m := by
  obtain ⟨parts, hm, hl, h1⟩ := surface_fails h
  rw [hp] at h1
  have hz : (good.map Prod.fst).zip parts ≠ [] := by
    rcases good with _ | ⟨g, good⟩
    · exact absurd rfl hg
    · rcases parts with _ | ⟨q, parts⟩
      · simp at hl
      · simp
  have hc := combine_eq { c with surfaces := some ((good.map Prod.fst).zip parts) } _ rfl hz
  rw [List.map_snd_zip (by simp [hl]), ← hm] at hc
  simp only [Bool.false_eq_true, if_false] at h1
  have h2 : ∀ d : Comp, d.mesh_ = none → d.surfaces = some ((good.map Prod.fst).zip parts) → d.mesh = d.combine := by
    intro d hd1 hd2
    unfold Comp.mesh Comp.buildMesh
    rw [hd1]
    simp only [hd2]
  simp only [hp] at hc
  exact ⟨_, StlMesh.ofTris m, _, h1, (h2 _ (by exact h.mesh_) (by rfl)).trans hc, rfl⟩

/-- Computing surfaces changes the surfaces only. -/
theorem surface_frame (c : Comp) (r : Option Reso) : ∃ s, (c.surface r).2 = { c with surfaces := s } := by
  unfold Comp.surface Comp.surfaceCases
  split_ifs
  · exact ⟨c.surfaces, rfl⟩
  · split
    · exact ⟨c.surfaces, rfl⟩
    · split <;> exact ⟨_, rfl⟩
  · split
    · exact ⟨c.surfaces, rfl⟩
    · exact ⟨_, rfl⟩

theorem mesh_error_frame (c c' : Comp) (e : PyErr) (h : c.mesh = (.error e, c')) : ∃ s, c' = { c with surfaces := s } := by
  have key : ∀ d d' : Comp, d.combine = (.error e, d') → d' = d := by
    intro d d' hd
    unfold Comp.combine at hd
    split at hd
    · exact (Prod.mk.inj hd).2.symm
    · exact (Prod.mk.inj hd).2.symm
    · cases (Prod.mk.inj hd).1
  have kb : c.buildMesh = (.error e, c') → ∃ s, c' = { c with surfaces := s } := by
    intro hb
    unfold Comp.buildMesh at hb
    split at hb
    · exact ⟨c.surfaces, key c c' hb⟩
    · obtain ⟨s, hs⟩ := surface_frame c none
      split at hb
      · rename_i hq
        rw [hq] at hs
        obtain ⟨-, rfl⟩ := Prod.mk.inj hb
        exact ⟨s, hs⟩
      · rename_i hq
        rw [hq] at hs
        exact ⟨s, (key _ _ hb).trans hs⟩
  unfold Comp.mesh at h
  split at h
  · split_ifs at h
    · cases (Prod.mk.inj h).1
    · exact kb h
  · exact kb h

/-- C113, in part: calling `surface()` after any failed attempt does what it would have done without it.  Missing: the mesh, see
`C113_parallel_violated` and `C113_sequential_violated`. -/
theorem C113_partial (c c' : Comp) (e : PyErr) (h : c.mesh = (.error e, c')) (r : Option Reso) :
    (c'.surface r).1 = (c.surface r).1 ∧ ((c.surface r).1 = .ok () → (c'.surface r).2 = (c.surface r).2) := by
  obtain ⟨s, rfl⟩ := mesh_error_frame c c' e h
  unfold Comp.surface
  by_cases hl : c.patches.length = 0
  · simp [hl]
  · simp only [if_neg hl]
    have e1 : ({ c with surfaces := s } : Comp).caseOf = c.caseOf := by
      funext r x
      unfold Comp.caseOf
      rfl
    rw [e1]
    cases hc : c.patches.mapM (c.caseOf (r.getD c.stl_resolution)) with
    | error x => exact ⟨rfl, fun h => by cases h⟩
    | ok l =>
      simp only [Comp.surfaceCases]
      cases c.multiprocess with
      | true => simp only [if_true]; cases l.mapM (Comp.wrapper c.clustering) <;> simp
      | false => simp

/-- The unit square, followed by a patch that cannot be evaluated. -/
noncomputable def brokenComp : Comp := { demoComp with patches := demoComp.patches ++ [("broken", fun _ _ => .error .attr)] }

theorem brokenComp_fails : ∃ m, FailsAfter brokenComp 2 demoComp.patches ("broken", fun _ _ => .error .attr) .attr m := by
  obtain ⟨rL, sL, m, hr, hs, h, _⟩ := C40_default_mesh (fun r s => ⟨r, s, 0⟩) 2 2 (by norm_num) (by norm_num) {} rfl rfl
    one_pos one_pos
  obtain ⟨L, hL, hL'⟩ := C40_runs 2 (by norm_num) 1 one_pos
  refine ⟨_, by simp [brokenComp, demoComp, Dict.keys], rfl, rfl, rfl, ⟨[m], by simpa [demoComp, brokenComp] using h, rfl⟩, ?_, [], rfl⟩
  have hl : L.length = 3 := hL'.1
  obtain ⟨x, L', rfl⟩ := List.exists_cons_of_length_pos (by omega : 0 < L.length)
  simp [surfceToStl, rList, sList, brokenComp, demoComp, hL, ok_bind, meshFromLists, List.range_succ_eq_map, cellAt, SweptPatch.getIdx, bind, Except.bind,
    pure, Except.pure]

/-- The hypotheses of the theorems above can be met. -/
example : ∃ m, FailsAfter brokenComp 2 demoComp.patches ("broken", fun _ _ => .error .attr) .attr m ∧ brokenComp.multiprocess = true :=
  brokenComp_fails.imp fun _ h => ⟨h, rfl⟩

example : ∃ m c', FailsAfter { brokenComp with multiprocess := false } 2 demoComp.patches ("broken", fun _ _ => .error .attr) .attr m ∧
    brokenComp.mesh = (.error .attr, c') := by
  obtain ⟨m, h⟩ := brokenComp_fails
  obtain ⟨c', h', -⟩ := C113_parallel_violated brokenComp 2 _ _ _ m h rfl
  exact ⟨m, c', ⟨h.names, h.resolution, h.mesh_, h.surfaces, h.meshed, h.fails, h.patches⟩, h'⟩

end HV
