import Verif.Model.Sensitivity
import Verif.Lemmas.Res
import Verif.Lemmas.Vec
import Mathlib.Tactic.Ring

/-!
# Comparison of meshes: C83
-/

namespace HV
open Spec Sens

namespace Spec

/-- The vertices of a mesh with their displacements into another mesh of the same size. -/
def displacements (m1 m2 : TriMesh ℝ) : List (V × V) :=
  ((m1.flatMap fun t => [t.v0, t.v1, t.v2]).zip (m2.flatMap fun t => [t.v0, t.v1, t.v2])).map fun p => (p.1, p.2 - p.1)

/-- The rows are the distinct entries of `full`, each labelled with the position of its first occurrence, in order. -/
structure Reports (full : List (V × V)) (rows : List SRow) : Prop where
  first : ∀ r ∈ rows, full[r.ix]? = some (r.pos, r.delta) ∧ ∀ j < r.ix, full[j]? ≠ some (r.pos, r.delta)
  order : rows.Pairwise fun a b => a.ix < b.ix
  all : ∀ x ∈ full, ∃ r ∈ rows, (r.pos, r.delta) = x

end Spec

theorem mkRow_cols (dp : Dp) (i j : ℕ) (p q : V × V) :
    (mkRow dp i p).cols = (mkRow dp j q).cols ↔ (p.1, p.2 - p.1) = (q.1, q.2 - q.1) := by
  unfold mkRow SRow.cols
  simp only [Prod.mk.injEq]
  constructor
  · rintro ⟨h1, h2, -⟩; exact ⟨h1, h2⟩
  · rintro ⟨h1, h2⟩
    refine ⟨h1, h2, ?_, ?_⟩ <;> rw [h2]

theorem dropDuplicates_spec (dp : Dp) (rest : List (V × V)) : ∀ (pre : List (V × V)) (seen : List (V × V × ℝ × Vec (Option ℝ))),
    (∀ c, c ∈ seen ↔ ∃ p ∈ pre, (mkRow dp 0 p).cols = c) →
    let rows := dropDuplicates seen (mkRows dp pre.length rest)
    (∀ r ∈ rows, pre.length ≤ r.ix ∧ ∃ p, (pre ++ rest)[r.ix]? = some p ∧ r = mkRow dp r.ix p ∧
      ∀ j < r.ix, ∀ q, (pre ++ rest)[j]? = some q → (mkRow dp 0 q).cols ≠ (mkRow dp 0 p).cols) ∧
    (rows.Pairwise fun a b => a.ix < b.ix) ∧
    ∀ p ∈ rest, (∃ q ∈ pre, (mkRow dp 0 q).cols = (mkRow dp 0 p).cols) ∨ ∃ r ∈ rows, r.cols = (mkRow dp 0 p).cols := by
  induction rest with
  | nil => intro pre seen _; simp [mkRows, dropDuplicates]
  | cons p rest ih =>
    intro pre seen hs
    have ecols : ∀ i q, (mkRow dp i q).cols = (mkRow dp 0 q).cols := fun i q => (mkRow_cols dp i 0 q q).2 rfl
    have hlen : (pre ++ [p]).length = pre.length + 1 := by simp
    have happ : pre ++ p :: rest = (pre ++ [p]) ++ rest := by simp
    intro rows
    by_cases hm : (mkRow dp pre.length p).cols ∈ seen
    · have hr : rows = dropDuplicates seen (mkRows dp (pre ++ [p]).length rest) := by
        simp only [rows, mkRows, dropDuplicates, if_pos hm, hlen]
      obtain ⟨q0, hq0, eq0⟩ := (hs _).1 hm
      rw [ecols] at eq0
      have hs' : ∀ c, c ∈ seen ↔ ∃ q ∈ pre ++ [p], (mkRow dp 0 q).cols = c := by
        intro c
        rw [hs]
        constructor
        · rintro ⟨q, hq, e⟩; exact ⟨q, List.mem_append_left _ hq, e⟩
        · rintro ⟨q, hq, e⟩
          rcases List.mem_append.1 hq with hq | hq
          · exact ⟨q, hq, e⟩
          · rw [List.mem_singleton] at hq; subst hq; exact ⟨q0, hq0, eq0.trans e⟩
      obtain ⟨h1, h2, h3⟩ := ih (pre ++ [p]) seen hs'
      rw [hr, happ]
      refine ⟨fun r hr => ?_, h2, fun x hx => ?_⟩
      · obtain ⟨a, b⟩ := h1 r hr
        exact ⟨by rw [hlen] at a; omega, b⟩
      · rcases List.mem_cons.1 hx with rfl | hx
        · exact .inl ⟨q0, hq0, eq0⟩
        · rcases h3 x hx with ⟨q, hq, e⟩ | h
          · rcases List.mem_append.1 hq with hq | hq
            · exact .inl ⟨q, hq, e⟩
            · rw [List.mem_singleton] at hq; subst hq; exact .inl ⟨q0, hq0, eq0.trans e⟩
          · exact .inr h
    · have hr : rows = mkRow dp pre.length p ::
          dropDuplicates ((mkRow dp pre.length p).cols :: seen) (mkRows dp (pre ++ [p]).length rest) := by
        simp only [rows, mkRows, dropDuplicates, if_neg hm, hlen]
      have hs' : ∀ c, c ∈ (mkRow dp pre.length p).cols :: seen ↔ ∃ q ∈ pre ++ [p], (mkRow dp 0 q).cols = c := by
        intro c
        rw [List.mem_cons, hs]
        constructor
        · rintro (rfl | ⟨q, hq, e⟩)
          · exact ⟨p, by simp, (ecols _ _).symm⟩
          · exact ⟨q, List.mem_append_left _ hq, e⟩
        · rintro ⟨q, hq, e⟩
          rcases List.mem_append.1 hq with hq | hq
          · exact .inr ⟨q, hq, e⟩
          · rw [List.mem_singleton] at hq; subst hq; exact .inl (by rw [ecols]; exact e.symm)
      obtain ⟨h1, h2, h3⟩ := ih (pre ++ [p]) _ hs'
      rw [hr, happ]
      refine ⟨fun r hr => ?_, ?_, fun x hx => ?_⟩
      · rcases List.mem_cons.1 hr with rfl | hr
        · refine ⟨le_refl _, p, by show (pre ++ [p] ++ rest)[pre.length]? = some p; rw [← happ, List.getElem?_append_right (le_refl _)]; simp, rfl, fun j hj q hq => ?_⟩
          have hj' : j < pre.length := hj
          rw [← happ, List.getElem?_append_left hj'] at hq
          intro e
          exact hm ((hs _).2 ⟨q, List.mem_of_getElem? hq, e.trans (ecols _ _).symm⟩)
        · obtain ⟨a, b⟩ := h1 r hr
          exact ⟨by rw [hlen] at a; omega, b⟩
      · refine List.pairwise_cons.2 ⟨fun r hr => ?_, h2⟩
        have := (h1 r hr).1
        rw [hlen] at this
        show pre.length < r.ix
        omega
      · rcases List.mem_cons.1 hx with rfl | hx
        · exact .inr ⟨_, List.mem_cons_self, ecols _ _⟩
        · rcases h3 x hx with ⟨q, hq, e⟩ | ⟨r, hr, e⟩
          · rcases List.mem_append.1 hq with hq | hq
            · exact .inl ⟨q, hq, e⟩
            · rw [List.mem_singleton] at hq; subst hq; exact .inr ⟨_, List.mem_cons_self, by rw [ecols]; exact e⟩
          · exact .inr ⟨r, List.mem_cons_of_mem _ hr, e⟩

/-- The rows made from pairs of vertices. -/
theorem rows_reports (dp : Dp) (ps : List (V × V)) :
    Reports (ps.map fun p => (p.1, p.2 - p.1)) (dropDuplicates [] (mkRows dp 0 ps)) ∧
    ∀ r ∈ dropDuplicates [] (mkRows dp 0 ps), r.sens = quotV r.delta dp ∧
      r.magnitude = Real.sqrt (r.delta.x ^ 2 + r.delta.y ^ 2 + r.delta.z ^ 2) := by
  obtain ⟨h1, h2, h3⟩ := dropDuplicates_spec dp ps [] [] (by simp)
  simp only [List.length_nil, List.nil_append] at h1 h2 h3
  refine ⟨⟨fun r hr => ?_, h2, fun x hx => ?_⟩, fun r hr => ?_⟩
  · obtain ⟨-, p, hp, e, hf⟩ := h1 r hr
    have e1 : (r.pos, r.delta) = (p.1, p.2 - p.1) := by rw [e]; rfl
    refine ⟨by rw [List.getElem?_map, hp, e1]; rfl, fun j hj hc => ?_⟩
    rw [List.getElem?_map, e1] at hc
    rcases hq : ps[j]? with _ | q
    · rw [hq] at hc; simp at hc
    · rw [hq] at hc
      simp only [Option.map_some, Option.some.injEq] at hc
      exact hf j hj q hq ((mkRow_cols dp 0 0 q p).2 hc)
  · obtain ⟨p, hp, rfl⟩ := List.mem_map.1 hx
    rcases h3 p hp with ⟨q, hq, -⟩ | ⟨r, hr, e⟩
    · simp at hq
    · refine ⟨r, hr, ?_⟩
      have := congrArg (fun c => (c.1, c.2.1)) e
      exact this
  · obtain ⟨-, p, hp, e, -⟩ := h1 r hr
    rw [e]
    exact ⟨rfl, rfl⟩

theorem zip_vertices_map (m1 m2 : TriMesh ℝ) : ((vertices m1).zip (vertices m2)).map (fun p => (p.1, p.2 - p.1)) = displacements m1 m2 := rfl

/-- Comparing meshes of the same size. -/
theorem compareMeshes_same (m1 m2 : TriMesh ℝ) (d : ℝ) (h : m1.length = m2.length) :
    compareMeshes m1 m2 (.num d) = .ok (dropDuplicates [] (mkRows (.num d) 0 ((vertices m1).zip (vertices m2)))) := by
  simp [compareMeshes, vertexPairs, h, bind, Except.bind, pure, Except.pure]

/-- C83: for meshes of the same size and any difference of the parameter, `_compare_meshes` reports each distinct pair of a
vertex and its displacement exactly once, in the order of first occurrence, labelled with its number. -/
theorem C83_first_occurrences (m1 m2 : TriMesh ℝ) (d : ℝ) (h : m1.length = m2.length) :
    ∃ rows, compareMeshes m1 m2 (.num d) = .ok rows ∧ Reports (displacements m1 m2) rows ∧
      (rows.map fun r => (r.pos, r.delta)).Nodup := by
  refine ⟨_, compareMeshes_same m1 m2 d h, ?_⟩
  have hr := (rows_reports (.num d) ((vertices m1).zip (vertices m2))).1
  rw [zip_vertices_map] at hr
  refine ⟨hr, ?_⟩
  rw [List.nodup_iff_pairwise_ne, List.pairwise_map]
  refine hr.order.imp_of_mem fun {a b} ha hb hab e => ?_
  exact (hr.first b hb).2 a.ix hab (by rw [(hr.first a ha).1, e])

/-- C83: meshes of different sizes are rejected unless the perturbed mesh is a single triangle. -/
theorem C83_sizes (m1 m2 : TriMesh ℝ) (dp : Dp) (h : m1.length ≠ m2.length) (h1 : m2.length ≠ 1) :
    compareMeshes m1 m2 dp = .error .value := by
  rcases m2 with _ | ⟨t, _ | ⟨u, m2⟩⟩
  · simp only [compareMeshes, vertexPairs, if_neg h, bind, Except.bind]
  · simp at h1
  · simp only [compareMeshes, vertexPairs, if_neg h, bind, Except.bind]

/-- C83: a perturbed mesh of a single triangle is compared with every triangle of the reference mesh, without complaint. -/
theorem C83_broadcast (m1 : TriMesh ℝ) (t : Tri ℝ) (d : ℝ) :
    compareMeshes m1 [t] (.num d) = compareMeshes m1 (m1.map fun _ => t) (.num d) := by
  rw [compareMeshes_same m1 (m1.map fun _ => t) d (by simp)]
  by_cases h : m1.length = 1
  · obtain ⟨u, rfl⟩ := List.length_eq_one_iff.1 h
    rw [compareMeshes_same [u] [t] d rfl]
    rfl
  · simp [compareMeshes, vertexPairs, h, bind, Except.bind, pure, Except.pure]

/-- Two triangles with a common vertex that moves differently in each: two rows for this vertex. -/
example : ∃ m1 m2 : TriMesh ℝ, m1.length = m2.length ∧ ∃ v d d', d ≠ d' ∧ (v, d) ∈ displacements m1 m2 ∧ (v, d') ∈ displacements m1 m2 := by
  refine ⟨[⟨⟨0, 0, 0⟩, ⟨1, 0, 0⟩, ⟨0, 1, 0⟩⟩, ⟨⟨0, 0, 0⟩, ⟨-1, 0, 0⟩, ⟨0, -1, 0⟩⟩],
    [⟨⟨0, 0, 1⟩, ⟨1, 0, 0⟩, ⟨0, 1, 0⟩⟩, ⟨⟨0, 0, 0⟩, ⟨-1, 0, 0⟩, ⟨0, -1, 0⟩⟩], rfl, ⟨0, 0, 0⟩, ⟨0, 0, 1⟩ - ⟨0, 0, 0⟩, ⟨0, 0, 0⟩ - ⟨0, 0, 0⟩, ?_, ?_, ?_⟩
  · intro h; have := congrArg Vec.z h; simp at this
  · simp [displacements]
  · simp [displacements]

end HV
