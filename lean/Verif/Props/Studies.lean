import Verif.Props.Sensitivity

/-!
# Results of sensitivity studies: C82, C84
-/

namespace HV
open Spec Sens

theorem forall₂_get {κ α β : Type} [DecidableEq κ] {P : κ → α → β → Prop} {l : Dict κ α} {m : Dict κ β}
    (h : List.Forall₂ (fun e q => q.1 = e.1 ∧ P e.1 e.2 q.2) l m) (k : κ) :
    (∀ v, m.get? k = some v → ∃ u, l.get? k = some u ∧ P k u v) ∧ ∀ u, l.get? k = some u → ∃ v, m.get? k = some v ∧ P k u v := by
  induction h with
  | nil => constructor <;> intro v hv <;> simp [Dict.get?] at hv
  | cons h1 _ ih =>
    rename_i e q l m h2
    obtain ⟨h1, h3⟩ := h1
    by_cases hk : e.1 = k
    · subst hk
      constructor
      · intro v hv
        simp only [Dict.get?, h1, if_true, Option.some.injEq] at hv
        subst hv
        exact ⟨e.2, by simp [Dict.get?], h3⟩
      · intro u hu
        simp only [Dict.get?, if_true, Option.some.injEq] at hu
        subst hu
        exact ⟨q.2, by simp [Dict.get?, h1], h3⟩
    · simp only [Dict.get?, h1, hk, if_false]
      exact ih

theorem forall₂_keys {κ α β : Type} {P : κ × α → κ × β → Prop} {l : List (κ × α)} {m : List (κ × β)}
    (h : List.Forall₂ (fun e q => q.1 = e.1 ∧ P e q) l m) : m.map Prod.fst = l.map Prod.fst := by
  induction h with
  | nil => rfl
  | cons h1 _ ih => rw [List.map_cons, List.map_cons, h1.1, ih]

theorem present_get {α : Type} (f : PSens → Option α) (name : String) (rs : Dict String PSens) (hn : (rs.map Prod.fst).Nodup)
    (q : PSens) (hq : Dict.get? rs name = some q) : Dict.get? (present rs f) name = f q := by
  induction rs with
  | nil => simp [Dict.get?] at hq
  | cons e rs ih =>
    rw [List.map_cons, List.nodup_cons] at hn
    by_cases he : e.1 = name
    · subst he
      simp only [Dict.get?, if_true, Option.some.injEq] at hq
      subst hq
      have hnone : Dict.get? (present rs f) e.1 = none := by
        rw [Dict.get?_eq_none]
        intro hm
        obtain ⟨x, hx, ex⟩ := List.mem_map.1 hm
        obtain ⟨y, hy, ey⟩ := List.mem_filterMap.1 hx
        rw [Option.map_eq_some_iff] at ey
        obtain ⟨z, -, rfl⟩ := ey
        exact hn.1 (List.mem_map.2 ⟨y, hy, ex⟩)
      rcases hf : f e.2 with _ | a
      · have : present (e :: rs) f = present rs f := by simp [present, hf]
        rw [this, hnone]
      · have : present (e :: rs) f = (e.1, a) :: present rs f := by simp [present, hf]
        rw [this]
        simp [Dict.get?]
    · have hq' : Dict.get? rs name = some q := by simpa [Dict.get?, he] using hq
      rcases hf : f e.2 with _ | a
      · have : present (e :: rs) f = present rs f := by simp [present, hf]
        rw [this]
        exact ih hn.2 hq'
      · have : present (e :: rs) f = (e.1, a) :: present rs f := by simp [present, hf]
        rw [this]
        simp only [Dict.get?, he, if_false]
        exact ih hn.2 hq'

theorem readMeshes_spec (h g g' : Heap) (hg : SameBut h g) (l : List (String × ℕ)) (ms : Dict String StlMesh)
    (hr : readMeshes g l = (.ok ms, g')) :
    List.Forall₂ (fun e q => q.1 = e.1 ∧ ∃ c, (h e.2).mesh = (.ok q.2, c)) l ms := by
  induction l generalizing g ms with
  | nil => simp only [readMeshes, Prod.mk.injEq, Except.ok.injEq] at hr; rw [← hr.1]; exact .nil
  | cons e l ih =>
    unfold readMeshes at hr
    rcases hm : (g e.2).mesh with ⟨x | M, c⟩
    · rw [hm] at hr; simp at hr
    · rw [hm] at hr
      simp only at hr
      rcases hl : readMeshes (g.upd e.2 c) l with ⟨x | ms', g1⟩
      · rw [hl] at hr; simp at hr
      · rw [hl] at hr
        simp only [Prod.mk.injEq, Except.ok.injEq] at hr
        obtain ⟨rfl, rfl⟩ := hr
        exact .cons ⟨rfl, ((hg e.2).2 M).1 ⟨c, hm⟩⟩ (ih _ (hg.upd e.2 M c hm) ms' hl)

/-- The meshes of a vehicle built are those it generates. -/
theorem built_meshes (ctor : Ctor) (lib : Lib) (depth : ℕ) (kw : Dict String Val) (i : Inst) (h : Built ctor lib depth kw i)
    (c : String) (M : StlMesh) : i.meshes.get? c = some M ↔ Generates ctor lib depth kw c M := by
  obtain ⟨st, h1, h2⟩ := h
  unfold prepare at h2
  rcases hg : Veh.generate lib depth ⟨st.heap, { st.veh with verbosity := 0 }⟩ with ⟨x | _, st'⟩
  · rw [hg] at h2; simp at h2
  · rw [hg] at h2
    simp only at h2
    rcases hm : readMeshes st'.heap st'.veh.named with ⟨x | ms, g⟩
    · rw [hm] at h2; simp at h2
    · rw [hm] at h2
      simp only [Except.ok.injEq] at h2
      subst h2
      have hs := readMeshes_spec _ _ _ (SameBut.refl _) _ _ hm
      have := forall₂_get (P := fun _ u v => ∃ c, (st'.heap u).mesh = (.ok v, c)) hs c
      constructor
      · intro hc
        obtain ⟨u, hu, c', hc'⟩ := this.1 M hc
        exact ⟨st, st', u, c', h1, hg, hu, hc'⟩
      · rintro ⟨st2, st2', id, c', g1, g2, g3, g4⟩
        rw [h1] at g1
        cases g1
        rw [hg] at g2
        cases g2
        obtain ⟨v, hv, c'', hc''⟩ := this.2 id g3
        rw [g4] at hc''
        cases hc''
        exact hv

theorem built_named (ctor : Ctor) (lib : Lib) (depth : ℕ) (kw : Dict String Val) (i : Inst) (h : Built ctor lib depth kw i) :
    i.meshes.keys = i.st.veh.named.keys := by
  obtain ⟨st, h1, h2⟩ := h
  unfold prepare at h2
  rcases hg : Veh.generate lib depth ⟨st.heap, { st.veh with verbosity := 0 }⟩ with ⟨x | _, st'⟩
  · rw [hg] at h2; simp at h2
  · rw [hg] at h2
    simp only at h2
    rcases hm : readMeshes st'.heap st'.veh.named with ⟨x | ms, g⟩
    · rw [hm] at h2; simp at h2
    · rw [hm] at h2
      simp only [Except.ok.injEq] at h2
      subst h2
      have hs := readMeshes_spec _ _ _ (SameBut.refl _) _ _ hm
      show Dict.keys ms = Dict.keys st'.veh.named
      generalize st'.veh.named = nm at hs ⊢
      clear hm
      induction hs with
      | nil => rfl
      | cons h1 _ ih =>
        rename_i e q l m _
        show q.1 :: Dict.keys m = e.1 :: Dict.keys l
        rw [h1.1, ih]

theorem generates_unique {ctor : Ctor} {lib : Lib} {depth : ℕ} {kw : Dict String Val} {c : String} {M M' : StlMesh}
    (h : Generates ctor lib depth kw c M) (h' : Generates ctor lib depth kw c M') : M = M' := by
  obtain ⟨st, st', id, x, h1, h2, h3, h4⟩ := h
  obtain ⟨st2, st2', id2, x2, g1, g2, g3, g4⟩ := h'
  rw [h1] at g1; cases g1
  rw [h2] at g2; cases g2
  rw [h3] at g3; cases g3
  rw [h4] at g4; cases g4
  rfl

theorem assess_ok (nom par : Inst) (dp : Dp) (q : PSens) (h : assess nom par dp = .ok q) :
    analysisStep par.st.veh nom.st.veh dp = .ok q.analysis ∧ propertyStep par.st.veh nom.st.veh dp = .ok q.properties ∧
    List.Forall₂ (fun e t => t.1 = e.1 ∧ ∃ m, par.meshes.get? e.1 = some m ∧ compareMeshes e.2.tris m.tris dp = .ok t.2)
      nom.meshes q.tables := by
  unfold assess at h
  obtain ⟨an, h1, h⟩ := bind_ok.1 h
  obtain ⟨pr, h2, h⟩ := bind_ok.1 h
  obtain ⟨ts, h3, h⟩ := bind_ok.1 h
  rw [pure_ok] at h
  subst h
  refine ⟨h1, h2, ?_⟩
  unfold compareAll at h3
  refine (mapM_ok_iff.1 h3).imp fun e t ht => ?_
  obtain ⟨m, g1, ht⟩ := bind_ok.1 ht
  obtain ⟨rows, g2, ht⟩ := bind_ok.1 ht
  rw [pure_ok] at ht
  subst ht
  exact ⟨rfl, m, (dict_get_ok _ _ _).1 g1, g2⟩

/-- The table of a component for a parameter. -/
def tableAt (T : Tables) (name c : String) : Option (List SRow) := (T.get? name).bind fun t => t.get? c

/-- The tables of a successful study: those of comparing the generated meshes, one for each component. -/
theorem study_tables {self self' : Study} {ctor : Ctor} {lib : Lib} {depth : ℕ} {run run' : Run} {l : List (String × ℝ)}
    {overrides : Dict String ParamVal} (hn : (l.map Prod.fst).Nodup) {p : ℝ} {write : Bool} {pre : Option String} {T : Tables}
    (h : dvdp self ctor lib depth run (numbers l) overrides p write pre = (.ok T, self', run')) :
    T.keys = l.map Prod.fst ∧ ∀ e ∈ l, ∀ c M, Generates ctor lib depth (kwGiven run.store (numbers l) overrides) c M →
      ∃ M' rows, Generates ctor lib depth (kwWith run.store (numbers l) overrides e.1 (e.2 * (1 + p / 100))) c M' ∧
        tableAt T e.1 c = some rows ∧ compareMeshes M.tris M'.tris (.num (e.2 * (1 + p / 100) - e.2)) = .ok rows := by
  obtain ⟨-, -, h3⟩ := dvdp_spec self self' ctor lib depth run run' l overrides hn p write pre (.ok T) h
  obtain ⟨nom, st, rs, cc, b1, -, b2, rfl, -, -⟩ := h3 T rfl
  refine ⟨?_, fun e he c M hM => ?_⟩
  · rw [← forall₂_keys b2]
    simp [Dict.keys, Function.comp_def]
  · obtain ⟨q, hq, par, hp, ha⟩ := (forall₂_get (P := fun n x q =>
        ∃ par, Built ctor lib depth (kwWith run.store (numbers l) overrides n (x * (1 + p / 100))) par ∧
          assess ⟨st, nom.meshes⟩ par (.num (x * (1 + p / 100) - x)) = .ok q) b2 e.1).2 e.2 (Dict.get?_of_mem (d := l) hn he)
    obtain ⟨-, -, a3⟩ := assess_ok _ _ _ _ ha
    obtain ⟨rows, r1, M', r2, r3⟩ := (forall₂_get (P := fun n (u : StlMesh) rows => ∃ m, par.meshes.get? n = some m ∧
      compareMeshes u.tris m.tris (.num (e.2 * (1 + p / 100) - e.2)) = .ok rows) a3 c).2 M ((built_meshes _ _ _ _ _ b1 c M).2 hM)
    refine ⟨M', rows, (built_meshes _ _ _ _ _ hp c M').1 r2, ?_, r3⟩
    have : Dict.get? (rs.map fun e => (e.1, e.2.tables)) e.1 = (Dict.get? rs e.1).map PSens.tables :=
      Dict.get?_mapVals (fun _ (v : PSens) => v.tables) rs e.1
    unfold tableAt
    rw [this, hq]
    exact r1

/-! ## C82 -/

namespace Spec

/-- The vertices of the component depend affinely on the parameter: vertex `i` is at `A i + B i * q`. -/
def AffineIn (ctor : Ctor) (lib : Lib) (depth : ℕ) (kw : ℝ → Dict String Val) (c : String) (n : ℕ) (A B : ℕ → V) : Prop :=
  ∀ q M, Generates ctor lib depth (kw q) c M → vertexList M = (List.range n).map fun i => A i + B i * q

end Spec

theorem length_vertices (m : TriMesh ℝ) : (vertices m).length = 3 * m.length := by
  induction m with
  | nil => rfl
  | cons t m ih => simp only [vertices, List.flatMap_cons, List.length_append, List.length_cons] at ih ⊢; simp only [ih, List.length_nil]; omega

/-- Rows of a comparison of meshes with the same number of vertices. -/
theorem compare_rows {M M' : StlMesh} {d : ℝ} {rows : List SRow} (hl : (vertexList M').length = (vertexList M).length)
    (h : compareMeshes M.tris M'.tris (.num d) = .ok rows) :
    Reports (((vertexList M).zip (vertexList M')).map fun p => (p.1, p.2 - p.1)) rows ∧
      ∀ r ∈ rows, r.sens = quotV r.delta (.num d) := by
  have hlen : M.tris.length = M'.tris.length := by
    have h1 : (vertices M'.tris).length = (vertices M.tris).length := hl
    rw [length_vertices, length_vertices] at h1
    omega
  rw [compareMeshes_same _ _ _ hlen] at h
  cases h
  have := rows_reports (.num d) ((vertices M.tris).zip (vertices M'.tris))
  exact ⟨this.1, fun r hr => (this.2 r hr).1⟩

/-- C82: the sensitivities to a parameter on which the component depends affinely are exact at every vertex of the nominal
geometry, each of which is reported. -/
theorem C82_affine {self self' : Study} {ctor : Ctor} {lib : Lib} {depth : ℕ} {run run' : Run} {l : List (String × ℝ)}
    {overrides : Dict String ParamVal} (hn : (l.map Prod.fst).Nodup) {p : ℝ} {write : Bool} {pre : Option String} {T : Tables}
    (h : dvdp self ctor lib depth run (numbers l) overrides p write pre = (.ok T, self', run'))
    (name : String) (v : ℝ) (he : (name, v) ∈ l) (hv : v ≠ 0) (hp : p ≠ 0) (c : String) (n : ℕ) (A B : ℕ → V)
    (ha : AffineIn ctor lib depth (kwWith run.store (numbers l) overrides name) c n A B)
    (hc : ∃ M, Generates ctor lib depth (kwGiven run.store (numbers l) overrides) c M) :
    ∃ rows, tableAt T name c = some rows ∧
      (∀ r ∈ rows, r.ix < n ∧ r.pos = A r.ix + B r.ix * v ∧
        r.sens = ⟨some (B r.ix).x, some (B r.ix).y, some (B r.ix).z⟩) ∧
      ∀ i < n, ∃ r ∈ rows, r.pos = A i + B i * v ∧ r.sens = ⟨some (B i).x, some (B i).y, some (B i).z⟩ := by
  obtain ⟨M, hM⟩ := hc
  obtain ⟨M', rows, h1, h2, h3⟩ := (study_tables hn h).2 (name, v) he c M hM
  simp only at h1 h2 h3
  have e1 := ha v M (by rw [kwWith_given _ _ _ hn (name, v) he]; exact hM)
  have e2 := ha _ M' h1
  obtain ⟨⟨hr1, hr2, hr3⟩, hr4⟩ := compare_rows (by rw [e1, e2]; simp) h3
  set d := v * (1 + p / 100) - v with hd
  have hd0 : d ≠ 0 := by
    have : d = v * p / 100 := by rw [hd]; ring
    rw [this]
    exact div_ne_zero (mul_ne_zero hv hp) (by norm_num)
  have hfull : ((vertexList M).zip (vertexList M')).map (fun p => (p.1, p.2 - p.1)) =
      (List.range n).map fun i => (A i + B i * v, B i * d) := by
    rw [e1, e2, List.zip_map', List.map_map]
    apply List.map_congr_left
    intro i _
    simp only [Function.comp, Prod.mk.injEq, true_and]
    ext <;> simp [hd] <;> ring
  rw [hfull] at hr1 hr3
  have hq : ∀ i, quotV (B i * d) (.num d) = ⟨some (B i).x, some (B i).y, some (B i).z⟩ := by
    intro i
    simp [quotV, quot, hd0]
  refine ⟨rows, h2, fun r hr => ?_, fun i hi => ?_⟩
  · have := (hr1 r hr).1
    rw [List.getElem?_map, Option.map_eq_some_iff] at this
    obtain ⟨i, hi, ei⟩ := this
    have hlt : r.ix < n := by
      by_contra hge
      rw [List.getElem?_eq_none (by simpa using Nat.le_of_not_lt hge)] at hi
      cases hi
    rw [List.getElem?_range hlt] at hi
    cases hi
    simp only [Prod.mk.injEq] at ei
    exact ⟨hlt, ei.1.symm, by rw [hr4 r hr, ← ei.2, hq]⟩
  · obtain ⟨r, hr, ei⟩ := hr3 (A i + B i * v, B i * d) (List.mem_map.2 ⟨i, List.mem_range.2 hi, rfl⟩)
    simp only [Prod.mk.injEq] at ei
    exact ⟨r, hr, ei.1, by rw [hr4 r hr, ei.2, hq]⟩

theorem quot_zero (x : ℝ) : quot x (.num 0) = none := by simp [quot]

theorem quotO_zero (a b : Option ℝ) : quotO a b (.num 0) = none := by
  rcases a with _ | a <;> rcases b with _ | b <;> simp [quotO, quot_zero]

/-- C82: a study with a zero perturbation, or of a zero parameter, never gives a finite sensitivity: if it returns, all
sensitivities of vertices and of analysis results to this parameter are missing, and there are none of properties. -/
theorem C82_zero {self self' : Study} {ctor : Ctor} {lib : Lib} {depth : ℕ} {run run' : Run} {l : List (String × ℝ)}
    {overrides : Dict String ParamVal} (hn : (l.map Prod.fst).Nodup) {p : ℝ} {write : Bool} {pre : Option String} {T : Tables}
    (h : dvdp self ctor lib depth run (numbers l) overrides p write pre = (.ok T, self', run'))
    (name : String) (v : ℝ) (he : (name, v) ∈ l) (h0 : v = 0 ∨ p = 0) :
    (∀ c rows, tableAt T name c = some rows → ∀ r ∈ rows, r.sens = ⟨none, none, none⟩) ∧
    (∀ d a, self'.scalarSens = some d → d.get? name = some a → a.volume = none ∧ a.mass = none ∧ a.cog = ⟨none, none, none⟩ ∧
      ∀ i j, a.moi i j = none) ∧
    ∀ d, self'.propertySens = some d → d.get? name = none := by
  have hd : v * (1 + p / 100) - v = 0 := by rcases h0 with rfl | rfl <;> ring
  obtain ⟨-, -, h3⟩ := dvdp_spec self self' ctor lib depth run run' l overrides hn p write pre (.ok T) h
  obtain ⟨nom, st, rs, cc, b1, -, b2, rfl, -, rfl⟩ := h3 T rfl
  obtain ⟨q, hq, par, hp, ha⟩ := (forall₂_get (P := fun n x q =>
        ∃ par, Built ctor lib depth (kwWith run.store (numbers l) overrides n (x * (1 + p / 100))) par ∧
          assess ⟨st, nom.meshes⟩ par (.num (x * (1 + p / 100) - x)) = .ok q) b2 name).2 v (Dict.get?_of_mem (d := l) hn he)
  rw [hd] at ha
  obtain ⟨a1, a2, a3⟩ := assess_ok _ _ _ _ ha
  have hrn : (rs.map Prod.fst).Nodup := by rw [forall₂_keys b2]; exact hn
  refine ⟨fun c rows hc r hr => ?_, fun d a hd' ha' => ?_, fun d hd' => ?_⟩
  · have e : Dict.get? (rs.map fun e => (e.1, e.2.tables)) name = (Dict.get? rs name).map PSens.tables :=
      Dict.get?_mapVals (fun _ (v : PSens) => v.tables) rs name
    unfold tableAt at hc
    rw [e, hq] at hc
    obtain ⟨M, -, M', -, hcm⟩ := (forall₂_get (P := fun n (u : StlMesh) rows => ∃ m, par.meshes.get? n = some m ∧
      compareMeshes u.tris m.tris (.num 0) = .ok rows) a3 c).1 rows hc
    unfold compareMeshes at hcm
    obtain ⟨ps, -, hcm⟩ := bind_ok.1 hcm
    have hcm : dropDuplicates [] (mkRows (.num 0) 0 ps) = rows := by
      simpa [pure, Except.pure] using hcm
    rw [← hcm] at hr
    rw [((rows_reports (.num 0) ps).2 r hr).1]
    simp [quotV, quot_zero]
  · simp only [Study.withResults, Option.some.injEq] at hd'
    subst hd'
    rw [present_get _ name rs hrn q hq] at ha'
    unfold analysisStep at a1
    split at a1
    · simp only [Except.ok.injEq] at a1; rw [← a1] at ha'; simp at ha'
    · cases a1
    · simp only [Except.ok.injEq] at a1
      rw [← a1] at ha'
      simp only [Option.map_some, Option.some.injEq] at ha'
      subst ha'
      simp [analysisDiff, quot_zero, quotO_zero]
  · simp only [Study.withResults, Option.some.injEq] at hd'
    subst hd'
    rw [present_get _ name rs hrn q hq]
    unfold propertyStep at a2
    split at a2
    · simp only [Except.ok.injEq] at a2; exact a2.symm
    · obtain ⟨y, a2, a4⟩ := bind_ok.1 a2
      rw [pure_ok] at a4
      rcases hpr : st.veh.properties with _ | ⟨e, es⟩
      · simp_all
      · simp only [hpr, List.mapM_cons] at a2
        obtain ⟨z, a2, -⟩ := bind_ok.1 a2
        obtain ⟨w, -, a2⟩ := bind_ok.1 a2
        simp [quotPy, bind, Except.bind] at a2

end HV
