import Verif.Props.Combined

/-!
# C122: when a sensitivity study succeeds
-/

namespace HV
open Spec Sens

namespace Spec

/-- The vehicle constructed from the arguments can be generated; its named components then have the meshes `ms`, and all its other
components can be meshed too.  `v` is the vehicle afterwards. -/
def Makes (ctor : Ctor) (lib : Lib) (depth : ℕ) (kw : Dict String Val) (v : Veh) (ms : Dict String StlMesh) : Prop :=
  ∃ st st', ctor kw = .ok st ∧ Veh.generate lib depth ⟨st.heap, { st.veh with verbosity := 0 }⟩ = (.ok (), st') ∧ st'.veh = v ∧
    List.Forall₂ (fun e q => q.1 = e.1 ∧ ∃ c, (st'.heap e.2).mesh = (.ok q.2, c)) v.named ms ∧
    ∀ k ∈ v.components, ∃ M c, (st'.heap k).mesh = (.ok M, c)

/-- The perturbed vehicle can be compared with the nominal one: it has all components of the nominal one, with as many triangles; it has
been analysed if the nominal one has; it has all properties of the nominal one, and if there are any the parameter has changed. -/
structure Comparable (v v' : Veh) (ms ms' : Dict String StlMesh) (d : ℝ) : Prop where
  meshes : ∀ e ∈ ms, ∃ M', ms'.get? e.1 = some M' ∧ M'.tris.length = e.2.tris.length
  analysed : v.analysisResults ≠ none → v'.analysisResults ≠ none
  properties : ∀ k ∈ v.properties.keys, k ∈ v'.properties.keys ∧ d ≠ 0

end Spec

theorem readMeshes_total (h g : Heap) (hg : SameBut h g) (l : List (String × ℕ)) (ms : Dict String StlMesh)
    (hr : List.Forall₂ (fun e q => q.1 = e.1 ∧ ∃ c, (h e.2).mesh = (.ok q.2, c)) l ms) :
    ∃ g', readMeshes g l = (.ok ms, g') ∧ SameBut h g' := by
  induction hr generalizing g with
  | nil => exact ⟨g, rfl, hg⟩
  | cons h1 _ ih =>
    rename_i e q l ms _
    obtain ⟨h1, h2⟩ := h1
    obtain ⟨c, hc⟩ := ((hg e.2).2 q.2).2 h2
    obtain ⟨g', h3, h4⟩ := ih (g.upd e.2 c) (hg.upd e.2 q.2 c hc)
    refine ⟨g', ?_, h4⟩
    unfold readMeshes
    rw [hc]
    simp only [h3]
    rw [← h1]

theorem makes_built {ctor : Ctor} {lib : Lib} {depth : ℕ} {kw : Dict String Val} {v : Veh} {ms : Dict String StlMesh}
    (h : Makes ctor lib depth kw v ms) : ∃ i, (ctor kw).bind (prepare lib depth) = .ok i ∧ i.meshes = ms ∧ i.st.veh = v ∧
      ∀ k ∈ v.components, ∃ M c, (i.st.heap k).mesh = (.ok M, c) := by
  obtain ⟨st, st', h1, h2, rfl, h4, h5⟩ := h
  obtain ⟨g, g1, g2⟩ := readMeshes_total _ _ (SameBut.refl _) _ _ h4
  refine ⟨⟨⟨g, st'.veh⟩, ms⟩, ?_, rfl, rfl, fun k hk => ?_⟩
  · rw [h1]
    show prepare lib depth st = _
    unfold prepare
    rw [h2]
    simp only [g1]
  · obtain ⟨M, hM⟩ := h5 k hk
    exact ⟨M, ((g2 k).2 M).2 hM⟩

theorem assess_total (nom par : Inst) (d : ℝ) (h : Comparable nom.st.veh par.st.veh nom.meshes par.meshes d) :
    ∃ q, assess nom par (.num d) = .ok q ∧ q.tables.keys = nom.meshes.keys := by
  have h1 : ∃ a, analysisStep par.st.veh nom.st.veh (.num d) = .ok a := by
    unfold analysisStep
    have := h.analysed
    rcases h1 : nom.st.veh.analysisResults with _ | x <;> rcases h2 : par.st.veh.analysisResults with _ | y
    · exact ⟨_, rfl⟩
    · exact ⟨_, rfl⟩
    · rw [h1, h2] at this; exact absurd rfl (this (by simp))
    · exact ⟨_, rfl⟩
  have h2 : ∃ a, propertyStep par.st.veh nom.st.veh (.num d) = .ok a := by
    unfold propertyStep
    split_ifs with h0
    · exact ⟨_, rfl⟩
    · have : ∃ l, (nom.st.veh.properties.mapM fun e => do
          let w ← par.st.veh.properties.get e.1
          let q ← quotPy (w - e.2) (.num d)
          return (e.1, q)) = .ok l := by
        have hp := h.properties
        generalize nom.st.veh.properties = ps at hp
        have key : ∀ e ∈ ps, ∃ y, (do
          let w ← par.st.veh.properties.get e.1
          let q ← quotPy (w - e.2) (.num d)
          return (e.1, q) : Res (String × Option ℝ)) = .ok y := by
          intro e he
          obtain ⟨k1, k2⟩ := hp e.1 (List.mem_map.2 ⟨e, he, rfl⟩)
          have : Dict.get? par.st.veh.properties e.1 ≠ none := fun hn => Dict.get?_eq_none.1 hn k1
          obtain ⟨w, hw⟩ := Option.ne_none_iff_exists'.1 this
          rw [(dict_get_ok _ _ _).2 hw, ok_bind]
          simp only [quotPy, if_neg k2]
          exact ⟨_, rfl⟩
        choose! y hy using key
        exact ⟨_, mapM_ok ps _ y hy⟩
      obtain ⟨l, hl⟩ := this
      rw [hl, ok_bind]
      exact ⟨_, rfl⟩
  have h3 : ∃ ts, compareAll nom.meshes par.meshes (.num d) = .ok ts ∧ Dict.keys ts = nom.meshes.keys := by
    unfold compareAll
    have hm := h.meshes
    generalize nom.meshes = ms at hm
    have key : ∀ e ∈ ms, ∃ rows, (do
        let m ← par.meshes.get e.1
        let rows ← compareMeshes e.2.tris m.tris (.num d)
        return (e.1, rows) : Res (String × List SRow)) = .ok (e.1, rows) := by
      intro e he
      obtain ⟨M', k1, k2⟩ := hm e he
      rw [(dict_get_ok _ _ _).2 k1, ok_bind, compareMeshes_same _ _ _ k2.symm, ok_bind]
      exact ⟨_, rfl⟩
    choose! y hy using key
    refine ⟨_, mapM_ok ms _ (fun e => (e.1, y e)) hy, ?_⟩
    unfold Dict.keys
    rw [List.map_map]
    rfl
  obtain ⟨a, h1⟩ := h1
  obtain ⟨b, h2⟩ := h2
  obtain ⟨ts, h3, h4⟩ := h3
  refine ⟨⟨ts, a, b⟩, ?_, h4⟩
  unfold assess
  rw [h1, ok_bind, h2, ok_bind, h3, ok_bind]
  rfl

theorem concatAll_total (T : Tables) (c : String) (ps : List String) (h : ∀ p ∈ ps, ∃ rows, tableAt T p c = some rows) :
    ∀ k df, ∃ r, concatAll T c k df ps = .ok r := by
  induction ps with
  | nil => exact fun k df => ⟨df, rfl⟩
  | cons p ps ih =>
    intro k df
    obtain ⟨rows, hr⟩ := h p (by simp)
    unfold tableAt at hr
    rw [Option.bind_eq_some_iff] at hr
    obtain ⟨t, h1, h2⟩ := hr
    unfold concatAll
    rw [(dict_get_ok _ _ _).2 h1, ok_bind, (dict_get_ok _ _ _).2 h2, ok_bind]
    exact ih (fun p hp => h p (by simp [hp])) _ _

theorem combine_total (names : List String) (T : Tables) (h0 : T.keys ≠ [])
    (h : ∀ p ∈ T.keys, ∀ c ∈ names, ∃ rows, tableAt T p c = some rows) : ∃ d, combine names T = .ok d := by
  have key : ∀ c ∈ names, ∃ rows, (do
      let rows ← combineOne T c
      return (c, ⟨T.keys, rows⟩) : Res (String × CTable)) = .ok (c, ⟨T.keys, rows⟩) := by
    intro c hc
    have : ∃ rows, combineOne T c = .ok rows := by
      unfold combineOne
      rcases hk : T.keys with _ | ⟨p0, ps⟩
      · exact absurd hk h0
      · simp only
        obtain ⟨rows, hr⟩ := h p0 (by rw [hk]; simp) c hc
        have hr' := hr
        unfold tableAt at hr
        rw [Option.bind_eq_some_iff] at hr
        obtain ⟨t, h1, h2⟩ := hr
        rw [(dict_get_ok _ _ _).2 h1, ok_bind, (dict_get_ok _ _ _).2 h2, ok_bind]
        exact concatAll_total T c _ (fun p hp => h p (by rw [hk]; exact hp) c hc) _ _
    obtain ⟨rows, hr⟩ := this
    rw [hr, ok_bind]
    exact ⟨rows, rfl⟩
  choose! y hy using key
  exact ⟨_, mapM_ok names _ _ hy⟩

theorem kwargs_total (s : Store) (l : Dict String ParamVal) (overrides : Dict String ParamVal)
    (hd : ∀ k ∈ l.keys, k ∉ overrides.keys) : kwargs s l overrides = .ok (kwGiven s l overrides) := by
  unfold kwargs
  rw [if_neg (by rintro ⟨k, h1, h2⟩; exact hd k h1 h2)]
  simp [kwGiven]

theorem construct_total {ctor : Ctor} {lib : Lib} {depth : ℕ} (run : Run) (params overrides : Dict String ParamVal)
    (hd : ∀ k ∈ params.keys, k ∉ overrides.keys) (i : Inst)
    (h : (ctor (kwGiven run.store params overrides)).bind (prepare lib depth) = .ok i) :
    construct ctor lib depth run params overrides =
      (.ok i, { run with calls := run.calls ++ [kwGiven run.store params overrides] }) := by
  unfold construct
  rw [kwargs_total _ _ _ hd]
  simp only [h]

theorem study_total {ctor : Ctor} {lib : Lib} {depth : ℕ} {l : List (String × ℝ)} {overrides : Dict String ParamVal}
    (hn : (l.map Prod.fst).Nodup) (hd : ∀ e ∈ l, e.1 ∉ overrides.keys) (f : ℝ) (nom : Inst) (s : Store) (rest : List (String × ℝ))
    (h : ∀ e ∈ rest, ∃ v' ms', Makes ctor lib depth (kwWith s (numbers l) overrides e.1 (e.2 * f)) v' ms' ∧
      Comparable nom.st.veh v' nom.meshes ms' (e.2 * f - e.2)) (hr : ∀ e ∈ rest, e ∈ l) :
    ∀ run : Run, run.store = s → ∃ rs run', study ctor lib depth (numbers l) overrides f nom run (numbers rest) = (.ok rs, run') ∧
      List.Forall₂ (fun e q => q.1 = e.1 ∧ q.2.tables.keys = nom.meshes.keys) rest rs := by
  induction rest with
  | nil => exact fun run _ => ⟨[], run, rfl, .nil⟩
  | cons e rest ih =>
    intro run hs
    have hm : e.1 ∈ l.map Prod.fst := List.mem_map.2 ⟨e, hr e List.mem_cons_self, rfl⟩
    have hk : (numbers l).keys = l.map Prod.fst := by simp [numbers, Dict.keys, Function.comp_def]
    obtain ⟨v', ms', h1, h2⟩ := h e List.mem_cons_self
    obtain ⟨i, i1, i2, i3, -⟩ := makes_built h1
    obtain ⟨q, a1, a2⟩ := assess_total nom i (e.2 * f - e.2) (by rw [i2, i3]; exact h2)
    rw [study_cons, construct_total run _ _ _ i (by rw [kwGiven_set _ _ _ hn _ hm, hs]; exact i1)]
    · simp only [a1]
      obtain ⟨rs, run', g1, g2⟩ := ih (fun e he => h e (List.mem_cons_of_mem _ he)) (fun e he => hr e (List.mem_cons_of_mem _ he))
        { run with calls := run.calls ++ [kwGiven run.store ((numbers l).set e.1 (.num (e.2 * f))) overrides] } hs
      rw [g1]
      exact ⟨_, _, rfl, .cons ⟨rfl, a2⟩ g2⟩
    · intro k hk'
      rw [set_map _ _ _ (by rw [hk]; exact hn) (by rw [hk]; exact hm)] at hk'
      unfold Dict.keys numbers at hk'
      simp only [List.map_map, List.mem_map, Function.comp] at hk'
      obtain ⟨y, hy, rfl⟩ := hk'
      exact hd y hy

/-- C122: a study of at least one numeric parameter succeeds when the nominal vehicle and all perturbed ones can be generated and
meshed, and each perturbed vehicle has the components of the nominal one with the same numbers of triangles (and its analysis and
properties, if any).  Missing: a study of no parameters, see `C122_violated`. -/
theorem C122_partial (self : Study) (ctor : Ctor) (lib : Lib) (depth : ℕ) (run : Run) (l : List (String × ℝ))
    (overrides : Dict String ParamVal) (hn : (l.map Prod.fst).Nodup) (hd : ∀ e ∈ l, e.1 ∉ overrides.keys) (hl : l ≠ []) (p : ℝ)
    (write : Bool) (pre : Option String) (v : Veh) (ms : Dict String StlMesh)
    (hnom : Makes ctor lib depth (kwGiven run.store (numbers l) overrides) v ms)
    (hpar : ∀ e ∈ l, ∃ v' ms', Makes ctor lib depth (kwWith run.store (numbers l) overrides e.1 (e.2 * (1 + p / 100))) v' ms' ∧
      Comparable v v' ms ms' (e.2 * (1 + p / 100) - e.2)) :
    ∃ T self' run', dvdp self ctor lib depth run (numbers l) overrides p write pre = (.ok T, self', run') := by
  obtain ⟨i, i1, rfl, rfl, i4⟩ := makes_built hnom
  have hk : (numbers l).keys = l.map Prod.fst := by simp [numbers, Dict.keys, Function.comp_def]
  unfold dvdp
  rw [construct_total run _ _ (fun k hk' => by
    rw [hk] at hk'
    obtain ⟨e, he, rfl⟩ := List.mem_map.1 hk'
    exact hd e he) i i1]
  simp only
  set run1 : Run := { run with calls := run.calls ++ [kwGiven run.store (numbers l) overrides] } with hrun1
  have hw : ∃ i' run2, writeNominal write pre i run1 = (.ok i', run2) ∧ i'.meshes = i.meshes ∧ i'.st.veh = i.st.veh ∧
      run2.store = run.store := by
    have : ∃ i' run2, writeNominal write pre i run1 = (.ok i', run2) := by
      unfold writeNominal
      cases write
      · exact ⟨_, _, rfl⟩
      · obtain ⟨ev, st', ht⟩ := toStl_total i.st pre false fun k hk _ => i4 k hk
        simp only [if_true, ht]
        exact ⟨_, _, rfl⟩
    obtain ⟨i', run2, h⟩ := this
    obtain ⟨w1, -, w3⟩ := writeNominal_spec _ _ _ _ _ _ h
    exact ⟨i', run2, h, (w3 i' rfl).1, (w3 i' rfl).2, w1⟩
  obtain ⟨i', run2, w1, w2, w3, w4⟩ := hw
  rw [w1]
  simp only
  obtain ⟨rs, run3, s1, s2⟩ := study_total hn hd (1 + p / 100) i' run.store l (by rw [w2, w3]; exact hpar) (fun _ h => h) run2 w4
  rw [s1]
  simp only
  have hkeys : Dict.keys (rs.map fun e => (e.1, e.2.tables)) = l.map Prod.fst := by
    rw [← forall₂_keys s2]
    simp [Dict.keys, Function.comp_def]
  have hnames : i.meshes.keys = i.st.veh.named.keys := by
    obtain ⟨st, st', -, -, h3, h4, -⟩ := hnom
    exact forall₂_keys h4
  have hc : ∃ c, combine i'.st.veh.named.keys (rs.map fun e => (e.1, e.2.tables)) = .ok c := by
    apply combine_total
    · rw [hkeys]
      simpa using hl
    · intro q hq c hc
      rw [hkeys] at hq
      obtain ⟨e, he, rfl⟩ := List.mem_map.1 hq
      obtain ⟨y, hy, hP⟩ := (forall₂_get (P := fun _ _ (q : PSens) => q.tables.keys = i'.meshes.keys) s2 e.1).2 e.2
        (Dict.get?_of_mem (d := l) hn he)
      have e1 : Dict.get? (rs.map fun e => (e.1, e.2.tables)) e.1 = (Dict.get? rs e.1).map PSens.tables :=
        Dict.get?_mapVals (fun _ (v : PSens) => v.tables) rs e.1
      unfold tableAt
      rw [e1, hy]
      have : Dict.get? y.tables c ≠ none := fun hnone => Dict.get?_eq_none.1 hnone (by rw [hP, w2, hnames, ← w3]; exact hc)
      exact Option.ne_none_iff_exists'.1 this
  obtain ⟨c, hc⟩ := hc
  unfold Study.finish
  simp only [hc]
  exact ⟨_, _, _, rfl⟩

/-- C122 fails for a study without parameters of a vehicle that can be generated and has a named component: it raises `IndexError`. -/
theorem C122_no_parameters (self : Study) (ctor : Ctor) (lib : Lib) (depth : ℕ) (run : Run) (overrides : Dict String ParamVal) (p : ℝ)
    (write : Bool) (pre : Option String) (v : Veh) (ms : Dict String StlMesh)
    (hnom : Makes ctor lib depth (kwGiven run.store [] overrides) v ms) (hv : v.named ≠ []) :
    (dvdp self ctor lib depth run [] overrides p write pre).1 = .error .index := by
  obtain ⟨i, i1, rfl, rfl, i4⟩ := makes_built hnom
  unfold dvdp
  rw [construct_total run _ _ (fun k hk' => by simp [Dict.keys] at hk') i i1]
  simp only
  have : ∃ i' run2, writeNominal write pre i { run with calls := run.calls ++ [kwGiven run.store [] overrides] } = (.ok i', run2) := by
    unfold writeNominal
    cases write
    · exact ⟨_, _, rfl⟩
    · obtain ⟨ev, st', ht⟩ := toStl_total i.st pre false fun k hk _ => i4 k hk
      simp only [if_true, ht]
      exact ⟨_, _, rfl⟩
  obtain ⟨i', run2, h⟩ := this
  obtain ⟨-, -, w3⟩ := writeNominal_spec _ _ _ _ _ _ h
  rw [h]
  simp only [study]
  unfold Study.finish
  simp only [List.map_nil]
  rcases hnm : i.st.veh.named with _ | ⟨e, es⟩
  · exact absurd hnm hv
  · rw [(w3 i' rfl).2, hnm]
    have : combine (Dict.keys (e :: es)) [] = .error .index := by
      unfold combine
      rfl
    rw [this]

end HV
