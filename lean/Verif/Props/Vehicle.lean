import Verif.Model.Vehicle
import Verif.Lemmas.Dict
import Verif.Lemmas.Name
import Verif.Props.Composite

/-!
# C65-C68: adding components to a vehicle
-/

namespace HV
open Veh

namespace Spec

/-- The component types a vehicle accepts. -/
def VehicleType (ty : String) : Prop :=
  ty = "fin" ∨ ty = "wing" ∨ ty = "swept" ∨ ty = "revolved" ∨ ty = "composite"

/-- A fresh vehicle: nothing recorded. -/
def Fresh (v : Veh) : Prop :=
  v.components = [] ∧ v.counts = [] ∧ v.enumerated = [] ∧ v.named = []

/-- The state after a sequence of `add_component` calls (a rejected call raises, the caller goes on). -/
def addSeq (st : VState) (l : List (ℕ × AddOpts)) : VState := l.foldl (fun st a => (addComponent st a.1 a.2).2) st

open Classical in
/-- The calls of a sequence that concern an accepted type, `ty` giving the type of each component. -/
noncomputable def accepted (ty : ℕ → String) (l : List (ℕ × AddOpts)) : List (ℕ × AddOpts) :=
  l.filter fun a => decide (VehicleType (ty a.1))

end Spec

open Spec

theorem mem_allowable (ty : String) : ty ∈ Veh.allowable ↔ VehicleType ty := by
  simp [Veh.allowable, VehicleType]

/-- C65: `add_component` raises exactly for the other types, and then nothing changes. -/
theorem C65_rejects (st : VState) (id : ℕ) (o : AddOpts) :
    ((∃ x, (addComponent st id o).1 = .error x) ↔ ¬ VehicleType (st.heap id).componenttype) ∧
    (¬ VehicleType (st.heap id).componenttype → (addComponent st id o).2 = st) := by
  rw [← mem_allowable]
  unfold addComponent
  by_cases h : (st.heap id).componenttype ∈ Veh.allowable
  · simp [h]
  · simp [h]

/-- Both cases of C65 occur. -/
example : VehicleType "wing" ∧ ¬ VehicleType "cube" := by
  constructor
  · simp [VehicleType]
  · simp [VehicleType]

theorem setCommon_rest (c : Comp) (v : ℤ) (o : AddOpts) : (c.setCommon v o).componenttype = c.componenttype ∧
    (c.setCommon v o).gen = c.gen ∧ (c.setCommon v o).patches = c.patches ∧ (c.setCommon v o).name = c.name ∧
    (c.setCommon v o).ghost = c.ghost := by
  unfold Comp.setCommon
  refine ⟨?_, ?_, ?_, ?_, ?_⟩ <;>
  · rcases o.reflection_axis with _ | _ <;> rcases o.curvatures with _ | _ <;> rcases o.transformations with _ | _ <;>
      (dsimp only; split <;> rfl)

theorem withOpts_rest (c : Comp) (v : ℤ) (o : AddOpts) : (withOpts c v o).componenttype = c.componenttype ∧
    (withOpts c v o).gen = c.gen ∧ (withOpts c v o).patches = c.patches ∧ (withOpts c v o).name = c.name := by
  obtain ⟨h1, h2, h3, h4, _⟩ := setCommon_rest c v o
  unfold withOpts
  rcases o.clustering with _ | ⟨i, j⟩ <;> rcases o.modifier with _ | _ <;>
    simp [Comp.addClusteringOptions, h1, h2, h3, h4]

theorem addComponent_type (st : VState) (id : ℕ) (o : AddOpts) (k : ℕ) :
    ((addComponent st id o).2.heap k).componenttype = (st.heap k).componenttype := by
  unfold addComponent
  split
  · show (Heap.upd _ _ _ k).componenttype = _
    by_cases hk : k = id
    · subst hk
      rw [upd_self]
      have := (withOpts_rest (st.heap k) st.veh.verbosity o).1
      unfold withName
      rcases o.name with _ | _ <;> simp [this]
    · rw [upd_ne _ _ _ _ hk]
  · rfl

theorem addSeq_type (st : VState) (l : List (ℕ × AddOpts)) (k : ℕ) :
    ((addSeq st l).heap k).componenttype = (st.heap k).componenttype := by
  induction l using List.reverseRecOn with
  | nil => rfl
  | append_singleton l a ih =>
    rw [addSeq, List.foldl_append, List.foldl_cons, List.foldl_nil, addComponent_type]; exact ih

theorem addSeq_snoc (st : VState) (l : List (ℕ × AddOpts)) (a : ℕ × AddOpts) :
    addSeq st (l ++ [a]) = (addComponent (addSeq st l) a.1 a.2).2 := by
  rw [addSeq, List.foldl_append, List.foldl_cons, List.foldl_nil]; rfl

theorem accepted_snoc (ty : ℕ → String) (l : List (ℕ × AddOpts)) (a : ℕ × AddOpts) :
    accepted ty (l ++ [a]) = accepted ty l ++ (accepted ty [a]) := by
  simp [accepted, List.filter_append]

theorem accepted_yes (ty : ℕ → String) (a : ℕ × AddOpts) (h : VehicleType (ty a.1)) : accepted ty [a] = [a] := by
  simp [accepted, h]

theorem accepted_no (ty : ℕ → String) (a : ℕ × AddOpts) (h : ¬ VehicleType (ty a.1)) : accepted ty [a] = [] := by
  simp [accepted, h]

/-- C66: after any sequence of `add_component` calls on a fresh vehicle the components are listed in the order of the
accepted calls, the count of each type is the number of accepted components of that type (types without components have no
entry), and the enumerated names are exactly `<type>_<k>` for the `k`-th component of a type. -/
theorem C66_bookkeeping (st : VState) (hf : Fresh st.veh) (l : List (ℕ × AddOpts)) :
    let ty : ℕ → String := fun k => (st.heap k).componenttype
    let added := (accepted ty l).map Prod.fst
    let v := (addSeq st l).veh
    v.components = added ∧
    (∀ t, (v.counts.get? t).getD 0 = added.countP (fun k => ty k = t)) ∧
    (∀ t, v.counts.get? t = none ↔ ∀ k ∈ added, ty k ≠ t) ∧
    (∀ t i, v.enumerated.get? (t ++ "_" ++ toString (i + 1)) = (added.filter fun k => ty k = t)[i]?) ∧
    v.enumerated.keys.Nodup ∧ v.enumerated.length = added.length ∧
    (∀ n ∈ v.enumerated.keys, ∃ t i, n = t ++ "_" ++ toString (i + 1) ∧ i < added.countP (fun k => ty k = t)) := by
  intro ty added v
  obtain ⟨f1, f2, f3, f4⟩ := hf
  have key : ∀ l : List (ℕ × AddOpts), let added := (accepted ty l).map Prod.fst
      let v := (addSeq st l).veh
      v.components = added ∧
      (∀ t, (v.counts.get? t).getD 0 = added.countP (fun k => ty k = t)) ∧
      (∀ t, v.counts.get? t = none ↔ ∀ k ∈ added, ty k ≠ t) ∧
      (∀ t i, v.enumerated.get? (t ++ "_" ++ toString (i + 1)) = (added.filter fun k => ty k = t)[i]?) ∧
      v.enumerated.keys.Nodup ∧ v.enumerated.length = added.length ∧
      (∀ n ∈ v.enumerated.keys, ∃ t i, n = t ++ "_" ++ toString (i + 1) ∧ i < added.countP (fun k => ty k = t)) := by
    intro l
    induction l using List.reverseRecOn with
    | nil => simp [addSeq, accepted, f1, f2, f3, Dict.get?, Dict.keys]
    | append_singleton l a ih =>
      simp only at ih ⊢
      obtain ⟨i1, i2, i3, i4, i5, i6, i7⟩ := ih
      rw [addSeq_snoc, accepted_snoc]
      set s := addSeq st l with hs
      have hty : (s.heap a.1).componenttype = ty a.1 := addSeq_type st l a.1
      set ad := (accepted ty l).map Prod.fst with had
      by_cases h : VehicleType (ty a.1)
      · have hm : (s.heap a.1).componenttype ∈ Veh.allowable := by rw [mem_allowable, hty]; exact h
        rw [accepted_yes _ _ h, List.map_append, ← had]
        rw [hty] at hm
        simp only [addComponent, hty, if_pos hm, List.map_cons, List.map_nil, record, nextCount]
        set n := (s.veh.counts.get? (ty a.1)).getD 0 with hn
        have hn' : n = ad.countP (fun k => ty k = ty a.1) := i2 _
        have hnot : ty a.1 ++ "_" ++ toString (n + 1) ∉ s.veh.enumerated.keys := by
          intro hmem
          obtain ⟨t, i, e, hi⟩ := i7 _ hmem
          obtain ⟨rfl, e'⟩ := name_ix_inj e
          omega
        refine ⟨by rw [i1], ?_, ?_, ?_, ?_, ?_, ?_⟩
        · intro t
          rw [Dict.get?_set]
          by_cases ht : ty a.1 = t
          · subst ht; simp [hn', List.countP_append]
          · simp [ht, i2, List.countP_append]
        · intro t
          rw [Dict.get?_set]
          by_cases ht : ty a.1 = t
          · subst ht; simp
          · simp only [ht, if_false, i3, List.mem_append, List.mem_singleton]
            constructor
            · rintro h k (hk | rfl)
              · exact h k hk
              · exact ht
            · exact fun h k hk => h k (.inl hk)
        · intro t i
          rw [Dict.get?_set, List.filter_append]
          by_cases ht : ty a.1 = t
          · subst ht
            by_cases hi : n = i
            · subst hi
              have : (List.filter (fun k => decide (ty k = ty a.1)) ad).length = n := by
                rw [hn', List.countP_eq_length_filter]
              simp [List.getElem?_append, this]
            · have hne : ty a.1 ++ "_" ++ toString (n + 1) ≠ ty a.1 ++ "_" ++ toString (i + 1) := fun e => by
                have := (name_ix_inj e).2
                omega
              rw [if_neg hne, i4, List.getElem?_append]
              have : (List.filter (fun k => decide (ty k = ty a.1)) ad).length = n := by
                rw [hn', List.countP_eq_length_filter]
              rw [this]
              split
              · rfl
              · rename_i hlt
                rw [List.getElem?_eq_none (by omega), List.getElem?_eq_none]
                simp; omega
          · have hne : ty a.1 ++ "_" ++ toString (n + 1) ≠ t ++ "_" ++ toString (i + 1) := fun e => ht (name_ix_inj e).1
            rw [if_neg hne, i4]
            simp [ht]
        · exact Dict.nodup_set _ _ _ i5
        · rw [Dict.set_not_mem _ _ _ hnot]; simp [i6]
        · intro m hm'
          rw [Dict.set_not_mem _ _ _ hnot] at hm'
          simp only [Dict.keys, List.map_append, List.mem_append, List.map_cons, List.map_nil, List.mem_singleton] at hm'
          rcases hm' with hm' | rfl
          · obtain ⟨t, i, e, hi⟩ := i7 m hm'
            exact ⟨t, i, e, by rw [List.countP_append]; omega⟩
          · refine ⟨ty a.1, n, rfl, ?_⟩
            rw [List.countP_append, ← hn']
            simp
      · have hm : (s.heap a.1).componenttype ∉ Veh.allowable := by rw [mem_allowable, hty]; exact h
        rw [accepted_no _ _ h, List.append_nil, ← had]
        simp only [addComponent, if_neg hm]
        exact ⟨i1, i2, i3, i4, i5, i6, i7⟩
  exact key l

/-- A fresh vehicle and three calls, one of them rejected. -/
example : ∃ (st : VState) (l : List (ℕ × AddOpts)), Fresh st.veh ∧
    ((accepted (fun k => (st.heap k).componenttype) l).map Prod.fst) = [0, 2] := by
  refine ⟨⟨fun k => { demoComp with componenttype := if k = 1 then "cube" else "wing" }, {}⟩,
    [(0, {}), (1, {}), (2, {})], ⟨rfl, rfl, rfl, rfl⟩, ?_⟩
  simp [accepted, VehicleType]

/-- C67: an accepted `add_component` sets on the component exactly the options given (the ghost flag always; the append
flag together with the axis), sets the verbosity to 0 for a silent vehicle and to the maximum otherwise, keeps everything
else of the component and every other component, and no other attribute of the vehicle than its records. -/
theorem C67_options (st : VState) (id : ℕ) (o : AddOpts) (h : VehicleType (st.heap id).componenttype) :
    let c := st.heap id
    let st' := (addComponent st id o).2
    let c' := st'.heap id
    (∀ k, k ≠ id → st'.heap k = st.heap k) ∧
    { st'.veh with components := st.veh.components, counts := st.veh.counts, enumerated := st.veh.enumerated,
                   named := st.veh.named } = st.veh ∧
    c'.reflection_axis = (match o.reflection_axis with | some a => some a | none => c.reflection_axis) ∧
    c'.append_reflection = (match o.reflection_axis with | some _ => o.append_reflection | none => c.append_reflection) ∧
    c'.curvatures = (match o.curvatures with | some k => some k | none => c.curvatures) ∧
    c'.transformations = (match o.transformations with | some t => t | none => c.transformations) ∧
    c'.modifier = (match o.modifier with | some f => some f | none => c.modifier) ∧
    c'.clustering.i_clustering = (match o.clustering with
      | some (some f, _) => some f | _ => c.clustering.i_clustering) ∧
    c'.clustering.j_clustering = (match o.clustering with
      | some (_, some f) => some f | _ => c.clustering.j_clustering) ∧
    c'.ghost = o.ghost ∧
    c'.name = (match o.name with | some n => some n | none => c.name) ∧
    c'.verbosity = (if st.veh.verbosity = 0 then 0 else max c.verbosity st.veh.verbosity) ∧
    (c'.componenttype, c'.gen, c'.patches, c'.patch_res_r, c'.patch_res_s, c'.surfaces, c'.stl_resolution, c'.mesh_,
      c'.multiprocess) = (c.componenttype, c.gen, c.patches, c.patch_res_r, c.patch_res_s, c.surfaces, c.stl_resolution,
      c.mesh_, c.multiprocess) ∧
    (c'.clustering.si, c'.clustering.sj, c'.clustering.mirror_y) = (c.clustering.si, c.clustering.sj, c.clustering.mirror_y) := by
  intro c st' c'
  have hm : (st.heap id).componenttype ∈ Veh.allowable := (mem_allowable _).2 h
  have e : st' = ⟨st.heap.upd id (withName (withOpts (st.heap id) st.veh.verbosity o) o),
      st.veh.record id (st.heap id) o⟩ := by
    show (addComponent st id o).2 = _
    simp [addComponent, if_pos hm]
  have e' : c' = withName (withOpts c st.veh.verbosity o) o := by
    show st'.heap id = _
    rw [e]; exact upd_self _ _ _
  refine ⟨fun k hk => by rw [e]; exact upd_ne _ _ _ _ hk, by rw [e]; rfl, ?_⟩
  rw [e']
  clear_value c st' c'
  obtain ⟨on, oa, oap, oc, okl, ot, om, og⟩ := o
  unfold withName withOpts Comp.setCommon
  rcases on with _ | _ <;> rcases oa with _ | _ <;> rcases oc with _ | _ <;> rcases ot with _ | _ <;>
    rcases om with _ | _ <;> rcases okl with _ | ⟨_ | _, _ | _⟩ <;> by_cases hz : st.veh.verbosity = 0 <;>
    simp [hz, Comp.addClusteringOptions]

/-- An accepted call that sets several options. -/
example : VehicleType demoComp.componenttype ∧
    ({ reflection_axis := some "y", ghost := true, name := some "left" } : AddOpts).reflection_axis ≠ none := by
  simp [VehicleType, demoComp]

/-! ## C68 -/

/-- No explicit name looks like a generated one. -/
def Spec.NotGenerated (n : String) : Prop := ∀ t i, n ≠ t ++ "_" ++ toString (i : ℕ)

/-- A call concerning another component keeps the name of a component. -/
theorem addComponent_name_ne (st : VState) (id : ℕ) (o : AddOpts) (k : ℕ) (hk : k ≠ id) :
    ((addComponent st id o).2.heap k).name = (st.heap k).name := by
  unfold addComponent
  split
  · show (Heap.upd _ _ _ k).name = _
    rw [upd_ne _ _ _ _ hk]
  · rfl

theorem addSeq_name_ne (st : VState) (l : List (ℕ × AddOpts)) (k : ℕ) (hk : ∀ a ∈ l, a.1 ≠ k) :
    ((addSeq st l).heap k).name = (st.heap k).name := by
  induction l using List.reverseRecOn with
  | nil => rfl
  | append_singleton l a ih =>
    rw [addSeq_snoc, addComponent_name_ne _ _ _ _ (hk a (by simp)).symm]
    exact ih fun b hb => hk b (by simp [hb])

/-- C68, the part that holds: if unnamed component objects are each added once, and the explicit names are distinct and
do not look like generated names, then every component is found under exactly one name, in order: under its explicit name if
there is one, and under its enumerated name otherwise.  Missing: repeated names (see `C68_violated`). -/
theorem C68_partial (st : VState) (hf : Fresh st.veh) (l : List (ℕ × AddOpts))
    (hty : ∀ a ∈ l, VehicleType (st.heap a.1).componenttype) (hids : (l.map Prod.fst).Nodup)
    (hun : ∀ a ∈ l, (st.heap a.1).name = none)
    (hnames : (l.filterMap fun a => a.2.name).Nodup) (hng : ∀ n ∈ l.filterMap (fun a => a.2.name), NotGenerated n) :
    (addSeq st l).veh.named.map Prod.snd = l.map Prod.fst ∧ (addSeq st l).veh.named.keys.Nodup ∧
    ∀ a ∈ l, (∀ n, a.2.name = some n → (addSeq st l).veh.named.get? n = some a.1) ∧
      (a.2.name = none → ∃ n, (addSeq st l).veh.named.get? n = some a.1 ∧ (addSeq st l).veh.enumerated.get? n = some a.1) := by
  have key : ∀ l : List (ℕ × AddOpts), (∀ a ∈ l, VehicleType (st.heap a.1).componenttype) → (l.map Prod.fst).Nodup →
      (∀ a ∈ l, (st.heap a.1).name = none) → (l.filterMap fun a => a.2.name).Nodup →
      (∀ n ∈ l.filterMap (fun a => a.2.name), NotGenerated n) →
      (addSeq st l).veh.named.map Prod.snd = l.map Prod.fst ∧ (addSeq st l).veh.named.keys.Nodup ∧
      (∀ n ∈ (addSeq st l).veh.named.keys, n ∈ l.filterMap (fun a => a.2.name) ∨ n ∈ (addSeq st l).veh.enumerated.keys) ∧
      ∀ a ∈ l, (∀ n, a.2.name = some n → (addSeq st l).veh.named.get? n = some a.1) ∧
      (a.2.name = none → ∃ n, (addSeq st l).veh.named.get? n = some a.1 ∧ (addSeq st l).veh.enumerated.get? n = some a.1) := by
    intro l
    induction l using List.reverseRecOn with
    | nil =>
      intro _ _ _ _ _
      have h4 := hf.2.2.2
      simp [addSeq, h4, Dict.keys]
    | append_singleton l a ih =>
      intro hty hids hun hnames hng
      rw [List.map_append, List.nodup_append] at hids
      rw [List.filterMap_append] at hnames hng
      have hnames' := List.nodup_append.1 hnames
      obtain ⟨i1, i2, i2', i3⟩ := ih (fun b hb => hty b (by simp [hb])) hids.1 (fun b hb => hun b (by simp [hb])) hnames'.1
        (fun n hn => hng n (by simp only [List.mem_append]; exact .inl hn))
      have hb := C66_bookkeeping st hf l
      simp only at hb
      obtain ⟨_, b2, _, b4, b5, _, b7⟩ := hb
      have hall : accepted (fun k => (st.heap k).componenttype) l = l := by
        rw [accepted, List.filter_eq_self]
        intro b hb
        simpa using hty b (by simp [hb])
      rw [hall] at b2 b4 b7
      have hta := hty a (by simp)
      set s := addSeq st l with hs
      have hta' : (s.heap a.1).componenttype = (st.heap a.1).componenttype := addSeq_type st l a.1
      have hm : (s.heap a.1).componenttype ∈ Veh.allowable := by rw [mem_allowable, hta']; exact hta
      have hna : (s.heap a.1).name = none := by
        rw [hs, addSeq_name_ne st l a.1, hun a (by simp)]
        intro b hb e
        exact hids.2.2 b.1 (List.mem_map_of_mem hb) a.1 (by simp) e
      rw [addSeq_snoc, ← hs]
      rw [hta'] at hm
      simp only [addComponent, hta', if_pos hm, record, nextCount]
      set n := (s.veh.counts.get? (st.heap a.1).componenttype).getD 0 with hn
      set T := (st.heap a.1).componenttype with hT
      have hn' := b2 T
      rw [← hn] at hn'
      have hnot : T ++ "_" ++ toString (n + 1) ∉ s.veh.enumerated.keys := by
        intro hmem
        obtain ⟨t, i, e, hi⟩ := b7 _ hmem
        obtain ⟨rfl, e'⟩ := name_ix_inj e
        omega
      set N := nameFor (s.heap a.1) (n + 1) a.2 with hN
      -- the new key is fresh
      have hNfresh : N ∉ s.veh.named.keys := by
        intro hmem
        rcases hopt : a.2.name with _ | m
        · have e : N = T ++ "_" ++ toString (n + 1) := by
            rw [hN]; simp [nameFor, hopt, hna, truthy, hta']
          rcases i2' N hmem with h1 | h1
          · exact hng N (by rw [List.mem_append]; exact .inl h1) T (n + 1) e
          · exact hnot (e ▸ h1)
        · have e : N = m := by rw [hN]; simp [nameFor, hopt]
          rcases i2' N hmem with h1 | h1
          · exact hnames'.2.2 N h1 m (by simp [hopt]) e
          · obtain ⟨t, i, e2, _⟩ := b7 _ h1
            exact hng m (by simp [hopt]) t (i + 1) (e ▸ e2)
      rw [Dict.set_not_mem _ _ _ hNfresh]
      refine ⟨by simp [i1], ?_, ?_, ?_⟩
      · rw [← Dict.set_not_mem _ _ _ hNfresh]; exact Dict.nodup_set _ _ _ i2
      · intro m hm
        simp only [Dict.keys, List.map_append, List.mem_append, List.map_cons, List.map_nil, List.mem_singleton] at hm
        rw [Dict.set_not_mem _ _ _ hnot, List.filterMap_append, List.mem_append]
        rcases hm with hm | rfl
        · rcases i2' m hm with h1 | h1
          · exact .inl (.inl h1)
          · right; simp only [Dict.keys, List.map_append, List.mem_append]; exact .inl h1
        · rcases hopt : a.2.name with _ | m'
          · right
            have e : N = T ++ "_" ++ toString (n + 1) := by
              rw [hN]; simp [nameFor, hopt, hna, truthy, hta']
            rw [e]; simp [Dict.keys]
          · left; right
            have e : N = m' := by rw [hN]; simp [nameFor, hopt]
            simp [hopt, e]
      · intro b hb
        rw [List.mem_append, List.mem_singleton] at hb
        rw [← Dict.set_not_mem _ _ _ hNfresh]
        rcases hb with hb | rfl
        · obtain ⟨j1, j2⟩ := i3 b hb
          have keep : ∀ m, s.veh.named.get? m = some b.1 → Dict.get? (Dict.set s.veh.named N a.1) m = some b.1 := by
            intro m hm'
            rw [Dict.get?_set]
            split
            · rename_i e
              exact absurd (Dict.mem_keys.2 ⟨_, Dict.mem_of_get? (e ▸ hm')⟩) hNfresh
            · exact hm'
          refine ⟨fun m hm' => keep m (j1 m hm'), fun hm' => ?_⟩
          obtain ⟨m, k1, k2⟩ := j2 hm'
          refine ⟨m, keep m k1, ?_⟩
          rw [Dict.get?_set]
          split
          · rename_i e
            exact absurd (Dict.mem_keys.2 ⟨_, Dict.mem_of_get? (e ▸ k2)⟩) hnot
          · exact k2
        · refine ⟨fun m hm' => ?_, fun hm' => ?_⟩
          · have e : N = m := by rw [hN]; simp [nameFor, hm']
            rw [Dict.get?_set, if_pos e]
          · have e : N = T ++ "_" ++ toString (n + 1) := by
              rw [hN]; simp [nameFor, hm', hna, truthy, hta']
            exact ⟨N, by rw [Dict.get?_set, if_pos rfl], by rw [Dict.get?_set, if_pos e.symm]⟩
  obtain ⟨h1, h2, _, h3⟩ := key l hty hids hun hnames hng
  exact ⟨h1, h2, h3⟩

/-- Two components, one of them named, meet the hypotheses of `C68_partial`. -/
example : ∃ (st : VState) (l : List (ℕ × AddOpts)), Fresh st.veh ∧ l.length = 2 ∧
    (∀ a ∈ l, VehicleType (st.heap a.1).componenttype) ∧ (l.map Prod.fst).Nodup ∧
    (∀ a ∈ l, (st.heap a.1).name = none) ∧ (l.filterMap fun a => a.2.name).Nodup ∧
    ∀ n ∈ l.filterMap (fun a => a.2.name), NotGenerated n := by
  refine ⟨⟨fun _ => demoComp, {}⟩, [(0, {}), (1, { name := some "left" })], ⟨rfl, rfl, rfl, rfl⟩, rfl, ?_, by simp, ?_,
    by simp, ?_⟩
  · simp [demoComp, VehicleType]
  · simp [demoComp]
  · intro n hn
    simp at hn
    subst hn
    intro t i e
    have h := congrArg String.toList e
    rw [String.toList_append, String.toList_append] at h
    have hmem : '_' ∈ ("left" : String).toList := by rw [h]; simp
    revert hmem; decide

/-- C68 fails: of two components given the same name the first is found under no name, although it is a component of the
vehicle. -/
theorem C68_violated : ¬ ∀ (st : VState) (l : List (ℕ × AddOpts)), Fresh st.veh →
    (∀ a ∈ l, VehicleType (st.heap a.1).componenttype) →
    ∀ id ∈ (addSeq st l).veh.components, ∃ n, (addSeq st l).veh.named.get? n = some id := by
  intro H
  obtain ⟨n, hn⟩ := H ⟨fun _ => demoComp, {}⟩ [(0, { name := some "w" }), (1, { name := some "w" })] ⟨rfl, rfl, rfl, rfl⟩
    (by simp [demoComp, VehicleType]) 0 (by
      simp [addSeq, addComponent, demoComp, Veh.allowable, record, upd_self, Heap.upd])
  simp [addSeq, addComponent, demoComp, Veh.allowable, record, Heap.upd, nameFor, Dict.set, Dict.get?] at hn

end HV
