import Verif.Props.Studies

/-!
# The combined table: C84
-/

namespace HV
open Spec Sens

namespace Spec

/-- One row for each distinct vertex, in the order of first occurrence. -/
structure OneRowEach (vs : List V) (rows : List CRow) : Prop where
  first : ∀ r ∈ rows, ∃ x, r.pos = some x ∧ vs[r.ix]? = some x ∧ ∀ j < r.ix, vs[j]? ≠ some x
  order : rows.Pairwise fun a b => a.ix < b.ix
  all : ∀ x ∈ vs, ∃ r ∈ rows, r.pos = some x

/-- The displacement of vertex `i` per change of the parameter. -/
noncomputable def rate (M M' : StlMesh) (i : ℕ) (d : ℝ) : Vec (Option ℝ) :=
  match (vertexList M)[i]?, (vertexList M')[i]? with
  | some x, some y => ⟨some ((y.x - x.x) / d), some ((y.y - x.y) / d), some ((y.z - x.z) / d)⟩
  | _, _ => ⟨none, none, none⟩

/-- Vertices of `M` at the same place are at the same place in `M'`. -/
def KeepsTogether (M M' : StlMesh) : Prop :=
  (vertexList M').length = (vertexList M).length ∧
  ∀ i j : ℕ, (vertexList M)[i]? = (vertexList M)[j]? → (vertexList M')[i]? = (vertexList M')[j]?

end Spec

theorem sensAt_mem {p : List SRow} (hp : p.Pairwise fun a b => a.ix < b.ix) {q : SRow} (hq : q ∈ p) : sensAt p q.ix = q.sens := by
  have : p.find? (fun r => r.ix = q.ix) = some q := by
    induction hp with
    | nil => simp at hq
    | cons h1 _ ih =>
      rename_i a p
      rcases List.mem_cons.1 hq with rfl | hq
      · simp
      · have := h1 q hq
        rw [List.find?_cons_of_neg (by simp; omega)]
        exact ih hq
  unfold sensAt
  rw [this]

theorem sensAt_cases (p : List SRow) (i : ℕ) : sensAt p i = nan3 ∨ ∃ q ∈ p, q.ix = i ∧ sensAt p i = q.sens := by
  rcases h : p.find? (fun q => q.ix = i) with _ | q
  · exact .inl (by unfold sensAt; rw [h])
  · exact .inr ⟨q, List.mem_of_find?_eq_some h, by simpa using List.find?_some h, by unfold sensAt; rw [h]⟩

/-- The columns of a combined table hold sensitivities of the vertex, or are missing. -/
theorem concatAll_values (T : Tables) (c : String) (ps : List String) : ∀ (k : ℕ) (df out : List CRow),
    (∀ r ∈ df, r.sens.length = k) → concatAll T c k df ps = .ok out →
    ∀ r ∈ out, ∃ hd tl, r.sens = hd ++ tl ∧ hd.length = k ∧
      List.Forall₂ (fun p s => ∃ rows, tableAt T p c = some rows ∧ (s = nan3 ∨ ∃ q ∈ rows, q.ix = r.ix ∧ s = q.sens)) ps tl ∧
      ((∃ r0 ∈ df, r.ix = r0.ix ∧ r.pos = r0.pos ∧ hd = r0.sens) ∨ r.pos = none ∧ hd = List.replicate k nan3) := by
  induction ps with
  | nil =>
    intro k df out hk h r hr
    simp only [concatAll, Except.ok.injEq] at h
    subst h
    exact ⟨r.sens, [], by simp, hk r hr, .nil, .inl ⟨r, hr, rfl, rfl, rfl⟩⟩
  | cons p ps ih =>
    intro k df out hk h r hr
    unfold concatAll at h
    obtain ⟨t, h1, h⟩ := bind_ok.1 h
    obtain ⟨rows, h2, h⟩ := bind_ok.1 h
    rw [dict_get_ok] at h1 h2
    have htab : tableAt T p c = some rows := by simp [tableAt, h1, h2]
    have hk' : ∀ r ∈ concatCols k df rows, r.sens.length = k + 1 := by
      intro r hr
      rcases List.mem_append.1 hr with hr | hr
      · obtain ⟨r0, h0, rfl⟩ := List.mem_map.1 hr
        simp [hk r0 h0]
      · obtain ⟨q, h0, rfl⟩ := List.mem_map.1 hr
        simp
    obtain ⟨hd, tl, e1, e2, e3, e4⟩ := ih (k + 1) _ out hk' h r hr
    have key : ∃ hd' s, hd = hd' ++ [s] ∧ hd'.length = k ∧ (s = nan3 ∨ ∃ q ∈ rows, q.ix = r.ix ∧ s = q.sens) ∧
        ((∃ r0 ∈ df, r.ix = r0.ix ∧ r.pos = r0.pos ∧ hd' = r0.sens) ∨ r.pos = none ∧ hd' = List.replicate k nan3) := by
      rcases e4 with ⟨r0, h0, e5, e6, e7⟩ | ⟨e5, e6⟩
      · rcases List.mem_append.1 h0 with h0 | h0
        · obtain ⟨r1, h1, rfl⟩ := List.mem_map.1 h0
          simp only at e5 e6 e7
          refine ⟨r1.sens, _, e7, hk r1 h1, ?_, .inl ⟨r1, h1, e5, e6, rfl⟩⟩
          rw [e5]
          exact sensAt_cases rows r1.ix
        · obtain ⟨q, hq, rfl⟩ := List.mem_map.1 h0
          simp only at e5 e6 e7
          exact ⟨_, _, e7, by simp, .inr ⟨q, List.mem_of_mem_filter hq, e5.symm, rfl⟩, .inr ⟨e6, rfl⟩⟩
      · refine ⟨List.replicate k nan3, nan3, by rw [e6, List.replicate_succ'], by simp, .inl rfl, .inr ⟨e5, rfl⟩⟩
    obtain ⟨hd', s, rfl, k1, k2, k3⟩ := key
    exact ⟨hd', s :: tl, by rw [e1]; simp, k1, .cons ⟨rows, htab, k2⟩ e3, k3⟩

/-- Tables with the same row labels. -/
theorem concatAll_same (T : Tables) (c : String) (tab : String → List SRow) (ps : List String)
    (ht : ∀ p ∈ ps, tableAt T p c = some (tab p)) : ∀ (k : ℕ) (df : List CRow),
    (∀ p ∈ ps, ∀ q ∈ tab p, q.ix ∈ df.map CRow.ix) →
    concatAll T c k df ps = .ok (df.map fun r => { r with sens := r.sens ++ ps.map fun p => sensAt (tab p) r.ix }) := by
  induction ps with
  | nil => intro k df _; simp [concatAll]
  | cons p ps ih =>
    intro k df hix
    have htp := ht p List.mem_cons_self
    unfold tableAt at htp
    rcases h1 : T.get? p with _ | t
    · rw [h1] at htp; simp at htp
    · rw [h1] at htp
      simp only [Option.bind_some] at htp
      unfold concatAll
      rw [(dict_get_ok _ _ _).2 h1, ok_bind, (dict_get_ok _ _ _).2 htp, ok_bind]
      have hcc : concatCols k df (tab p) = df.map (fun r => { r with sens := r.sens ++ [sensAt (tab p) r.ix] }) := by
        unfold concatCols
        have : (tab p).filter (fun q => !(df.map CRow.ix).contains q.ix) = [] := by
          rw [List.filter_eq_nil_iff]
          intro q hq
          have := hix p List.mem_cons_self q hq
          simp only [Bool.not_eq_true', Bool.not_eq_false, List.contains_iff_mem]
          exact this
        rw [this]
        simp
      rw [hcc, ih (fun p hp => ht p (List.mem_cons_of_mem _ hp)) (k + 1)]
      · congr 1
        rw [List.map_map]
        apply List.map_congr_left
        intro r _
        simp
      · intro p' hp' q hq
        have := hix p' (List.mem_cons_of_mem _ hp') q hq
        simpa [Function.comp_def] using this

theorem mapM_keys_get {β : Type} (g : String → Res β) (names : List String) (out : Dict String β)
    (h : (names.mapM fun c => do let r ← g c; return (c, r)) = .ok out) (c : String) :
    (∀ r, out.get? c = some r → g c = .ok r) ∧ (c ∈ names → ∃ r, out.get? c = some r ∧ g c = .ok r) := by
  have hf := mapM_ok_iff.1 h
  clear h
  induction hf with
  | nil => simp [Dict.get?]
  | cons h1 _ ih =>
    rename_i a b l m _
    obtain ⟨r, h3, h2⟩ := bind_ok.1 h1
    rw [pure_ok] at h2
    subst h2
    by_cases hc : a = c
    · subst hc
      simp [Dict.get?, h3]
    · simp only [Dict.get?, hc, if_false]
      refine ⟨ih.1, fun hm => ih.2 ?_⟩
      rcases List.mem_cons.1 hm with hm | hm
      · exact absurd hm.symm hc
      · exact hm

/-- The combined tables of a successful study. -/
theorem study_combined {self self' : Study} {ctor : Ctor} {lib : Lib} {depth : ℕ} {run run' : Run} {l : List (String × ℝ)}
    {overrides : Dict String ParamVal} (hn : (l.map Prod.fst).Nodup) {p : ℝ} {write : Bool} {pre : Option String} {T : Tables}
    (h : dvdp self ctor lib depth run (numbers l) overrides p write pre = (.ok T, self', run')) :
    ∃ d, self'.componentSens = some d ∧ ∀ c,
      (∀ t, d.get? c = some t → t.params = l.map Prod.fst ∧ combineOne T c = .ok t.rows) ∧
      ((∃ M, Generates ctor lib depth (kwGiven run.store (numbers l) overrides) c M) → ∃ t, d.get? c = some t) := by
  have hk := (study_tables hn h).1
  obtain ⟨-, -, h3⟩ := dvdp_spec self self' ctor lib depth run run' l overrides hn p write pre (.ok T) h
  obtain ⟨nom, st, rs, d, b1, b2, -, -, b3, rfl⟩ := h3 T rfl
  refine ⟨d, rfl, fun c => ?_⟩
  unfold combine at b3
  have b4 : (st.veh.named.keys.mapM fun c => do
      let r ← (do let rows ← combineOne T c; return (⟨T.keys, rows⟩ : CTable))
      return (c, r)) = .ok d := by
    rw [← b3]
    congr 1
    funext c
    rcases combineOne T c with x | rows <;> rfl
  have hg := mapM_keys_get _ _ _ b4 c
  have hrow : ∀ t, (do let rows ← combineOne T c; return (⟨T.keys, rows⟩ : CTable)) = .ok t →
      t.params = l.map Prod.fst ∧ combineOne T c = .ok t.rows := by
    intro t ht
    obtain ⟨rows, h1, h2⟩ := bind_ok.1 ht
    rw [pure_ok] at h2
    subst h2
    exact ⟨hk, h1⟩
  refine ⟨fun t ht => hrow t (hg.1 t ht), fun ⟨M, hM⟩ => ?_⟩
  have hm : c ∈ st.veh.named.keys := by
    have hx := (built_meshes _ _ _ _ _ b1 c M).2 hM
    rw [b2, ← built_named _ _ _ _ _ b1]
    exact Dict.mem_keys.2 ⟨M, Dict.mem_of_get? hx⟩
  obtain ⟨t, ht, -⟩ := hg.2 hm
  exact ⟨t, ht⟩

theorem slope_row {M M' : StlMesh} {d : ℝ} (hd : d ≠ 0) {rows : List SRow} (hl : (vertexList M').length = (vertexList M).length)
    (h : compareMeshes M.tris M'.tris (.num d) = .ok rows) : ∀ r ∈ rows, r.sens = rate M M' r.ix d ∧
      (vertexList M)[r.ix]? = some r.pos := by
  obtain ⟨⟨h1, -, -⟩, h4⟩ := compare_rows hl h
  intro r hr
  have := (h1 r hr).1
  rw [List.getElem?_map, Option.map_eq_some_iff] at this
  obtain ⟨⟨x, y⟩, hz, e⟩ := this
  rw [List.getElem?_zip_eq_some] at hz
  simp only [Prod.mk.injEq] at e
  obtain ⟨rfl, e⟩ := e
  rw [h4 r hr, ← e]
  unfold rate
  rw [hz.1, hz.2]
  simp [quotV, quot, hd]

theorem scaled_diff (v p : ℝ) (hv : v ≠ 0) (hp : p ≠ 0) : v * (1 + p / 100) - v = v * p / 100 ∧ v * p / 100 ≠ 0 :=
  ⟨by ring, div_ne_zero (mul_ne_zero hv hp) (by norm_num)⟩

/-- C84, values: whatever a combined table reports is right or missing.  A row is about one vertex of the nominal geometry:
its location is that of the vertex or missing, and in the columns of every parameter there is the displacement of this vertex
per change of the parameter, or missing values. -/
theorem C84_values {self self' : Study} {ctor : Ctor} {lib : Lib} {depth : ℕ} {run run' : Run} {l : List (String × ℝ)}
    {overrides : Dict String ParamVal} (hn : (l.map Prod.fst).Nodup) {p : ℝ} {write : Bool} {pre : Option String} {T : Tables}
    (h : dvdp self ctor lib depth run (numbers l) overrides p write pre = (.ok T, self', run')) (hp : p ≠ 0)
    (hv : ∀ e ∈ l, e.2 ≠ 0) (c : String) (M : StlMesh) (Mp : String → StlMesh)
    (hM : Generates ctor lib depth (kwGiven run.store (numbers l) overrides) c M)
    (hMp : ∀ e ∈ l, Generates ctor lib depth (kwWith run.store (numbers l) overrides e.1 (e.2 * (1 + p / 100))) c (Mp e.1))
    (hs : ∀ e ∈ l, (vertexList (Mp e.1)).length = (vertexList M).length) :
    ∃ d t, self'.componentSens = some d ∧ d.get? c = some t ∧ t.params = l.map Prod.fst ∧
      ∀ r ∈ t.rows, (∀ x, r.pos = some x → (vertexList M)[r.ix]? = some x) ∧
        List.Forall₂ (fun e s => s = ⟨none, none, none⟩ ∨ s = rate M (Mp e.1) r.ix (e.2 * p / 100)) l r.sens := by
  obtain ⟨d, hd, hall⟩ := study_combined hn h
  obtain ⟨t, ht⟩ := (hall c).2 ⟨M, hM⟩
  obtain ⟨hpar, hcomb⟩ := (hall c).1 t ht
  obtain ⟨hk, htab⟩ := study_tables hn h
  have hrows : ∀ e ∈ l, ∃ rows, tableAt T e.1 c = some rows ∧ ∀ r ∈ rows, r.sens = rate M (Mp e.1) r.ix (e.2 * p / 100) ∧
      (vertexList M)[r.ix]? = some r.pos := by
    intro e he
    obtain ⟨M', rows, h1, h2, h3⟩ := htab e he c M hM
    have := generates_unique h1 (hMp e he)
    subst this
    obtain ⟨e1, e2⟩ := scaled_diff e.2 p (hv e he) hp
    rw [e1] at h3
    exact ⟨rows, h2, slope_row e2 (hs e he) h3⟩
  refine ⟨d, t, hd, ht, hpar, fun r hr => ?_⟩
  unfold combineOne at hcomb
  rw [hk] at hcomb
  rcases hl : l with _ | ⟨e0, es⟩
  · rw [hl] at hcomb; simp at hcomb
  · rw [hl] at hcomb
    simp only [List.map_cons] at hcomb
    obtain ⟨t0, g1, hcomb⟩ := bind_ok.1 hcomb
    obtain ⟨rows0, g2, hcomb⟩ := bind_ok.1 hcomb
    rw [dict_get_ok] at g1 g2
    obtain ⟨hd', tl, s1, s2, s3, s4⟩ := concatAll_values T c _ 0 _ _ (by
      intro r hr; obtain ⟨q, -, rfl⟩ := List.mem_map.1 hr; rfl) hcomb r hr
    have : hd' = [] := List.length_eq_zero_iff.1 s2
    subst this
    rw [List.nil_append] at s1
    obtain ⟨rows0', q1, q2⟩ := hrows e0 (by rw [hl]; exact List.mem_cons_self)
    have : rows0' = rows0 := by
      have : tableAt T e0.1 c = some rows0 := by simp [tableAt, g1, g2]
      rw [this] at q1; cases q1; rfl
    subst this
    constructor
    · intro x hx
      rcases s4 with ⟨r0, h0, e1, e2, -⟩ | ⟨e1, -⟩
      · obtain ⟨q, hq, rfl⟩ := List.mem_map.1 h0
        simp only at e1 e2
        rw [hx] at e2
        cases e2
        rw [e1]
        exact (q2 q hq).2
      · rw [hx] at e1; cases e1
    · rw [s1, ← List.map_cons (f := Prod.fst), List.forall₂_map_left_iff] at *
      have hsub : ∀ e ∈ e0 :: es, e ∈ l := by rw [hl]; exact fun e he => he
      clear * - s3 hrows hsub
      generalize e0 :: es = l' at s3 hsub ⊢
      induction s3 with
      | nil => exact .nil
      | cons h1 _ ih =>
        rename_i a b l1 l2 _
        refine .cons ?_ (ih fun e he => hsub e (List.mem_cons_of_mem _ he))
        obtain ⟨rows, g1, g2⟩ := h1
        obtain ⟨rows', g3, g4⟩ := hrows a (hsub a List.mem_cons_self)
        rw [g1] at g3
        cases g3
        rcases g2 with rfl | ⟨q, hq, e1, rfl⟩
        · exact .inl rfl
        · rw [← e1]
          exact .inr (g4 q hq).1

/-- C84 when vertices at the same place stay together under every parameter: the combined table has one row for each distinct
vertex, in order of first occurrence, with its location, and finite sensitivities to all parameters.  Missing: geometries in
which coincident vertices of different patches separate, see `C84_violated`. -/
theorem C84_partial {self self' : Study} {ctor : Ctor} {lib : Lib} {depth : ℕ} {run run' : Run} {l : List (String × ℝ)}
    {overrides : Dict String ParamVal} (hn : (l.map Prod.fst).Nodup) {p : ℝ} {write : Bool} {pre : Option String} {T : Tables}
    (h : dvdp self ctor lib depth run (numbers l) overrides p write pre = (.ok T, self', run')) (hp : p ≠ 0)
    (hv : ∀ e ∈ l, e.2 ≠ 0) (c : String) (M : StlMesh) (Mp : String → StlMesh)
    (hM : Generates ctor lib depth (kwGiven run.store (numbers l) overrides) c M)
    (hMp : ∀ e ∈ l, Generates ctor lib depth (kwWith run.store (numbers l) overrides e.1 (e.2 * (1 + p / 100))) c (Mp e.1))
    (hs : ∀ e ∈ l, KeepsTogether M (Mp e.1)) :
    ∃ d t, self'.componentSens = some d ∧ d.get? c = some t ∧ t.params = l.map Prod.fst ∧ OneRowEach (vertexList M) t.rows ∧
      ∀ r ∈ t.rows, r.sens = l.map fun e => rate M (Mp e.1) r.ix (e.2 * p / 100) := by
  obtain ⟨d, hd, hall⟩ := study_combined hn h
  obtain ⟨t, ht⟩ := (hall c).2 ⟨M, hM⟩
  obtain ⟨hpar, hcomb⟩ := (hall c).1 t ht
  obtain ⟨hk, htab⟩ := study_tables hn h
  set vs := vertexList M with hvs
  have hrows : ∀ e ∈ l, ∃ rows, tableAt T e.1 c = some rows ∧ (∀ r ∈ rows, r.sens = rate M (Mp e.1) r.ix (e.2 * p / 100) ∧
      vs[r.ix]? = some r.pos ∧ ∀ j < r.ix, vs[j]? ≠ some r.pos) ∧ (rows.Pairwise fun a b => a.ix < b.ix) ∧
      ∀ i x, vs[i]? = some x → (∀ j < i, vs[j]? ≠ some x) → ∃ r ∈ rows, r.ix = i := by
    intro e he
    obtain ⟨M', rows, h1, h2, h3⟩ := htab e he c M hM
    have := generates_unique h1 (hMp e he)
    subst this
    obtain ⟨e1, e2⟩ := scaled_diff e.2 p (hv e he) hp
    rw [e1] at h3
    obtain ⟨k1, k2⟩ := hs e he
    have hsl := slope_row e2 k1 h3
    obtain ⟨⟨r1, r2, r3⟩, -⟩ := compare_rows k1 h3
    have hfirst : ∀ r ∈ rows, ∀ j < r.ix, vs[j]? ≠ some r.pos := by
      intro r hr j hj hc
      have e3 := (hsl r hr).2
      have e4 := k2 j r.ix (by rw [← hvs, hc, e3])
      have e5 := (r1 r hr)
      apply e5.2 j hj
      rw [← e5.1, List.getElem?_map, List.getElem?_map]
      congr 1
      have : ∀ i : ℕ, ((vertexList M).zip (vertexList (Mp e.1)))[i]? =
          (vertexList M)[i]?.bind fun a => (vertexList (Mp e.1))[i]?.map fun b => (a, b) := by
        intro i
        rw [List.zip, List.getElem?_zipWith]
        rcases (vertexList M)[i]? with _ | a <;> rcases (vertexList (Mp e.1))[i]? with _ | b <;> rfl
      rw [this, this, e4, ← hvs, hc, e3]
    refine ⟨rows, h2, fun r hr => ⟨(hsl r hr).1, (hsl r hr).2, hfirst r hr⟩, r2, fun i x hx hf => ?_⟩
    have hi : i < vs.length := by
      by_contra hge
      rw [List.getElem?_eq_none (Nat.le_of_not_lt hge)] at hx
      cases hx
    obtain ⟨y, hy⟩ : ∃ y, (vertexList (Mp e.1))[i]? = some y :=
      ⟨_, List.getElem?_eq_getElem (by rw [k1]; exact hi)⟩
    obtain ⟨r, hr, er⟩ := r3 (x, y - x) (List.mem_map.2 ⟨(x, y), List.mem_of_getElem? (List.getElem?_zip_eq_some.2 ⟨hx, hy⟩), rfl⟩)
    refine ⟨r, hr, ?_⟩
    have hpos : r.pos = x := congrArg Prod.fst er
    rcases Nat.lt_trichotomy r.ix i with hlt | heq | hgt
    · exact absurd (hpos ▸ (hsl r hr).2) (hf _ hlt)
    · exact heq
    · exact absurd (hpos ▸ hx) (hfirst r hr i hgt)
  choose! tab htb using hrows
  refine ⟨d, t, hd, ht, hpar, ?_⟩
  unfold combineOne at hcomb
  rw [hk] at hcomb
  rcases hl : l with _ | ⟨e0, es⟩
  · rw [hl] at hcomb; simp at hcomb
  · have he0 : e0 ∈ l := by rw [hl]; exact List.mem_cons_self
    obtain ⟨q1, q2, q3, q4⟩ := htb e0 he0
    -- the tables by name
    let tabn : String → List SRow := fun n => ((l.find? fun e => e.1 = n).map tab).getD []
    have htabn : ∀ e ∈ l, tabn e.1 = tab e := by
      intro e he
      have : l.find? (fun x => x.1 = e.1) = some e := by
        clear * - hn he
        induction l with
        | nil => simp at he
        | cons a l ih =>
          rw [List.map_cons, List.nodup_cons] at hn
          rcases List.mem_cons.1 he with rfl | he
          · simp
          · have : a.1 ≠ e.1 := fun hh => hn.1 (hh ▸ List.mem_map.2 ⟨e, he, rfl⟩)
            rw [List.find?_cons_of_neg (by simpa using this)]
            exact ih hn.2 he
      simp [tabn, this]
    have hcat := concatAll_same T c tabn (l.map Prod.fst) (by
      intro n hnm
      obtain ⟨e, he, rfl⟩ := List.mem_map.1 hnm
      rw [htabn e he]
      exact (htb e he).1) 0 ((tab e0).map fun r => ⟨r.ix, some r.pos, []⟩) (by
      intro n hnm q hq
      obtain ⟨e, he, rfl⟩ := List.mem_map.1 hnm
      rw [htabn e he] at hq
      obtain ⟨-, u1, u2⟩ := (htb e he).2.1 q hq
      obtain ⟨r, hr, er⟩ := q4 q.ix q.pos u1 u2
      simp only [List.map_map, Function.comp_def, List.mem_map]
      exact ⟨r, hr, er⟩)
    have hco : t.rows = (tab e0).map fun r => ⟨r.ix, some r.pos, l.map fun e => sensAt (tab e) r.ix⟩ := by
      rw [hl] at hcomb
      simp only [List.map_cons] at hcomb
      obtain ⟨t0, g1, hcomb⟩ := bind_ok.1 hcomb
      obtain ⟨rows0, g2, hcomb⟩ := bind_ok.1 hcomb
      rw [dict_get_ok] at g1 g2
      have hr0 : rows0 = tab e0 := by
        have : tableAt T e0.1 c = some rows0 := by simp [tableAt, g1, g2]
        rw [this] at q1; cases q1; rfl
      subst hr0
      have hcons : e0.1 :: es.map Prod.fst = l.map Prod.fst := by rw [hl]; rfl
      rw [hcons, hcat] at hcomb
      rw [← Except.ok.inj hcomb, List.map_map]
      apply List.map_congr_left
      intro r _
      simp only [Function.comp, List.nil_append, List.map_map, CRow.mk.injEq, true_and]
      apply List.map_congr_left
      intro e he
      show sensAt (tabn e.1) r.ix = sensAt (tab e) r.ix
      rw [htabn e he]
    rw [← hl, hco]
    refine ⟨⟨?_, ?_, ?_⟩, ?_⟩
    · intro r hr
      obtain ⟨q, hq, rfl⟩ := List.mem_map.1 hr
      exact ⟨q.pos, rfl, (q2 q hq).2⟩
    · rw [List.pairwise_map]
      exact q3
    · intro x hx
      classical
      have hex : ∃ i, vs[i]? = some x := List.getElem?_of_mem hx
      obtain ⟨r, hr, er⟩ := q4 (Nat.find hex) x (Nat.find_spec hex) fun j hj => Nat.find_min hex hj
      refine ⟨_, List.mem_map.2 ⟨r, hr, rfl⟩, ?_⟩
      have := (q2 r hr).2.1
      rw [er, Nat.find_spec hex] at this
      exact this.symm
    · intro r hr
      obtain ⟨q, hq, rfl⟩ := List.mem_map.1 hr
      apply List.map_congr_left
      intro e he
      obtain ⟨-, u1, u2⟩ := q2 q hq
      obtain ⟨r', hr', er'⟩ := (htb e he).2.2.2 q.ix q.pos u1 u2
      simp only
      rw [← er', sensAt_mem (htb e he).2.2.1 hr']
      exact ((htb e he).2.1 r' hr').1

/-! ## A constructor for examples -/

/-- A constructor of vehicles with one component, whose mesh depends on the arguments. -/
noncomputable def meshCtor (mesh : Dict String Val → TriMesh ℝ) : Ctor := fun kw =>
  .ok ⟨fun _ => { demoPoint with mesh_ := some (.ofTris (mesh kw)) }, { components := [0], named := [("body", 0)] }⟩

theorem meshCtor_generates (mesh : Dict String Val → TriMesh ℝ) (hne : ∀ kw, (mesh kw).length ≠ 0) (lib : Lib) (depth : ℕ)
    (kw : Dict String Val) : ∃ i, Built (meshCtor mesh) lib depth kw i ∧ i.meshes = [("body", .ofTris (mesh kw))] ∧
      i.st.veh.named = [("body", 0)] ∧ i.st.veh.properties = [] ∧ i.st.veh.analysisResults = none := by
  obtain ⟨h1, hg, m0⟩ : ∃ h1, Veh.genAll 0 (fun _ => { demoPoint with mesh_ := some (.ofTris (mesh kw)) }) [0] = (.ok (), h1) ∧
      (h1 0).mesh_ = some (.ofTris (mesh kw)) := ⟨_, rfl, rfl⟩
  have hm : (h1 0).mesh = (.ok (.ofTris (mesh kw)), h1 0) := by
    unfold Comp.mesh
    rw [m0]
    exact if_pos (hne kw)
  refine ⟨⟨⟨h1.upd 0 (h1 0), { components := [0], named := [("body", 0)], verbosity := 0, generated := true }⟩,
    [("body", .ofTris (mesh kw))]⟩, ⟨_, rfl, ?_⟩, rfl, rfl, rfl, rfl⟩
  unfold prepare
  have hgen : Veh.generate lib depth ⟨fun _ => { demoPoint with mesh_ := some (.ofTris (mesh kw)) },
      { components := [0], named := [("body", 0)], verbosity := 0 }⟩ =
      (.ok (), ⟨h1, { components := [0], named := [("body", 0)], verbosity := 0, generated := true }⟩) := by
    unfold Veh.generate Veh.generateWith
    simp only [hg]
    simp [Veh.genTransform, Veh.genAnalyse]
  rw [hgen]
  simp [readMeshes, hm]

theorem meshCtor_mesh (mesh : Dict String Val → TriMesh ℝ) (hne : ∀ kw, (mesh kw).length ≠ 0) (lib : Lib) (depth : ℕ)
    (kw : Dict String Val) (M : StlMesh) : Generates (meshCtor mesh) lib depth kw "body" M ↔ M = .ofTris (mesh kw) := by
  obtain ⟨i, h1, h2, -⟩ := meshCtor_generates mesh hne lib depth kw
  rw [← built_meshes _ _ _ _ _ h1, h2]
  simp [Dict.get?, eq_comm]

theorem construct_built (ctor : Ctor) (lib : Lib) (depth : ℕ) (run : Run) (params : Dict String ParamVal) (i : Inst)
    (h : Built ctor lib depth (kwGiven run.store params []) i) :
    construct ctor lib depth run params [] = (.ok i, { run with calls := run.calls ++ [kwGiven run.store params []] }) := by
  obtain ⟨st, h1, h2⟩ := h
  have hk : kwargs run.store params [] = .ok (kwGiven run.store params []) := by simp [kwargs, Dict.keys, kwGiven]
  unfold construct
  rw [hk]
  simp only
  rw [h1]
  simp only [Except.bind, h2]

theorem concatAll_ok (T : Tables) (c : String) (ps : List String) (h : ∀ p ∈ ps, ∃ rows, tableAt T p c = some rows) :
    ∀ k df, ∃ out, concatAll T c k df ps = .ok out := by
  induction ps with
  | nil => intro k df; exact ⟨df, rfl⟩
  | cons p ps ih =>
    intro k df
    obtain ⟨rows, hr⟩ := h p List.mem_cons_self
    unfold tableAt at hr
    rcases h1 : T.get? p with _ | t
    · rw [h1] at hr; simp at hr
    · rw [h1] at hr
      unfold concatAll
      rw [(dict_get_ok _ _ _).2 h1, ok_bind, (dict_get_ok _ _ _).2 (show t.get? c = some rows from hr), ok_bind]
      exact ih (fun p hp => h p (List.mem_cons_of_mem _ hp)) _ _

/-- A study of such vehicles with meshes of the same size succeeds. -/
theorem meshCtor_study (mesh : Dict String Val → TriMesh ℝ) (n : ℕ) (hne : ∀ kw, (mesh kw).length = n + 1) (lib : Lib)
    (l : List (String × ℝ)) (hl : l ≠ []) (hn : (l.map Prod.fst).Nodup) (p : ℝ) (s : Store) : ∃ T self' run',
    dvdp {} (meshCtor mesh) lib 1 { store := s } (numbers l) [] p false none = (.ok T, self', run') := by
  have hne' : ∀ kw, (mesh kw).length ≠ 0 := fun kw => by rw [hne]; omega
  obtain ⟨nom, b1, b2, b3, b4, b5⟩ := meshCtor_generates mesh hne' lib 1 (kwGiven s (numbers l) [])
  have hstudy : ∀ (rest : List (String × ℝ)) (run : Run), run.store = s → (∀ e ∈ rest, e ∈ l) → ∃ rs run',
      study (meshCtor mesh) lib 1 (numbers l) [] (1 + p / 100) nom run (numbers rest) = (.ok rs, run') ∧
      ∀ e ∈ rs, ∃ rows, Dict.get? e.2.tables "body" = some rows := by
    intro rest
    induction rest with
    | nil => intro run _ _; exact ⟨[], run, rfl, by simp⟩
    | cons e rest ih =>
      intro run hs hsub
      obtain ⟨par, c1, c2, c3, c4, c5⟩ := meshCtor_generates mesh hne' lib 1
        (kwGiven run.store ((numbers l).set e.1 (.num (e.2 * (1 + p / 100)))) [])
      have hc := construct_built (meshCtor mesh) lib 1 run _ par c1
      have hcm : ∀ d : ℝ, ∃ q, assess nom par (.num d) = .ok q ∧ ∃ rows, Dict.get? q.tables "body" = some rows := by
        intro d
        obtain ⟨rows, hr⟩ : ∃ rows, compareMeshes (mesh (kwGiven s (numbers l) []))
            (mesh (kwGiven run.store ((numbers l).set e.1 (.num (e.2 * (1 + p / 100)))) [])) (.num d) = .ok rows :=
          ⟨_, compareMeshes_same _ _ d (by rw [hne, hne])⟩
        refine ⟨⟨[("body", rows)], none, none⟩, ?_, rows, by simp [Dict.get?]⟩
        simp only [assess, analysisStep, b5, propertyStep, b4, compareAll, b2, c2, if_true, ok_bind, List.mapM_cons, Dict.get, Dict.get?,
          StlMesh.ofTris, hr, pure_eq, List.mapM_nil]
      obtain ⟨q, hq, hq'⟩ := hcm (e.2 * (1 + p / 100) - e.2)
      obtain ⟨rs, run', hr, hr'⟩ := ih { run with calls := run.calls ++
        [kwGiven run.store ((numbers l).set e.1 (.num (e.2 * (1 + p / 100)))) []] } hs (fun e he => hsub e (List.mem_cons_of_mem _ he))
      refine ⟨(e.1, q) :: rs, run', ?_, ?_⟩
      · rw [study_cons, hc]
        simp only
        rw [hq]
        simp only
        rw [hr]
      · intro x hx
        rcases List.mem_cons.1 hx with rfl | hx
        · exact hq'
        · exact hr' x hx
  have hc := construct_built (meshCtor mesh) lib 1 { store := s } _ nom b1
  obtain ⟨rs, run', hr, hrs⟩ := hstudy l { store := s, calls := [] ++ [kwGiven s (numbers l) []] } rfl (fun _ h => h)
  have hkeys : rs.map Prod.fst = l.map Prod.fst := by
    obtain ⟨-, -, -, h4⟩ := study_spec _ _ _ l [] hn _ nom l _ _ _ (fun _ h => h) hr
    exact forall₂_keys (h4 rs rfl)
  have hcomb : ∃ c, combine nom.st.veh.named.keys (rs.map fun e => (e.1, e.2.tables)) = .ok c := by
    rw [b3]
    have htab : ∀ p ∈ rs.map Prod.fst, ∃ rows, tableAt (rs.map fun e => (e.1, e.2.tables)) p "body" = some rows := by
      intro p hp
      have hrn : (rs.map Prod.fst).Nodup := by rw [hkeys]; exact hn
      obtain ⟨e, he, rfl⟩ := List.mem_map.1 hp
      obtain ⟨rows, h1⟩ := hrs e he
      refine ⟨rows, ?_⟩
      have e1 : Dict.get? (rs.map fun e => (e.1, e.2.tables)) e.1 = (Dict.get? rs e.1).map PSens.tables :=
        Dict.get?_mapVals (fun _ (v : PSens) => v.tables) rs e.1
      unfold tableAt
      rw [e1, Dict.get?_of_mem (d := rs) hrn he]
      exact h1
    have hone : ∃ rows, combineOne (rs.map fun e => (e.1, e.2.tables)) "body" = .ok rows := by
      unfold combineOne
      have hk : Dict.keys (rs.map fun e => (e.1, e.2.tables)) = rs.map Prod.fst := by simp [Dict.keys, Function.comp_def]
      rw [hk]
      rcases hrs' : rs.map Prod.fst with _ | ⟨p0, ps⟩
      · rw [hrs'] at hkeys; simp at hkeys; exact absurd hkeys.symm (by simpa using hl)
      · rw [hrs'] at htab
        obtain ⟨rows, h0⟩ := htab p0 List.mem_cons_self
        unfold tableAt at h0
        rcases h1 : Dict.get? (rs.map fun e => (e.1, e.2.tables)) p0 with _ | t
        · rw [h1] at h0; simp at h0
        · rw [h1] at h0
          simp only
          rw [(dict_get_ok _ _ _).2 h1, ok_bind, (dict_get_ok _ _ _).2 (show t.get? "body" = some rows from h0), ok_bind]
          exact concatAll_ok _ _ _ htab _ _
    obtain ⟨rows, hone⟩ := hone
    unfold combine
    simp only [Dict.keys, List.map_cons, List.map_nil, List.mapM_cons, List.mapM_nil, hone, ok_bind, pure_eq]
    exact ⟨_, rfl⟩
  obtain ⟨c, hcomb⟩ := hcomb
  refine ⟨rs.map (fun e => (e.1, e.2.tables)), (Study.finish {} nom.st rs).2, run', ?_⟩
  unfold dvdp
  rw [hc]
  simp only [writeNominal, Bool.false_eq_true, if_false]
  rw [hr]
  simp only [Study.finish, hcomb]

/-- A number among keyword arguments. -/
def argNum (kw : Dict String Val) (n : String) : ℝ :=
  match kw.get? n with
  | some (.num q) => q
  | _ => 0

/-- A rectangle of two triangles. -/
def rectangle (kw : Dict String Val) : TriMesh ℝ :=
  let x := argNum kw "x"
  let y := argNum kw "y"
  [⟨⟨0, 0, 0⟩, ⟨x, 0, 0⟩, ⟨0, y, 0⟩⟩, ⟨⟨x, 0, 0⟩, ⟨x, y, 0⟩, ⟨0, y, 0⟩⟩]

theorem rectangle_x (q : ℝ) (s : Store) : kwWith s (numbers [("x", 2), ("y", 3)]) [] "x" q = [("x", .num q), ("y", .num 3)] := by
  simp [kwWith, numbers, ParamVal.val]

/-- The hypotheses of `C82_affine` hold for a study of a rectangle: the sensitivities to its length are exact. -/
example (lib : Lib) : ∃ T self' run', dvdp {} (meshCtor rectangle) lib 1 { store := fun _ => [] } (numbers [("x", 2), ("y", 3)]) [] 5 false none =
      (.ok T, self', run') ∧
    ∃ A B : ℕ → V, AffineIn (meshCtor rectangle) lib 1 (kwWith (fun _ => []) (numbers [("x", 2), ("y", 3)]) [] "x") "body" 6 A B ∧
      B 1 = ⟨1, 0, 0⟩ ∧ ∃ M, Generates (meshCtor rectangle) lib 1 (kwGiven (fun _ => []) (numbers [("x", 2), ("y", 3)]) []) "body" M := by
  obtain ⟨T, self', run', h⟩ := meshCtor_study rectangle 1 (fun _ => rfl) lib [("x", 2), ("y", 3)] (by simp) (by simp) 5 fun _ => []
  refine ⟨T, self', run', h, fun i => [⟨0, 0, 0⟩, ⟨0, 0, 0⟩, ⟨0, 3, 0⟩, ⟨0, 0, 0⟩, ⟨0, 3, 0⟩, ⟨0, 3, 0⟩].getD i ⟨0, 0, 0⟩,
    fun i => [⟨0, 0, 0⟩, ⟨1, 0, 0⟩, ⟨0, 0, 0⟩, ⟨1, 0, 0⟩, ⟨1, 0, 0⟩, ⟨0, 0, 0⟩].getD i ⟨0, 0, 0⟩, ?_, rfl, _,
    (meshCtor_mesh rectangle (fun _ => by simp [rectangle]) lib 1 _ _).2 rfl⟩
  intro q M hM
  rw [meshCtor_mesh rectangle (fun _ => by simp [rectangle]), rectangle_x] at hM
  subst hM
  have : List.range 6 = [0, 1, 2, 3, 4, 5] := rfl
  rw [this]
  simp [vertexList, StlMesh.ofTris, rectangle, argNum, Dict.get?, Vec.ext_iff]

/-- The hypotheses of `C84_partial` hold for it. -/
example (lib : Lib) (s : Store) : ∃ M, ∃ Mp : String → StlMesh,
    Generates (meshCtor rectangle) lib 1 (kwGiven s (numbers [("x", 2), ("y", 3)]) []) "body" M ∧
    (∀ e ∈ [("x", (2 : ℝ)), ("y", 3)], Generates (meshCtor rectangle) lib 1
      (kwWith s (numbers [("x", 2), ("y", 3)]) [] e.1 (e.2 * (1 + 5 / 100))) "body" (Mp e.1) ∧ KeepsTogether M (Mp e.1)) := by
  have hne : ∀ kw, (rectangle kw).length ≠ 0 := fun _ => by simp [rectangle]
  refine ⟨.ofTris (rectangle (kwGiven s (numbers [("x", 2), ("y", 3)]) [])), fun n => .ofTris (rectangle
    (kwWith s (numbers [("x", 2), ("y", 3)]) [] n ((if n = "x" then 2 else 3) * (1 + 5 / 100)))),
    (meshCtor_mesh rectangle hne lib 1 _ _).2 rfl, ?_⟩
  have hv : ∀ kw, vertexList (.ofTris (rectangle kw)) = [⟨0, 0, 0⟩, ⟨argNum kw "x", 0, 0⟩, ⟨0, argNum kw "y", 0⟩,
      ⟨argNum kw "x", 0, 0⟩, ⟨argNum kw "x", argNum kw "y", 0⟩, ⟨0, argNum kw "y", 0⟩] := fun _ => rfl
  have key : ∀ kw kw', argNum kw "x" = 2 → argNum kw "y" = 3 →
      KeepsTogether (.ofTris (rectangle kw)) (.ofTris (rectangle kw')) := by
    intro kw kw' h1 h2
    unfold KeepsTogether
    rw [hv, hv, h1, h2]
    refine ⟨rfl, fun i j h => ?_⟩
    match i, j with
    | 0, 0 | 1, 1 | 1, 3 | 3, 1 | 3, 3 | 2, 2 | 2, 5 | 5, 2 | 5, 5 | 4, 4 => rfl
    | 0, 1 | 0, 2 | 0, 3 | 0, 4 | 0, 5 | 1, 0 | 1, 2 | 1, 4 | 1, 5 | 2, 0 | 2, 1 | 2, 3 | 2, 4 | 3, 0 | 3, 2 | 3, 4 | 3, 5
    | 4, 0 | 4, 1 | 4, 2 | 4, 3 | 4, 5 | 5, 0 | 5, 1 | 5, 3 | 5, 4 => simp at h
    | _ + 6, 0 | _ + 6, 1 | _ + 6, 2 | _ + 6, 3 | _ + 6, 4 | _ + 6, 5 => simp at h
    | 0, _ + 6 | 1, _ + 6 | 2, _ + 6 | 3, _ + 6 | 4, _ + 6 | 5, _ + 6 => simp at h
    | _ + 6, _ + 6 => rfl
  intro e he
  refine ⟨(meshCtor_mesh rectangle hne lib 1 _ _).2 ?_, key _ _ ?_ ?_⟩
  · simp only [List.mem_cons, List.not_mem_nil, or_false] at he
    rcases he with rfl | rfl <;> simp
  · simp [kwGiven, numbers, ParamVal.val, argNum, Dict.get?]
  · simp [kwGiven, numbers, ParamVal.val, argNum, Dict.get?]

/-- Two triangles sharing a vertex as long as the second parameter is 1. -/
def hinge (kw : Dict String Val) : TriMesh ℝ :=
  [⟨⟨0, 0, 0⟩, ⟨argNum kw "a", 0, 0⟩, ⟨0, 1, 0⟩⟩, ⟨⟨0, 0, argNum kw "b" - 1⟩, ⟨-1, 0, 0⟩, ⟨0, -1, 0⟩⟩]

/-- C84 fails when a parameter separates vertices that coincide in the nominal geometry: the combined table then has a row
without location and without sensitivities to the first parameter. -/
theorem C84_violated (lib : Lib) : ∃ T self' run' d t r,
    dvdp {} (meshCtor hinge) lib 1 { store := fun _ => [] } (numbers [("a", 1), ("b", 1)]) [] 5 false none = (.ok T, self', run') ∧
    self'.componentSens = some d ∧ d.get? "body" = some t ∧ r ∈ t.rows ∧ r.pos = none ∧
    r.sens = [⟨none, none, none⟩, ⟨some 0, some 0, some 1⟩] := by
  have hne : ∀ kw, (hinge kw).length ≠ 0 := fun _ => by simp [hinge]
  have hn : ([("a", (1 : ℝ)), ("b", 1)].map Prod.fst).Nodup := by simp
  obtain ⟨T, self', run', h⟩ := meshCtor_study hinge 1 (fun _ => rfl) lib [("a", 1), ("b", 1)] (by simp) hn 5 fun _ => []
  obtain ⟨d, hd, hall⟩ := study_combined hn h
  have hM := (meshCtor_mesh hinge hne lib 1 (kwGiven (fun _ => []) (numbers [("a", 1), ("b", 1)]) []) _).2 rfl
  obtain ⟨t, ht⟩ := (hall "body").2 ⟨_, hM⟩
  obtain ⟨-, hcomb⟩ := (hall "body").1 t ht
  obtain ⟨hk, htab⟩ := study_tables hn h
  obtain ⟨MA, rowsA, a1, a2, a3⟩ := htab ("a", 1) (by simp) "body" _ hM
  obtain ⟨MB, rowsB, b1, b2, b3⟩ := htab ("b", 1) (by simp) "body" _ hM
  rw [meshCtor_mesh hinge hne] at a1 b1
  subst a1 b1
  have hv : ∀ kw, vertexList (.ofTris (hinge kw)) = [⟨0, 0, 0⟩, ⟨argNum kw "a", 0, 0⟩, ⟨0, 1, 0⟩, ⟨0, 0, argNum kw "b" - 1⟩, ⟨-1, 0, 0⟩,
    ⟨0, -1, 0⟩] := fun _ => rfl
  obtain ⟨⟨ra, -, -⟩, -⟩ := compare_rows (by rw [hv, hv]; rfl) a3
  obtain ⟨⟨rb, -, rb'⟩, rb4⟩ := compare_rows (by rw [hv, hv]; rfl) b3
  rw [hv, hv] at ra rb rb'
  simp only [kwGiven, kwWith, numbers, ParamVal.val, argNum, Dict.get?, List.map_cons, List.map_nil, List.append_nil, if_true,
    List.zip_cons_cons, List.zip_nil_right, Nat.reduceAdd] at ra rb rb'
  have hA : ∀ r ∈ rowsA, r.ix ≠ 3 := by
    intro r hr h3
    obtain ⟨r1, r2⟩ := ra r hr
    rw [h3] at r1 r2
    apply r2 0 (by norm_num)
    rw [← r1]
    norm_num
    ext <;> simp
  obtain ⟨r, hr, er⟩ := rb' (⟨0, 0, 0⟩, ⟨0, 0, 1 / 20⟩) (by
    simp only [List.mem_cons, Prod.mk.injEq]
    right; right; right; left
    refine ⟨?_, ?_⟩ <;> ext <;> simp <;> norm_num)
  have hix : r.ix = 3 := by
    have r1 := (rb r hr).1
    rw [er] at r1
    rcases hj : r.ix with _ | _ | _ | _ | _ | _ | j <;> rw [hj] at r1 <;> simp [Vec.ext_iff] at r1 ⊢
    all_goals norm_num at r1
  have hsens : r.sens = ⟨some 0, some 0, some 1⟩ := by
    rw [rb4 r hr, show r.delta = ⟨0, 0, 1 / 20⟩ from congrArg Prod.snd er]
    norm_num [quotV, quot]
  unfold combineOne at hcomb
  rw [hk] at hcomb
  simp only [List.map_cons, List.map_nil] at hcomb
  have hget : ∀ n rows, tableAt T n "body" = some rows → ∃ u, T.get n = .ok u ∧ u.get "body" = .ok rows := by
    intro n rows hx
    unfold tableAt at hx
    rcases h1 : T.get? n with _ | u
    · rw [h1] at hx; simp at hx
    · rw [h1] at hx
      exact ⟨u, (dict_get_ok _ _ _).2 h1, (dict_get_ok _ _ _).2 hx⟩
  obtain ⟨u, u1, u2⟩ := hget "a" rowsA a2
  obtain ⟨w, w1, w2⟩ := hget "b" rowsB b2
  rw [u1, ok_bind, u2, ok_bind] at hcomb
  simp only [concatAll] at hcomb
  rw [u1, ok_bind, u2, ok_bind, w1, ok_bind, w2, ok_bind] at hcomb
  have hrows := Except.ok.inj hcomb
  refine ⟨T, self', run', d, t, ⟨3, none, [nan3, r.sens]⟩, h, hd, ht, ?_, rfl, by rw [hsens]; rfl⟩
  rw [← hrows]
  refine List.mem_append_right _ (List.mem_map.2 ⟨r, List.mem_filter.2 ⟨hr, ?_⟩, by rw [hix]; rfl⟩)
  simp only [Bool.not_eq_true', ← Bool.not_eq_true, List.contains_iff_mem]
  rw [hix]
  intro hm
  obtain ⟨x, hx, ex⟩ := List.mem_map.1 hm
  rcases List.mem_append.1 hx with hx | hx
  · obtain ⟨y, hy, rfl⟩ := List.mem_map.1 hx
    obtain ⟨z, hz, rfl⟩ := List.mem_map.1 hy
    exact hA z hz ex
  · obtain ⟨y, hy, rfl⟩ := List.mem_map.1 hx
    exact hA y (List.mem_of_mem_filter hy) ex

end HV
