import Verif.Props.Combined

/-!
# Files of sensitivity studies: C85
-/

namespace HV
open Spec Sens

namespace Spec

/-- The file an event writes. -/
def filePath : CsvEv → Option String
  | .dir _ => none
  | .csv p _ => some p
  | .labelled p _ _ => some p
  | .numbers p _ => some p

/-- The last write to a path, which determines the contents of the file. -/
def lastWrite (evs : List CsvEv) (path : String) : Option CsvEv := evs.reverse.find? fun e => decide (filePath e = some path)

/-- A name that is not a path. -/
def PlainName (s : String) : Prop := '/' ∉ s.toList

end Spec

theorem lastWrite_append (a b : List CsvEv) (path : String) (h : ∀ e ∈ b, filePath e ≠ some path) :
    lastWrite (a ++ b) path = lastWrite a path := by
  unfold lastWrite
  rw [List.reverse_append, List.find?_append]
  have : b.reverse.find? (fun e => decide (filePath e = some path)) = none := by
    rw [List.find?_eq_none]
    intro e he
    simpa using h e (List.mem_reverse.1 he)
  rw [this]
  rfl

theorem lastWrite_last (a : List CsvEv) (path : String) (e : CsvEv) (h : filePath e = some path) :
    lastWrite (a ++ [e]) path = some e := by
  unfold lastWrite
  simp [h]

theorem lastWrite_unique (a : List CsvEv) (path : String) (e : CsvEv) (h : filePath e = some path) (he : e ∈ a)
    (hu : ∀ e' ∈ a, filePath e' = some path → e' = e) : lastWrite a path = some e := by
  unfold lastWrite
  rcases hf : a.reverse.find? (fun e => decide (filePath e = some path)) with _ | e'
  · rw [List.find?_eq_none] at hf
    exact absurd h (by simpa using hf e (List.mem_reverse.2 he))
  · have h1 := List.mem_reverse.1 (List.mem_of_find?_eq_some hf)
    have h2 : filePath e' = some path := by simpa using List.find?_some hf
    rw [hu e' h1 h2]

theorem Spec.PlainName.head {s : String} (h : PlainName s) : s.toList.head? ≠ some '/' := by
  intro hh
  exact h (List.mem_of_mem_head? hh)

/-- Joining adds a fixed prefix to names that are not absolute. -/
theorem pathJoin_prefix (dir : String) : ∃ pre : List Char, (∀ name : String, name.toList.head? ≠ some '/' →
    (pathJoin dir name).toList = pre ++ name.toList) ∧ (pre = [] ∨ pre.getLast? = some '/') := by
  by_cases h : dir = "" ∨ dir.toList.getLast? = some '/'
  · refine ⟨dir.toList, fun name hn => ?_, ?_⟩
    · unfold pathJoin
      rw [if_neg hn, if_pos h, String.toList_append]
    · rcases h with rfl | h
      · left; rfl
      · exact .inr h
  · refine ⟨dir.toList ++ ['/'], fun name hn => ?_, .inr (by simp)⟩
    unfold pathJoin
    rw [if_neg hn, if_neg h, String.toList_append, String.toList_append]
    rfl

theorem pathJoin_inj {dir a b : String} (ha : a.toList.head? ≠ some '/') (hb : b.toList.head? ≠ some '/')
    (h : pathJoin dir a = pathJoin dir b) : a = b := by
  obtain ⟨pre, hp, -⟩ := pathJoin_prefix dir
  have := congrArg String.toList h
  rw [hp a ha, hp b hb, List.append_cancel_left_eq] at this
  exact String.toList_injective this

/-- A plain name is not a path into a subdirectory. -/
theorem pathJoin_sub {dir a sub b : String} (ha : PlainName a) (hs : sub.toList.head? ≠ some '/') (hs0 : sub ≠ "")
    (hsl : sub.toList.getLast? ≠ some '/') (hb : b.toList.head? ≠ some '/') : pathJoin dir a ≠ pathJoin (pathJoin dir sub) b := by
  obtain ⟨pre, hp, -⟩ := pathJoin_prefix dir
  intro h
  have := congrArg String.toList h
  have hlast : ¬ (pathJoin dir sub = "" ∨ (pathJoin dir sub).toList.getLast? = some '/') := by
    have hne : sub.toList ≠ [] := fun hh => hs0 (String.toList_injective (by rw [hh]; rfl))
    rintro (h0 | h0)
    · have := congrArg String.toList h0
      rw [hp sub hs] at this
      exact hne (List.append_eq_nil_iff.1 this).2
    · rw [hp sub hs, List.getLast?_append_of_ne_nil _ hne] at h0
      exact hsl h0
  have hj : (pathJoin (pathJoin dir sub) b).toList = pre ++ (sub.toList ++ ('/' :: b.toList)) := by
    rw [pathJoin, if_neg hb, if_neg hlast, String.toList_append, String.toList_append, hp sub hs]
    simp
  rw [hp a ha.head, hj, List.append_cancel_left_eq] at this
  apply ha
  rw [this]
  simp

/-! ## C85 -/

/-- C85: `to_csv` on a study without results raises and writes nothing. -/
theorem C85_before (self : Study) (cwd : String) (outdir : Option String) (h : self.componentSens = none) :
    self.toCsv cwd outdir = (.error .exc, []) := by
  unfold Study.toCsv
  rw [h]

/-- C85: a study that failed leaves the results of `to_csv` as before, for a new study none. -/
theorem C85_failed (self : Study) (ctor : Ctor) (lib : Lib) (depth : ℕ) (run : Run) (params overrides : Dict String ParamVal)
    (p : ℝ) (write : Bool) (pre : Option String) (x : PyErr)
    (h : (dvdp self ctor lib depth run params overrides p write pre).1 = .error x) :
    (dvdp self ctor lib depth run params overrides p write pre).2.1.componentSens = self.componentSens := by
  unfold dvdp at h ⊢
  rcases hc : construct ctor lib depth run params overrides with ⟨y | nom, run1⟩
  · rfl
  · rw [hc] at h
    simp only at h ⊢
    rcases hw : writeNominal write pre nom run1 with ⟨y | nom2, run2⟩
    · rfl
    · rw [hw] at h
      simp only at h ⊢
      rcases hs : study ctor lib depth params overrides (1 + p / 100) nom2 run2 params with ⟨y | rs, run3⟩
      · rfl
      · rw [hs] at h
        simp only at h ⊢
        unfold Study.finish at h ⊢
        simp only at h ⊢
        rcases hcb : combine nom2.st.veh.named.keys (rs.map fun e => (e.1, e.2.tables)) with y | c
        · rw [hcb]; rfl
        · rw [hcb] at h; simp at h

/-- A new study has no results; a study of a vehicle with a component and no parameters fails. -/
example (lib : Lib) : ({} : Study).componentSens = none ∧
    (dvdp {} (fun _ => .error .type) lib 1 { store := fun _ => [] } [] [] 5 false none).1 = .error .type :=
  ⟨rfl, rfl⟩

theorem sub_paths (outdir : String) (self : Study) (hp : ∀ d, self.scalarSens = some d → ∀ n ∈ d.keys, PlainName n) (a : String)
    (ha : PlainName a) : ∀ e ∈ scalarEvents outdir (self.scalarSens.getD []) (self.componentScalarSens.getD []) ++
      propertySensEvents outdir (self.propertySens.getD []), filePath e ≠ some (pathJoin outdir a) := by
  have hsub : ∀ b : String, b.toList.head? ≠ some '/' → some (pathJoin (pathJoin outdir "scalar_sensitivities") b) ≠
      some (pathJoin outdir a) := by
    intro b hb hh
    exact pathJoin_sub ha (by decide) (by decide) (by decide) hb (Option.some.inj hh).symm
  have hname : ∀ n t : String, PlainName n → t.toList.head? ≠ some '/' → (n ++ t).toList.head? ≠ some '/' := by
    intro n t hn ht
    rw [String.toList_append, List.head?_append]
    rcases hh : n.toList.head? with _ | x
    · simpa using ht
    · have := hn.head
      rw [hh] at this
      simpa using this
  intro e he
  rcases List.mem_append.1 he with he | he
  · unfold scalarEvents at he
    simp only at he
    split at he
    · simp at he
    · rcases List.mem_append.1 he with he | he
      · simp only [List.mem_cons, List.not_mem_nil, or_false] at he
        rcases he with rfl | rfl
        · simp [filePath]
        · exact hsub _ (by decide)
      · obtain ⟨q, hq, he⟩ := List.mem_flatMap.1 he
        have hpl : PlainName q.1 := by
          rcases hs : self.scalarSens with _ | d
          · rw [hs] at hq; simp at hq
          · rw [hs] at hq
            exact hp d hs q.1 (List.mem_map.2 ⟨q, hq, rfl⟩)
        simp only [List.mem_cons, List.not_mem_nil, or_false] at he
        rcases he with rfl | rfl
        · exact hsub _ (hname _ _ hpl (by decide))
        · exact hsub _ (hname _ _ hpl (by decide))
  · unfold propertySensEvents at he
    simp only at he
    split at he
    · simp at he
    · simp only [List.mem_cons, List.not_mem_nil, or_false] at he
      rcases he with rfl | rfl
      · simp [filePath]
      · exact hsub _ (by decide)

theorem plain_append {a b : String} (ha : PlainName a) (hb : PlainName b) : PlainName (a ++ b) := by
  unfold PlainName at *
  rw [String.toList_append, List.mem_append]
  exact not_or.2 ⟨ha, hb⟩

/-- C85, the files of the components: after `to_csv` the file of each component holds its table.  Missing: a component whose
file has the name of the combined file, see `C85_violated`.  The names of components and parameters are assumed not to be
paths. -/
theorem C85_components_partial (self : Study) (cwd : String) (outdir : Option String) (d : Dict String CTable)
    (hs : self.componentSens = some d) (hd : d.keys.Nodup) (hpl : ∀ n ∈ d.keys, PlainName n)
    (hp : ∀ s, self.scalarSens = some s → ∀ n ∈ s.keys, PlainName n) (hcp : PlainName self.combinedFn)
    (c : String) (t : CTable) (hc : (c, t) ∈ d) (hne : c ++ "_sensitivity.csv" ≠ self.combinedFn) :
    ∃ path evs, self.toCsv cwd outdir = (.ok path, evs) ∧
      lastWrite evs (pathJoin (outdir.getD cwd) (c ++ "_sensitivity.csv")) =
        some (.csv (pathJoin (outdir.getD cwd) (c ++ "_sensitivity.csv")) t.csv) := by
  have hsuf : PlainName "_sensitivity.csv" := by unfold PlainName; decide
  have hcpl : PlainName (c ++ "_sensitivity.csv") := plain_append (hpl c (List.mem_map.2 ⟨_, hc, rfl⟩)) hsuf
  unfold Study.toCsv
  rw [hs]
  refine ⟨_, _, rfl, ?_⟩
  simp only [List.append_assoc]
  rw [← List.append_assoc, lastWrite_append _ _ _ (sub_paths _ self hp _ hcpl)]
  unfold componentEvents
  rw [← List.append_assoc, lastWrite_append]
  · refine lastWrite_unique _ _ _ rfl (List.mem_append_right _ (List.mem_map.2 ⟨(c, t), hc, rfl⟩)) fun e he hf => ?_
    rcases List.mem_append.1 he with he | he
    · simp only [List.mem_singleton] at he
      subst he
      simp [filePath] at hf
    · obtain ⟨q, hq, rfl⟩ := List.mem_map.1 he
      simp only [filePath, Option.some.injEq] at hf
      have h1 := pathJoin_inj (plain_append (hpl q.1 (List.mem_map.2 ⟨_, hq, rfl⟩)) hsuf).head hcpl.head hf
      have h2 : q.1 = c := by
        have := congrArg String.toList h1
        rw [String.toList_append, String.toList_append, List.append_cancel_right_eq] at this
        exact String.toList_injective this
      have h3 : q = (c, t) := by
        have e1 := Dict.get?_of_mem (d := d) hd (show (c, q.2) ∈ d by rw [← h2]; exact hq)
        have e2 := Dict.get?_of_mem (d := d) hd hc
        rw [e1] at e2
        ext1
        · exact h2
        · exact Option.some.inj e2
      subst h3
      rfl
  · intro e he hf
    simp only [List.mem_singleton] at he
    subst he
    simp only [filePath, Option.some.injEq] at hf
    exact hne (pathJoin_inj hcp.head hcpl.head hf).symm

/-- The hypotheses of `C85_components_partial` hold for a study with the tables of two components. -/
example : ∃ (self : Study) (d : Dict String CTable), self.componentSens = some d ∧ d.keys = ["wing", "fin"] ∧ d.keys.Nodup ∧
    (∀ n ∈ d.keys, PlainName n ∧ n ++ "_sensitivity.csv" ≠ self.combinedFn) ∧ PlainName self.combinedFn := by
  refine ⟨{ componentSens := some [("wing", ⟨["p"], []⟩), ("fin", ⟨["p"], []⟩)] }, _, rfl, rfl, by simp [Dict.keys], ?_, ?_⟩
  · intro n hn
    simp only [Dict.keys, List.map_cons, List.map_nil, List.mem_cons, List.not_mem_nil, or_false] at hn
    rcases hn with rfl | rfl <;> exact ⟨by unfold PlainName; decide, by decide⟩
  · unfold PlainName; decide

namespace Spec

/-- The rows of all tables in order. -/
def allRows (d : Dict String CTable) : List (List (Option ℝ)) := d.flatMap fun e => e.2.rows.map CRow.entries

end Spec

theorem paramCols_nodup (ps : List String) (h : ps.Nodup) : (["x", "y", "z"] ++ ps.flatMap paramCols).Nodup := by
  have hmem : ∀ c, c ∈ ps.flatMap paramCols → ∃ p ∈ ps, c = "dxd" ++ p ∨ c = "dyd" ++ p ∨ c = "dzd" ++ p := by
    intro c hc
    obtain ⟨p, hp, hc⟩ := List.mem_flatMap.1 hc
    simp only [paramCols, List.mem_cons, List.not_mem_nil, or_false] at hc
    exact ⟨p, hp, hc⟩
  have hne : ∀ (a b : String) (p q : String), a.toList.length = 3 → b.toList.length = 3 → a ++ p = b ++ q → a = b ∧ p = q := by
    intro a b p q ha hb hh
    have := congrArg String.toList hh
    rw [String.toList_append, String.toList_append] at this
    obtain ⟨h1, h2⟩ := List.append_inj this (by rw [ha, hb])
    exact ⟨String.toList_injective h1, String.toList_injective h2⟩
  have lx : "dxd".toList.length = 3 := rfl
  have ly : "dyd".toList.length = 3 := rfl
  have lz : "dzd".toList.length = 3 := rfl
  rw [List.nodup_append]
  refine ⟨by decide, ?_, ?_⟩
  · rw [List.nodup_flatMap]
    refine ⟨fun p _ => ?_, ?_⟩
    · simp only [paramCols, List.nodup_cons, List.mem_cons, List.not_mem_nil, or_false, not_or, not_false_eq_true, List.nodup_nil, and_true]
      refine ⟨⟨fun hh => ?_, fun hh => ?_⟩, fun hh => ?_⟩
      · exact absurd (hne _ _ _ _ lx ly hh).1 (by decide)
      · exact absurd (hne _ _ _ _ lx lz hh).1 (by decide)
      · exact absurd (hne _ _ _ _ ly lz hh).1 (by decide)
    · refine h.imp_of_mem fun {p q} _ _ hpq => ?_
      intro c hc hc'
      simp only [paramCols, List.mem_cons, List.not_mem_nil, or_false] at hc hc'
      rcases hc with rfl | rfl | rfl <;> rcases hc' with hh | hh | hh
      · exact hpq (hne _ _ _ _ lx lx hh).2
      · exact absurd (hne _ _ _ _ lx ly hh).1 (by decide)
      · exact absurd (hne _ _ _ _ lx lz hh).1 (by decide)
      · exact absurd (hne _ _ _ _ ly lx hh).1 (by decide)
      · exact hpq (hne _ _ _ _ ly ly hh).2
      · exact absurd (hne _ _ _ _ ly lz hh).1 (by decide)
      · exact absurd (hne _ _ _ _ lz lx hh).1 (by decide)
      · exact absurd (hne _ _ _ _ lz ly hh).1 (by decide)
      · exact hpq (hne _ _ _ _ lz lz hh).2
  · intro a ha b hb hab
    subst hab
    obtain ⟨p, -, hc⟩ := hmem a hb
    have hlen : 3 ≤ a.toList.length := by
      rcases hc with rfl | rfl | rfl <;> rw [String.toList_append, List.length_append] <;> simp [lx, ly, lz]
    simp only [List.mem_cons, List.not_mem_nil, or_false] at ha
    rcases ha with rfl | rfl | rfl <;> exact absurd hlen (by decide)

theorem fill_self (h : List String) (r : List (Option ℝ)) (hn : h.Nodup) (hl : r.length = h.length) :
    (h.map fun c => (Dict.get? (h.zip r) c).getD none) = r := by
  have hk : Dict.keys (h.zip r) = h := by
    unfold Dict.keys
    rw [← List.unzip_fst, List.unzip_zip_left (by omega)]
  apply List.ext_getElem (by simp [hl])
  intro i h1 h2
  rw [List.getElem_map]
  have hi : i < h.length := by simpa using h1
  have hm : (h[i], r[i]) ∈ h.zip r := by
    rw [List.mem_iff_getElem]
    exact ⟨i, by simp [hi, h2], by simp⟩
  rw [Dict.get?_of_mem (d := h.zip r) (by rw [hk]; exact hn) hm]
  rfl

theorem append_same (h : List String) (R S : List (List (Option ℝ))) (hn : h.Nodup) (hR : ∀ r ∈ R, r.length = h.length)
    (hS : ∀ r ∈ S, r.length = h.length) : Csv.append ⟨h, R⟩ ⟨h, S⟩ = ⟨h, R ++ S⟩ := by
  have hh : h ++ h.filter (fun c => !h.contains c) = h := by
    have : h.filter (fun c => !h.contains c) = [] := by
      rw [List.filter_eq_nil_iff]
      intro c hc
      simp [hc]
    rw [this, List.append_nil]
  unfold Csv.append
  simp only [hh, Csv.mk.injEq, true_and]
  congr 1
  · conv_rhs => rw [← List.map_id R]
    exact List.map_congr_left fun r hr => fill_self h r hn (hR r hr)
  · conv_rhs => rw [← List.map_id S]
    exact List.map_congr_left fun r hr => fill_self h r hn (hS r hr)

theorem append_empty (h : List String) (S : List (List (Option ℝ))) (hn : h.Nodup) (hS : ∀ r ∈ S, r.length = h.length) :
    Csv.append ⟨[], []⟩ ⟨h, S⟩ = ⟨h, S⟩ := by
  have hh : [] ++ h.filter (fun c => !([] : List String).contains c) = h := by simp
  unfold Csv.append
  simp only [hh, Csv.mk.injEq, true_and, List.map_nil, List.nil_append]
  conv_rhs => rw [← List.map_id S]
  exact List.map_congr_left fun r hr => fill_self h r hn (hS r hr)

theorem foldl_append (h : List String) (hn : h.Nodup) (d : Dict String CTable) (hh : ∀ e ∈ d, e.2.csv.header = h)
    (hr : ∀ e ∈ d, ∀ r ∈ e.2.csv.rows, r.length = h.length) (R : List (List (Option ℝ))) (hR : ∀ r ∈ R, r.length = h.length) :
    d.foldl (fun (a : Csv) e => a.append e.2.csv) (⟨h, R⟩ : Csv) = ⟨h, R ++ allRows d⟩ := by
  induction d generalizing R with
  | nil => simp [allRows]
  | cons e d ih =>
    have he := hh e List.mem_cons_self
    have her := hr e List.mem_cons_self
    have : e.2.csv = ⟨h, e.2.csv.rows⟩ := by rw [← he]
    rw [List.foldl_cons, this, append_same h R _ hn hR her, ih (fun e he => hh e (List.mem_cons_of_mem _ he))
      (fun e he => hr e (List.mem_cons_of_mem _ he))]
    · simp [allRows, CTable.csv]
    · intro r hr'
      rcases List.mem_append.1 hr' with hr' | hr'
      · exact hR r hr'
      · exact her r hr'

/-- The combined table of tables about the same parameters. -/
theorem combined_csv (ps : List String) (hps : ps.Nodup) (d : Dict String CTable) (hd : d ≠ []) (hp : ∀ e ∈ d, e.2.params = ps)
    (hr : ∀ e ∈ d, ∀ r ∈ e.2.rows, r.sens.length = ps.length) :
    d.foldl (fun (a : Csv) e => a.append e.2.csv) (⟨[], []⟩ : Csv) = ⟨["x", "y", "z"] ++ ps.flatMap paramCols, allRows d⟩ := by
  have hn := paramCols_nodup ps hps
  have hlen : (["x", "y", "z"] ++ ps.flatMap paramCols).length = 3 + 3 * ps.length := by
    rw [List.length_append, List.length_flatMap]
    simp [paramCols]
    ring
  have hrow : ∀ e ∈ d, ∀ r ∈ e.2.csv.rows, r.length = (["x", "y", "z"] ++ ps.flatMap paramCols).length := by
    intro e he r hr'
    obtain ⟨q, hq, rfl⟩ := List.mem_map.1 (show r ∈ e.2.rows.map CRow.entries from hr')
    rw [hlen, CRow.entries, List.length_append, List.length_flatMap]
    have : (List.map (fun a => (Sens.entries a).length) q.sens).sum = 3 * q.sens.length := by
      simp [Sens.entries]; ring
    rw [this, hr e he q hq]
    split <;> rfl
  have hh : ∀ e ∈ d, e.2.csv.header = ["x", "y", "z"] ++ ps.flatMap paramCols := by
    intro e he
    rw [CTable.csv, hp e he]
  rcases d with _ | ⟨e, d⟩
  · exact absurd rfl hd
  · have : e.2.csv = ⟨["x", "y", "z"] ++ ps.flatMap paramCols, e.2.csv.rows⟩ := by
      rw [← hh e List.mem_cons_self]
    rw [List.foldl_cons, this, append_empty _ _ hn (hrow e List.mem_cons_self), foldl_append _ hn d
      (fun e he => hh e (List.mem_cons_of_mem _ he)) (fun e he => hrow e (List.mem_cons_of_mem _ he)) _ (hrow e List.mem_cons_self)]
    simp [allRows, CTable.csv]

/-- The tables of a successful study are about its parameters. -/
theorem study_tabular {self self' : Study} {ctor : Ctor} {lib : Lib} {depth : ℕ} {run run' : Run} {l : List (String × ℝ)}
    {overrides : Dict String ParamVal} (hn : (l.map Prod.fst).Nodup) {p : ℝ} {write : Bool} {pre : Option String} {T : Tables}
    (h : dvdp self ctor lib depth run (numbers l) overrides p write pre = (.ok T, self', run')) :
    ∃ d, self'.componentSens = some d ∧ self'.combinedFn = self.combinedFn ∧ (d.keys.Nodup →
      ∀ e ∈ d, e.2.params = l.map Prod.fst ∧ ∀ r ∈ e.2.rows, r.sens.length = l.length) := by
  obtain ⟨d, hd, hall⟩ := study_combined hn h
  obtain ⟨hk, -⟩ := study_tables hn h
  refine ⟨d, hd, ?_, fun hdn e he => ?_⟩
  · obtain ⟨-, -, h3⟩ := dvdp_spec self self' ctor lib depth run run' l overrides hn p write pre (.ok T) h
    obtain ⟨nom, st, rs, c, -, -, -, -, -, rfl⟩ := h3 T rfl
    rfl
  · obtain ⟨h1, hcomb⟩ := (hall e.1).1 e.2 (Dict.get?_of_mem hdn he)
    refine ⟨h1, fun r hr => ?_⟩
    unfold combineOne at hcomb
    rw [hk] at hcomb
    rcases hl : l with _ | ⟨e0, es⟩
    · rw [hl] at hcomb; simp at hcomb
    · rw [hl] at hcomb
      simp only [List.map_cons] at hcomb
      obtain ⟨t0, g1, hcomb⟩ := bind_ok.1 hcomb
      obtain ⟨rows0, g2, hcomb⟩ := bind_ok.1 hcomb
      obtain ⟨hd', tl, s1, s2, s3, -⟩ := concatAll_values T e.1 _ 0 _ _ (by
        intro r hr; obtain ⟨q, -, rfl⟩ := List.mem_map.1 hr; rfl) hcomb r hr
      have := s3.length_eq
      rw [s1, List.length_append, s2, ← this]
      simp

/-- C85, the combined file: after a successful study of numeric parameters of a vehicle with components, the path `to_csv`
returns is a file with the columns of all parameters and all rows of all components, in order. -/
theorem C85_combined {self self' : Study} {ctor : Ctor} {lib : Lib} {depth : ℕ} {run run' : Run} {l : List (String × ℝ)}
    {overrides : Dict String ParamVal} (hn : (l.map Prod.fst).Nodup) {p : ℝ} {write : Bool} {pre : Option String} {T : Tables}
    (h : dvdp self ctor lib depth run (numbers l) overrides p write pre = (.ok T, self', run'))
    (cwd : String) (outdir : Option String) (hcp : PlainName self.combinedFn) (hp : ∀ e ∈ l, PlainName e.1)
    (d : Dict String CTable) (hd : self'.componentSens = some d) (hdn : d.keys.Nodup) (hd0 : d ≠ []) :
    ∃ path evs, self'.toCsv cwd outdir = (.ok path, evs) ∧
      lastWrite evs path = some (.csv path ⟨["x", "y", "z"] ++ (l.map Prod.fst).flatMap paramCols, allRows d⟩) := by
  obtain ⟨d', e1, e2, e3⟩ := study_tabular hn h
  rw [hd] at e1
  cases e1
  have e4 := e3 hdn
  have hsc : ∀ s, self'.scalarSens = some s → ∀ n ∈ s.keys, PlainName n := by
    obtain ⟨-, -, h3⟩ := dvdp_spec self self' ctor lib depth run run' l overrides hn p write pre (.ok T) h
    obtain ⟨nom, st, rs, c, -, -, b2, -, -, rfl⟩ := h3 T rfl
    intro s hs n hnm
    simp only [Study.withResults, Option.some.injEq] at hs
    subst hs
    obtain ⟨q, hq, rfl⟩ := List.mem_map.1 hnm
    obtain ⟨y, hy, ey⟩ := List.mem_filterMap.1 hq
    rw [Option.map_eq_some_iff] at ey
    obtain ⟨z, -, rfl⟩ := ey
    have : y.1 ∈ l.map Prod.fst := by rw [← forall₂_keys b2]; exact List.mem_map.2 ⟨y, hy, rfl⟩
    obtain ⟨x, hx, ex⟩ := List.mem_map.1 this
    show PlainName y.1
    rw [← ex]
    exact hp x hx
  unfold Study.toCsv
  rw [hd]
  refine ⟨_, _, rfl, ?_⟩
  simp only [List.append_assoc]
  rw [← List.append_assoc, lastWrite_append _ _ _ (sub_paths _ self' hsc _ (by rw [e2]; exact hcp))]
  unfold componentEvents
  rw [← List.append_assoc, lastWrite_last _ _ _ rfl, combined_csv (l.map Prod.fst) hn d hd0 (fun e he => (e4 e he).1)
    (fun e he r hr => by rw [(e4 e he).2 r hr]; simp)]

/-- C85 fails for a component named "all_components": its file is overwritten by the combined one. -/
theorem C85_violated : ∃ (self : Study) (d : Dict String CTable) (t : CTable), self.componentSens = some d ∧ d.keys.Nodup ∧
    (∀ n ∈ d.keys, PlainName n) ∧ self.combinedFn = "all_components_sensitivity.csv" ∧ ("all_components", t) ∈ d ∧
    ∃ path evs u, self.toCsv "." none = (.ok path, evs) ∧ path = pathJoin "." ("all_components" ++ "_sensitivity.csv") ∧
      lastWrite evs path = some (.csv path u) ∧ u.rows ≠ t.csv.rows := by
  let t : CTable := ⟨["p"], [⟨0, some ⟨0, 0, 0⟩, [⟨some 1, some 0, some 0⟩]⟩]⟩
  refine ⟨{ componentSens := some [("all_components", t), ("wing", t)] }, _, t, rfl, by simp [Dict.keys], ?_, rfl, by simp, ?_⟩
  · intro n hn
    simp only [Dict.keys, List.map_cons, List.map_nil, List.mem_cons, List.not_mem_nil, or_false] at hn
    rcases hn with rfl | rfl <;> (unfold PlainName; decide)
  · refine ⟨_, _, ⟨["x", "y", "z"] ++ ["p"].flatMap paramCols, allRows [("all_components", t), ("wing", t)]⟩, rfl, by decide, ?_, ?_⟩
    · simp only [List.append_assoc]
      rw [← List.append_assoc, lastWrite_append]
      · unfold componentEvents
        rw [← List.append_assoc, lastWrite_last _ _ _ rfl, combined_csv ["p"] (by simp) _ (by simp) (by simp [t]) (by simp [t])]
      · simp [scalarEvents, propertySensEvents]
    · intro hh
      have := congrArg List.length hh
      simp [allRows, CTable.csv, t] at this

/-- The hypotheses of `C85_combined` hold for a study of the rectangle. -/
example (lib : Lib) : ∃ T self' run' d, dvdp {} (meshCtor rectangle) lib 1 { store := fun _ => [] } (numbers [("x", 2), ("y", 3)]) [] 5 false none =
      (.ok T, self', run') ∧ self'.componentSens = some d ∧ d.keys.Nodup ∧ d ≠ [] := by
  obtain ⟨T, self', run', h⟩ := meshCtor_study rectangle 1 (fun _ => rfl) lib [("x", 2), ("y", 3)] (by simp) (by simp) 5 fun _ => []
  obtain ⟨-, -, h3⟩ := dvdp_spec _ self' _ _ _ _ run' [("x", 2), ("y", 3)] [] (by simp) _ _ _ (.ok T) h
  obtain ⟨nom, st, rs, c, b1, b2, -, -, b3, rfl⟩ := h3 T rfl
  refine ⟨T, _, run', c, h, rfl, ?_⟩
  obtain ⟨nom', c1, -, c2, -⟩ := meshCtor_generates rectangle (fun _ => by simp [rectangle]) lib 1
    (kwGiven (fun _ => []) (numbers [("x", 2), ("y", 3)]) [])
  have hnom : nom = nom' := by
    obtain ⟨s1, a1, a2⟩ := b1
    obtain ⟨s2, a3, a4⟩ := c1
    rw [a1] at a3; cases a3
    rw [a2] at a4; cases a4
    rfl
  rw [b2, hnom, c2] at b3
  unfold combine at b3
  simp only [Dict.keys, List.map_cons, List.map_nil, List.mapM_cons, List.mapM_nil] at b3
  obtain ⟨q, h1, h2⟩ := bind_ok.1 b3
  obtain ⟨z, h4, h5⟩ := bind_ok.1 h2
  rw [pure_ok] at h4 h5
  subst h4 h5
  simp [Dict.keys]

end HV
