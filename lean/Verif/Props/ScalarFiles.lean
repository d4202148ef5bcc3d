import Verif.Props.ScalarSens
import Verif.Props.SensCsv

/-!
# The files of the scalar sensitivities: C161, and the cells of the tables of C85
-/

namespace HV
open Spec Sens

namespace Spec

/-- The cell of a row in the column named `c`, given the header. -/
def cell (header : List String) (row : List (Option ℝ)) (c : String) : Option (Option ℝ) := Dict.get? (header.zip row) c

/-- The cell of a file with labelled rows: the first row with the label, the column with the name. -/
def labelledCell (f : CsvEv) (row col : String) : Option (Option ℝ) :=
  match f with
  | .labelled _ header rows => (rows.find? fun r => decide (r.1 = row)).bind fun r => cell header r.2 col
  | _ => none

/-- The file `name` in the directory of scalar sensitivities below `dir`. -/
def scalarFile (dir name : String) : String := pathJoin (pathJoin dir "scalar_sensitivities") name

end Spec

/-! ## Lists -/

theorem getElem?_flatMap3 {α β : Type} (f : α → List β) (hf : ∀ a, (f a).length = 3) (i : ℕ) (hi : i < 3) : ∀ (L : List α) (k : ℕ),
    (L.flatMap f)[3 * k + i]? = (L[k]?).bind fun a => (f a)[i]? := by
  intro L
  induction L with
  | nil => intro k; simp
  | cons a L ih =>
    intro k
    rw [List.flatMap_cons]
    cases k with
    | zero =>
      rw [List.getElem?_append_left (by rw [hf]; omega)]
      simp
    | succ k =>
      rw [List.getElem?_append_right (by rw [hf]; omega), hf, show 3 * (k + 1) + i - 3 = 3 * k + i by omega, ih]
      simp

theorem get?_keys_zip {α β : Type} (g : String × α → β) (name : String) : ∀ d : Dict String α,
    Dict.get? (List.zip (Dict.keys d) (d.map g)) name = (Dict.get? d name).map fun a => g (name, a) := by
  intro d
  induction d with
  | nil => rfl
  | cons e d ih =>
    obtain ⟨n, a⟩ := e
    simp only [Dict.keys, List.map_cons, List.zip_cons_cons, Dict.get?] at ih ⊢
    split_ifs with h
    · subst h; rfl
    · exact ih

/-- The place of the first entry with a key. -/
theorem get?_first {α : Type} (c : String) (a : α) : ∀ t : List (String × α), Dict.get? t c = some a →
    ∃ k : ℕ, t[k]? = some (c, a) ∧ ∀ j < k, (t.map Prod.fst)[j]? ≠ some c := by
  intro t
  induction t with
  | nil => intro h; simp [Dict.get?] at h
  | cons e t ih =>
    obtain ⟨n, b⟩ := e
    intro h
    simp only [Dict.get?] at h
    split_ifs at h with hn
    · subst hn; cases h
      exact ⟨0, rfl, fun j hj => absurd hj (Nat.not_lt_zero j)⟩
    · obtain ⟨k, h1, h2⟩ := ih h
      refine ⟨k + 1, by simpa using h1, fun j hj => ?_⟩
      cases j with
      | zero => simpa using hn
      | succ j => simpa using h2 j (by omega)

/-- The labels `{component}_{quantity}`. -/
theorem label_inj {c c' i i' : String} (hi : i ∈ ["mass", "volume", "area"]) (hi' : i' ∈ ["mass", "volume", "area"])
    (h : c ++ "_" ++ i = c' ++ "_" ++ i') : c = c' ∧ i = i' := by
  have h0 := congrArg String.toList h
  simp only [String.toList_append] at h0
  have hl := congrArg List.getLast? h0
  have : i = i' := by
    simp only [List.mem_cons, List.not_mem_nil, or_false] at hi hi'
    rcases hi with rfl | rfl | rfl <;> rcases hi' with rfl | rfl | rfl <;> first | rfl | (exfalso; simp [List.getLast?_append] at hl)
  subst this
  refine ⟨?_, rfl⟩
  rw [List.append_cancel_right_eq, List.append_cancel_right_eq] at h0
  exact String.toList_injective h0

/-! ## C85: cells -/

theorem get?_zip_append_left {α : Type} (c : String) : ∀ (h h' : List String) (r r' : List α), h.length = r.length → c ∈ h →
    Dict.get? ((h ++ h').zip (r ++ r')) c = Dict.get? (h.zip r) c := by
  intro h
  induction h with
  | nil => intro h' r r' _ hc; simp at hc
  | cons a h ih =>
    intro h' r r' hl hc
    cases r with
    | nil => simp at hl
    | cons b r =>
      simp only [List.cons_append, List.zip_cons_cons, Dict.get?]
      split_ifs with e
      · rfl
      · exact ih h' r r' (by simpa using hl) (by
          rcases List.mem_cons.1 hc with rfl | hc
          · exact absurd rfl e
          · exact hc)

theorem get?_zip_append_right {α : Type} (c : String) : ∀ (h h' : List String) (r r' : List α), h.length = r.length → c ∉ h →
    Dict.get? ((h ++ h').zip (r ++ r')) c = Dict.get? (h'.zip r') c := by
  intro h
  induction h with
  | nil =>
    intro h' r r' hl _
    cases r with
    | nil => rfl
    | cons b r => simp at hl
  | cons a h ih =>
    intro h' r r' hl hc
    cases r with
    | nil => simp at hl
    | cons b r =>
      simp only [List.cons_append, List.zip_cons_cons, Dict.get?]
      rw [if_neg (fun e => hc (by rw [← e]; exact List.mem_cons_self))]
      exact ih h' r r' (by simpa using hl) (fun hh => hc (List.mem_cons_of_mem _ hh))

theorem param_cells : ∀ (ps : List String) (ss : List (Vec (Option ℝ))), ps.Nodup → ps.length = ss.length → ∀ e ∈ ps.zip ss,
    Dict.get? ((ps.flatMap paramCols).zip (ss.flatMap Sens.entries)) ("dxd" ++ e.1) = some e.2.x ∧
    Dict.get? ((ps.flatMap paramCols).zip (ss.flatMap Sens.entries)) ("dyd" ++ e.1) = some e.2.y ∧
    Dict.get? ((ps.flatMap paramCols).zip (ss.flatMap Sens.entries)) ("dzd" ++ e.1) = some e.2.z := by
  have hne : ∀ (a b : String) (p q : String), a.toList.length = 3 → b.toList.length = 3 → a ++ p = b ++ q → a = b ∧ p = q := by
    intro a b p q ha hb hh
    have := congrArg String.toList hh
    rw [String.toList_append, String.toList_append] at this
    obtain ⟨h1, h2⟩ := List.append_inj this (by rw [ha, hb])
    exact ⟨String.toList_injective h1, String.toList_injective h2⟩
  intro ps
  induction ps with
  | nil => intro ss _ _ e he; simp at he
  | cons p ps ih =>
    intro ss hn hl e he
    cases ss with
    | nil => simp at he
    | cons s ss =>
      rw [List.nodup_cons] at hn
      rw [List.zip_cons_cons, List.mem_cons] at he
      rw [List.flatMap_cons, List.flatMap_cons]
      rcases he with rfl | he
      · refine ⟨?_, ?_, ?_⟩ <;> rw [get?_zip_append_left _ (paramCols p) _ (Sens.entries s) _ rfl (by simp [paramCols])]
        · simp [paramCols, Sens.entries, Dict.get?]
        · simp only [paramCols, Sens.entries, List.zip_cons_cons, Dict.get?]
          rw [if_neg (fun h => by have := (hne _ _ _ _ (by decide) (by decide) h).1; revert this; decide)]; exact if_pos trivial
        · simp only [paramCols, Sens.entries, List.zip_cons_cons, Dict.get?]
          rw [if_neg (fun h => by have := (hne _ _ _ _ (by decide) (by decide) h).1; revert this; decide),
            if_neg (fun h => by have := (hne _ _ _ _ (by decide) (by decide) h).1; revert this; decide)]; exact if_pos trivial
      · have hp : e.1 ≠ p := by
          rintro rfl
          exact hn.1 (List.of_mem_zip he).1
        have hno : ∀ a : String, a.toList.length = 3 → a ++ e.1 ∉ paramCols p := by
          intro a ha hm
          simp only [paramCols, List.mem_cons, List.not_mem_nil, or_false] at hm
          rcases hm with hm | hm | hm <;> exact hp (hne _ _ _ _ ha (by decide) hm).2
        obtain ⟨i1, i2, i3⟩ := ih ss hn.2 (by simpa using hl) e he
        refine ⟨?_, ?_, ?_⟩ <;> rw [get?_zip_append_right _ (paramCols p) _ (Sens.entries s) _ rfl (hno _ (by decide))] <;> assumption

/-- C85, the cells: in the file of a component, and with the same columns in the combined file, the row of a vertex has its
coordinates in the columns `x`, `y`, `z` and the sensitivities of the coordinates to the parameter `p` in the columns `dxdp`, `dydp`,
`dzdp`. -/
theorem C85_cells {self self' : Study} {ctor : Ctor} {lib : Lib} {depth : ℕ} {run run' : Run} {l : List (String × ℝ)}
    {overrides : Dict String ParamVal} (hn : (l.map Prod.fst).Nodup) {p : ℝ} {write : Bool} {pre : Option String} {T : Tables}
    (h : dvdp self ctor lib depth run (numbers l) overrides p write pre = (.ok T, self', run'))
    (d : Dict String CTable) (hd : self'.componentSens = some d) (hdn : d.keys.Nodup) (c : String) (t : CTable) (hc : (c, t) ∈ d) :
    t.csv.rows.length = t.rows.length ∧ ∀ (k : ℕ) (r : CRow), t.rows[k]? = some r → ∃ row, t.csv.rows[k]? = some row ∧
      cell t.csv.header row "x" = some (r.pos.map Vec.x) ∧ cell t.csv.header row "y" = some (r.pos.map Vec.y) ∧
      cell t.csv.header row "z" = some (r.pos.map Vec.z) ∧
      ∀ (j : ℕ) (name : String), (l.map Prod.fst)[j]? = some name → ∃ s, r.sens[j]? = some s ∧
        cell t.csv.header row ("dxd" ++ name) = some s.x ∧ cell t.csv.header row ("dyd" ++ name) = some s.y ∧
        cell t.csv.header row ("dzd" ++ name) = some s.z := by
  obtain ⟨d', e1, e2, e3⟩ := study_tabular hn h
  rw [hd] at e1
  cases e1
  obtain ⟨q1, q2⟩ := e3 hdn _ hc
  simp only at q1 q2
  refine ⟨by simp [CTable.csv], fun k r hk => ⟨r.entries, by simp [CTable.csv, hk], ?_⟩⟩
  have hr : r ∈ t.rows := List.mem_of_getElem? hk
  have hlen : (l.map Prod.fst).length = r.sens.length := by rw [q2 r hr]; simp
  have hhead : t.csv.header = ["x", "y", "z"] ++ (l.map Prod.fst).flatMap paramCols := by rw [← q1]; rfl
  have hent : r.entries = [r.pos.map Vec.x, r.pos.map Vec.y, r.pos.map Vec.z] ++ r.sens.flatMap Sens.entries := by
    unfold CRow.entries
    rcases r.pos with _ | w <;> rfl
  have hno : ∀ a b : String, a.toList.length = 3 → a ++ b ∉ ["x", "y", "z"] := by
    intro a b ha hm
    simp only [List.mem_cons, List.not_mem_nil, or_false] at hm
    rcases hm with hm | hm | hm <;>
    · have := congrArg (fun s : String => s.toList.length) hm
      simp only [String.toList_append, List.length_append, ha] at this
      have h1 : ∀ n, 3 + n ≠ 1 := by omega
      exact h1 _ this
  unfold cell
  rw [hhead, hent]
  refine ⟨?_, ?_, ?_, fun j name hj => ?_⟩
  · rw [get?_zip_append_left _ ["x", "y", "z"] _ [r.pos.map Vec.x, r.pos.map Vec.y, r.pos.map Vec.z] _ rfl (by decide)]; simp [Dict.get?]
  · rw [get?_zip_append_left _ ["x", "y", "z"] _ [r.pos.map Vec.x, r.pos.map Vec.y, r.pos.map Vec.z] _ rfl (by decide)]; simp [Dict.get?]
  · rw [get?_zip_append_left _ ["x", "y", "z"] _ [r.pos.map Vec.x, r.pos.map Vec.y, r.pos.map Vec.z] _ rfl (by decide)]; simp [Dict.get?]
  · have hjl : j < r.sens.length := by rw [← hlen]; exact (List.getElem?_eq_some_iff.1 hj).1
    refine ⟨r.sens[j], List.getElem?_eq_getElem hjl, ?_⟩
    have hm : (name, r.sens[j]) ∈ (l.map Prod.fst).zip r.sens := by
      refine List.mem_iff_getElem?.2 ⟨j, ?_⟩
      rw [List.getElem?_zip_eq_some]
      exact ⟨hj, List.getElem?_eq_getElem hjl⟩
    obtain ⟨i1, i2, i3⟩ := param_cells _ _ hn hlen _ hm
    refine ⟨?_, ?_, ?_⟩ <;>
      rw [get?_zip_append_right _ ["x", "y", "z"] _ [r.pos.map Vec.x, r.pos.map Vec.y, r.pos.map Vec.z] _ rfl (hno _ _ (by decide))] <;>
      assumption

/-! ## C161 -/

theorem plain_join_head {n t : String} (hn : PlainName n) (ht : t.toList.head? ≠ some '/') : (n ++ t).toList.head? ≠ some '/' := by
  rw [String.toList_append, List.head?_append]
  rcases hh : n.toList.head? with _ | x
  · simpa using ht
  · have := hn.head
    rw [hh] at this
    simpa using this

/-- A file in the directory of scalar sensitivities is determined by the events about scalar sensitivities. -/
theorem scalar_write (self : Study) (cwd : String) (outdir : Option String) (d : Dict String CTable) (hd : self.componentSens = some d)
    (hpl : ∀ n ∈ d.keys, PlainName n) (hcp : PlainName self.combinedFn) (b : String) (hb : b.toList.head? ≠ some '/') (e : CsvEv)
    (hf : filePath e = some (scalarFile (outdir.getD cwd) b))
    (he : e ∈ scalarEvents (outdir.getD cwd) (self.scalarSens.getD []) (self.componentScalarSens.getD []) ++
      propertySensEvents (outdir.getD cwd) (self.propertySens.getD []))
    (hu : ∀ e' ∈ scalarEvents (outdir.getD cwd) (self.scalarSens.getD []) (self.componentScalarSens.getD []) ++
      propertySensEvents (outdir.getD cwd) (self.propertySens.getD []), filePath e' = some (scalarFile (outdir.getD cwd) b) → e' = e) :
    ∃ path evs, self.toCsv cwd outdir = (.ok path, evs) ∧ lastWrite evs (scalarFile (outdir.getD cwd) b) = some e := by
  have hsub : ∀ a : String, PlainName a → pathJoin (outdir.getD cwd) a ≠ scalarFile (outdir.getD cwd) b := fun a ha =>
    pathJoin_sub ha (by decide) (by decide) (by decide) hb
  unfold Study.toCsv
  rw [hd]
  refine ⟨_, _, rfl, ?_⟩
  simp only [List.append_assoc]
  refine lastWrite_unique _ _ _ hf ?_ ?_
  · exact List.mem_append_right _ (List.mem_append_right _ he)
  · intro e' he' hf'
    rcases List.mem_append.1 he' with he' | he'
    · simp only [List.mem_singleton] at he'
      subst he'
      simp [filePath] at hf'
    rcases List.mem_append.1 he' with he' | he'
    · unfold componentEvents at he'
      rcases List.mem_append.1 he' with he' | he'
      · obtain ⟨q, hq, rfl⟩ := List.mem_map.1 he'
        simp only [filePath, Option.some.injEq] at hf'
        exact absurd hf' (hsub _ (plain_append (hpl q.1 (List.mem_map.2 ⟨_, hq, rfl⟩)) (by unfold PlainName; decide)))
      · simp only [List.mem_singleton] at he'
        subst he'
        simp only [filePath, Option.some.injEq] at hf'
        exact absurd hf' (hsub _ hcp)
    · exact hu e' he' hf'

theorem mem_scalarEvents {outdir : String} {S : Dict String AnalysisSens} {C : Dict String (List (String × Vec (Option ℝ)))} {e : CsvEv}
    (h : e ∈ scalarEvents outdir S C) : S ≠ [] ∧ (filePath e = none ∨ e ∈ scalarEvents outdir S C ∧ filePath e = some (scalarFile outdir "volmass_sensitivity.csv") ∨
      ∃ q ∈ S, e = .numbers (scalarFile outdir (q.1 ++ "_cog_sensitivity.txt")) [q.2.cog.x, q.2.cog.y, q.2.cog.z] ∨
        e = .numbers (scalarFile outdir (q.1 ++ "_moi_sensitivity.txt")) [q.2.moi 0 0, q.2.moi 0 1, q.2.moi 0 2, q.2.moi 1 0, q.2.moi 1 1,
          q.2.moi 1 2, q.2.moi 2 0, q.2.moi 2 1, q.2.moi 2 2]) := by
  have h0 := h
  unfold scalarEvents at h
  simp only at h
  split at h
  · simp at h
  · rename_i hne
    refine ⟨hne, ?_⟩
    rcases List.mem_append.1 h with h | h
    · simp only [List.mem_cons, List.not_mem_nil, or_false] at h
      rcases h with rfl | rfl
      · exact .inl rfl
      · exact .inr (.inl ⟨h0, rfl⟩)
    · obtain ⟨q, hq, h⟩ := List.mem_flatMap.1 h
      refine .inr (.inr ⟨q, hq, ?_⟩)
      simpa [List.finRange, scalarFile, Sens.entries] using h

theorem mem_propertySensEvents {outdir : String} {d : Dict String (Dict String (Option ℝ))} {e : CsvEv}
    (h : e ∈ propertySensEvents outdir d) : filePath e = none ∨ filePath e = some (scalarFile outdir "property_sensitivity.csv") := by
  unfold propertySensEvents at h
  simp only at h
  split at h
  · simp at h
  · simp only [List.mem_cons, List.not_mem_nil, or_false] at h
    rcases h with rfl | rfl
    · exact .inl rfl
    · exact .inr rfl

theorem present_keys {α : Type} (f : PSens → Option α) : ∀ rs : Dict String PSens, ((present rs f).map Prod.fst).Sublist (rs.map Prod.fst) := by
  intro rs
  induction rs with
  | nil => exact List.Sublist.refl _
  | cons e rs ih =>
    unfold present at ih ⊢
    rw [List.filterMap_cons]
    rcases f e.2 with _ | a
    · exact ih.cons _
    · exact ih.cons_cons _

/-- What a successful study reports, by parameter. -/
theorem study_present {self self' : Study} {ctor : Ctor} {lib : Lib} {depth : ℕ} {run run' : Run} {l : List (String × ℝ)}
    {overrides : Dict String ParamVal} (hn : (l.map Prod.fst).Nodup) {p : ℝ} {write : Bool} {pre : Option String} {T : Tables}
    (h : dvdp self ctor lib depth run (numbers l) overrides p write pre = (.ok T, self', run')) :
    ∃ (rs : Dict String PSens) (ks ps : List String), self'.scalarSens = some (present rs fun p => p.analysis.map Prod.fst) ∧
      self'.componentScalarSens = some (present rs fun p => p.analysis.map Prod.snd) ∧
      self'.propertySens = some (present rs PSens.properties) ∧ self'.combinedFn = self.combinedFn ∧ rs.map Prod.fst = l.map Prod.fst ∧
      (∀ e ∈ rs, ∀ a t, e.2.analysis = some (a, t) → t.map Prod.fst = ks) ∧ ∀ e ∈ rs, ∀ t, e.2.properties = some t → t.map Prod.fst = ps := by
  obtain ⟨-, -, h3⟩ := dvdp_spec self self' ctor lib depth run run' l overrides hn p write pre (.ok T) h
  obtain ⟨nom, st, rs, c, -, -, b2, -, -, rfl⟩ := h3 T rfl
  have hall : ∀ e ∈ rs, ∃ par dp, assess ⟨st, nom.meshes⟩ par dp = .ok e.2 := by
    intro e he
    obtain ⟨k, hk⟩ := List.mem_iff_getElem?.1 he
    obtain ⟨hk1, hk2⟩ := List.getElem?_eq_some_iff.1 hk
    have := List.forall₂_iff_get.1 b2
    have h4 := this.2 k (by rw [this.1]; exact hk1) hk1
    obtain ⟨-, par, -, ha⟩ := h4
    simp only [List.get_eq_getElem, hk2] at ha
    exact ⟨par, _, ha⟩
  refine ⟨rs, match st.veh.analysisResults with | some x => (volmass (st.veh.analysis.getD x)).map Prod.fst | none => [],
    st.veh.properties.map Prod.fst, rfl, rfl, rfl, rfl, forall₂_keys b2, ?_, ?_⟩
  · intro e he a t hat
    obtain ⟨par, dp, ha⟩ := hall e he
    obtain ⟨a1, -, -⟩ := assess_ok _ _ _ _ ha
    unfold analysisStep at a1
    rw [hat] at a1
    simp only at a1
    rcases hx : st.veh.analysisResults with _ | x
    · rw [hx] at a1; simp at a1
    rcases hy : par.st.veh.analysisResults with _ | y
    · rw [hx, hy] at a1; simp at a1
    rw [hx, hy] at a1
    simp only [Except.ok.injEq, Option.some.injEq, Prod.mk.injEq] at a1
    rw [← a1.2]
    simp only [volmassDiff, List.map_map]
    rfl
  · intro e he t ht
    obtain ⟨par, dp, ha⟩ := hall e he
    obtain ⟨-, a2, -⟩ := assess_ok _ _ _ _ ha
    unfold propertyStep at a2
    rw [ht] at a2
    simp only at a2
    split at a2
    · simp at a2
    · obtain ⟨t', a3, a4⟩ := bind_ok.1 a2
      rw [pure_ok] at a4
      cases a4
      have : List.Forall₂ (fun (e : String × ℝ) (t : String × Option ℝ) => t.1 = e.1) st.veh.properties t := by
        refine (mapM_ok_iff.1 a3).imp fun e t ht => ?_
        obtain ⟨w, g1, ht⟩ := bind_ok.1 ht
        obtain ⟨r, g2, ht⟩ := bind_ok.1 ht
        rw [pure_ok] at ht
        subst ht
        rfl
      exact forall₂_keys (P := fun _ _ => True) (this.imp fun _ _ h => ⟨h, trivial⟩)

theorem volmass_cell (comp : Dict String (List (String × Vec (Option ℝ)))) (ks : List String) (hks : ∀ e ∈ comp, e.2.map Prod.fst = ks)
    (name : String) (t : List (String × Vec (Option ℝ))) (ht : Dict.get? comp name = some t) (c : String) (s : Vec (Option ℝ))
    (hs : Dict.get? t c = some s) (path : String) (i : ℕ) (hi : i < 3) (q : String) (hq : ["mass", "volume", "area"][i]? = some q)
    (w : Option ℝ) (hw : [s.x, s.y, s.z][i]? = some w) :
    labelledCell (.labelled path comp.keys ((((comp.getLast?.map fun e => e.2).getD []).flatMap fun r =>
      ["mass", "volume", "area"].map fun i => r.1 ++ "_" ++ i).mapIdx fun i l =>
        (l, (comp.map fun e => e.2.flatMap fun r => Sens.entries r.2).map fun v => (v[i]?).getD none))) (c ++ "_" ++ q) name = some w := by
  have hlast : ∃ e, comp.getLast? = some e ∧ e.2.map Prod.fst = ks := by
    rcases hl : comp.getLast? with _ | e
    · rw [List.getLast?_eq_none_iff] at hl
      rw [hl] at ht
      simp [Dict.get?] at ht
    · exact ⟨e, rfl, hks e (List.mem_of_getLast? hl)⟩
  obtain ⟨e, he, hek⟩ := hlast
  have hlab : (((comp.getLast?.map fun e => e.2).getD []).flatMap fun r => ["mass", "volume", "area"].map fun i => r.1 ++ "_" ++ i) =
      ks.flatMap fun k => ["mass", "volume", "area"].map fun i => k ++ "_" ++ i := by
    rw [he, ← hek]
    simp [List.flatMap_map]
  have htk : t.map Prod.fst = ks := hks _ (Dict.mem_of_get? ht)
  obtain ⟨k, hk1, hk2⟩ := get?_first c s t hs
  rw [htk] at hk2
  have hkc : ks[k]? = some c := by rw [← htk, List.getElem?_map, hk1]; rfl
  have hL : ∀ a b, b < 3 → (ks.flatMap fun k => ["mass", "volume", "area"].map fun i => k ++ "_" ++ i)[3 * a + b]? =
      (ks[a]?).bind fun x => (["mass", "volume", "area"].map fun i => x ++ "_" ++ i)[b]? :=
    fun a b hb => getElem?_flatMap3 _ (fun _ => rfl) b hb ks a
  have hat : (ks.flatMap fun k => ["mass", "volume", "area"].map fun i => k ++ "_" ++ i)[3 * k + i]? = some (c ++ "_" ++ q) := by
    rw [hL k i hi, hkc, Option.bind_some, List.getElem?_map, hq]
    rfl
  have hqm : q ∈ ["mass", "volume", "area"] := List.mem_of_getElem? hq
  have hbefore : ∀ j, j < 3 * k + i → (ks.flatMap fun k => ["mass", "volume", "area"].map fun i => k ++ "_" ++ i)[j]? ≠ some (c ++ "_" ++ q) := by
    intro j hj hh
    obtain ⟨a, b, hb, rfl⟩ : ∃ a b, b < 3 ∧ j = 3 * a + b := ⟨j / 3, j % 3, Nat.mod_lt _ (by norm_num), (Nat.div_add_mod j 3).symm⟩
    rw [hL a b hb] at hh
    obtain ⟨x, hx1, hx2⟩ := Option.bind_eq_some_iff.1 hh
    rw [List.getElem?_map, Option.map_eq_some_iff] at hx2
    obtain ⟨q', hq', hx2⟩ := hx2
    obtain ⟨rfl, rfl⟩ := label_inj (List.mem_of_getElem? hq') hqm hx2
    have hak : ¬ a < k := fun hak => hk2 a hak hx1
    have hbi : b = i := by
      have hnd : (["mass", "volume", "area"] : List String).Nodup := by decide
      exact (List.getElem?_inj (by simpa using hb) hnd).1 (hq'.trans hq.symm)
    omega
  unfold labelledCell
  simp only
  rw [hlab]
  have hfind : ((ks.flatMap fun k => ["mass", "volume", "area"].map fun i => k ++ "_" ++ i).mapIdx fun i l =>
        (l, (comp.map fun e => e.2.flatMap fun r => Sens.entries r.2).map fun v => (v[i]?).getD none)).find? (fun r => decide (r.1 = c ++ "_" ++ q)) =
      some (c ++ "_" ++ q, (comp.map fun e => e.2.flatMap fun r => Sens.entries r.2).map fun v => (v[3 * k + i]?).getD none) := by
    rw [List.find?_eq_some_iff_getElem]
    obtain ⟨hlt, hge⟩ := List.getElem?_eq_some_iff.1 hat
    refine ⟨by simp, 3 * k + i, by simpa using hlt, ?_, fun j hj => ?_⟩
    · rw [List.getElem_mapIdx, hge]
    · have := hbefore j hj
      rw [List.getElem?_eq_getElem (hj.trans hlt)] at this
      simpa using this
  rw [hfind, Option.bind_some]
  unfold cell
  rw [List.map_map, get?_keys_zip, ht, Option.map_some]
  simp only [Function.comp]
  rw [getElem?_flatMap3 (fun r : String × Vec (Option ℝ) => Sens.entries r.2) (fun _ => rfl) i hi t k, hk1, Option.bind_some]
  simp only [Sens.entries, hw, Option.getD_some]

theorem property_cell (d : Dict String (Dict String (Option ℝ))) (ps : List String) (hps : ∀ e ∈ d, e.2.map Prod.fst = ps) (name : String)
    (t : Dict String (Option ℝ)) (ht : Dict.get? d name = some t) (k : String) (w : Option ℝ) (hk : Dict.get? t k = some w) (path : String) :
    labelledCell (.labelled path d.keys ((((d.head?.map fun e => e.2).getD []).map Prod.fst).map fun l =>
      (l, d.map fun e => (e.2.get? l).getD none))) k name = some w := by
  have hh : ((d.head?.map fun e => e.2).getD []).map Prod.fst = ps := by
    cases d with
    | nil => simp [Dict.get?] at ht
    | cons e d => exact hps e List.mem_cons_self
  have hkm : k ∈ ps := by
    rw [← hps _ (Dict.mem_of_get? ht)]
    exact List.mem_map.2 ⟨_, Dict.mem_of_get? hk, rfl⟩
  unfold labelledCell
  simp only
  rw [hh]
  have hfind : (ps.map fun l => (l, d.map fun e => (e.2.get? l).getD none)).find? (fun r => decide (r.1 = k)) =
      some (k, d.map fun e => (e.2.get? k).getD none) := by
    clear hh hps ht hk
    induction ps with
    | nil => simp at hkm
    | cons a ps ih =>
      by_cases e : a = k
      · subst e; simp
      · rw [List.map_cons, List.find?_cons_of_neg (by simpa using e)]
        exact ih (by
          rcases List.mem_cons.1 hkm with rfl | h
          · exact absurd rfl e
          · exact h)
  rw [hfind, Option.bind_some]
  unfold cell
  rw [get?_keys_zip, ht, Option.map_some]
  simp only [hk, Option.getD_some]

namespace Spec

/-- A quantity of the whole vehicle in the analysis kept with it, if no component has the label of the row of the whole vehicle. -/
def totalQty (f : Analysis → ℝ) (v : Veh) : Option ℝ :=
  v.analysis.bind fun a => if "vehicle" ∈ Dict.keys a.components then none else some (f a)

end Spec

theorem suffix_ne (n m a b : String) (ha : a.toList.getLast? ≠ b.toList.getLast?) (ha0 : a.toList ≠ []) (hb0 : b.toList ≠ []) : n ++ a ≠ m ++ b := by
  intro h
  have := congrArg (fun s : String => s.toList.getLast?) h
  simp only [String.toList_append, List.getLast?_append_of_ne_nil _ ha0, List.getLast?_append_of_ne_nil _ hb0] at this
  exact ha this

theorem cog_moi_ne (n m : String) : n ++ "_cog_sensitivity.txt" ≠ m ++ "_moi_sensitivity.txt" := by
  intro h
  have := congrArg String.toList h
  rw [String.toList_append, String.toList_append] at this
  have h2 := (List.append_inj_right' this (by decide))
  revert h2
  decide

theorem suffix_cancel {n m a : String} (h : n ++ a = m ++ a) : n = m := by
  have := congrArg String.toList h
  rw [String.toList_append, String.toList_append, List.append_cancel_right_eq] at this
  exact String.toList_injective this

section
variable {self self' : Study} {ctor : Ctor} {lib : Lib} {depth : ℕ} {run run' : Run} {l : List (String × ℝ)}
  {overrides : Dict String ParamVal} (hn : (l.map Prod.fst).Nodup) {p : ℝ} {write : Bool} {pre : Option String} {T : Tables}
  (h : dvdp self ctor lib depth run (numbers l) overrides p write pre = (.ok T, self', run'))
  (hl : ∀ e ∈ l, PlainName e.1) (hcp : PlainName self.combinedFn) (d : Dict String CTable) (hd : self'.componentSens = some d)
  (hpl : ∀ n ∈ d.keys, PlainName n)
include hn h hl hcp hd hpl

/-- The files of the centre of gravity and the inertia matrix. -/
theorem numbers_file (cwd : String) (outdir : Option String) (name : String) (ds : Dict String AnalysisSens) (hds : self'.scalarSens = some ds)
    (a : AnalysisSens) (ha : Dict.get? ds name = some a) :
    ∃ path evs, self'.toCsv cwd outdir = (.ok path, evs) ∧
      lastWrite evs (scalarFile (outdir.getD cwd) (name ++ "_cog_sensitivity.txt")) =
        some (.numbers (scalarFile (outdir.getD cwd) (name ++ "_cog_sensitivity.txt")) [a.cog.x, a.cog.y, a.cog.z]) ∧
      lastWrite evs (scalarFile (outdir.getD cwd) (name ++ "_moi_sensitivity.txt")) =
        some (.numbers (scalarFile (outdir.getD cwd) (name ++ "_moi_sensitivity.txt")) [a.moi 0 0, a.moi 0 1, a.moi 0 2, a.moi 1 0, a.moi 1 1,
          a.moi 1 2, a.moi 2 0, a.moi 2 1, a.moi 2 2]) := by
  obtain ⟨rs, ks, ps, e1, e2, e3, e4, e5, -, -⟩ := study_present hn h
  have hmem : (name, a) ∈ ds := Dict.mem_of_get? ha
  have hsub := present_keys (fun p => p.analysis.map Prod.fst) rs
  rw [hds] at e1
  cases e1
  rw [e5] at hsub
  have hnd := hsub.nodup hn
  have hplain : ∀ n ∈ (present rs fun p => p.analysis.map Prod.fst).map Prod.fst, PlainName n := by
    intro n hm
    obtain ⟨x, hx, rfl⟩ := List.mem_map.1 (hsub.subset hm)
    exact hl x hx
  have hne : (present rs fun p => p.analysis.map Prod.fst) ≠ [] := List.ne_nil_of_mem hmem
  have hnp : PlainName name := hplain name (List.mem_map.2 ⟨_, hmem, rfl⟩)
  have hu : ∀ q ∈ (present rs fun p => p.analysis.map Prod.fst), q.1 = name → q = (name, a) := by
    rintro ⟨q1, q2⟩ hq rfl
    have := Dict.get?_of_mem (d := present rs fun p => p.analysis.map Prod.fst) hnd hq
    rw [ha] at this
    cases this
    rfl
  have key : ∀ (suf : String) (L : AnalysisSens → List (Option ℝ)), PlainName suf →
      (suf = "_cog_sensitivity.txt" ∧ L = (fun a => [a.cog.x, a.cog.y, a.cog.z]) ∨
        suf = "_moi_sensitivity.txt" ∧ L = fun a => [a.moi 0 0, a.moi 0 1, a.moi 0 2, a.moi 1 0, a.moi 1 1, a.moi 1 2, a.moi 2 0, a.moi 2 1, a.moi 2 2]) →
      ∃ path evs, self'.toCsv cwd outdir = (.ok path, evs) ∧
        lastWrite evs (scalarFile (outdir.getD cwd) (name ++ suf)) = some (.numbers (scalarFile (outdir.getD cwd) (name ++ suf)) (L a)) := by
    intro suf L hsp hcase
    have hb : (name ++ suf).toList.head? ≠ some '/' := plain_join_head hnp hsp.head
    refine scalar_write self' cwd outdir d hd hpl (by rw [e4]; exact hcp) (name ++ suf) hb _ rfl ?_ ?_
    · refine List.mem_append_left _ ?_
      rw [hds]
      unfold scalarEvents
      simp only [Option.getD_some]
      rw [if_neg hne]
      refine List.mem_append_right _ (List.mem_flatMap.2 ⟨_, hmem, ?_⟩)
      rcases hcase with ⟨rfl, rfl⟩ | ⟨rfl, rfl⟩ <;> simp [List.finRange, scalarFile, Sens.entries]
    · intro e' he' hf
      have hvm : filePath e' ≠ some (scalarFile (outdir.getD cwd) "volmass_sensitivity.csv") := by
        intro hh
        rw [hf, Option.some.injEq] at hh
        have := pathJoin_inj hb (by decide) hh
        refine suffix_ne name "" suf "volmass_sensitivity.csv" ?_ ?_ ?_ (by rw [this]; rfl) <;>
          rcases hcase with ⟨rfl, -⟩ | ⟨rfl, -⟩ <;> decide
      have hpm : filePath e' ≠ some (scalarFile (outdir.getD cwd) "property_sensitivity.csv") := by
        intro hh
        rw [hf, Option.some.injEq] at hh
        have := pathJoin_inj hb (by decide) hh
        refine suffix_ne name "" suf "property_sensitivity.csv" ?_ ?_ ?_ (by rw [this]; rfl) <;>
          rcases hcase with ⟨rfl, -⟩ | ⟨rfl, -⟩ <;> decide
      rcases List.mem_append.1 he' with he' | he'
      · obtain ⟨-, hx | ⟨-, hx⟩ | ⟨q, hq, hx⟩⟩ := mem_scalarEvents he'
        · rw [hf] at hx; cases hx
        · exact absurd hx hvm
        · rw [hds] at hq
          have hqp : PlainName q.1 := hplain q.1 (List.mem_map.2 ⟨q, hq, rfl⟩)
          rcases hx with rfl | rfl <;> simp only [filePath, Option.some.injEq] at hf
          · have hnm := pathJoin_inj (plain_join_head hqp (by decide)) hb hf
            rcases hcase with ⟨rfl, rfl⟩ | ⟨rfl, rfl⟩
            · obtain rfl := hu q hq (suffix_cancel hnm)
              rfl
            · exact absurd hnm (cog_moi_ne _ _)
          · have hnm := pathJoin_inj (plain_join_head hqp (by decide)) hb hf
            rcases hcase with ⟨rfl, rfl⟩ | ⟨rfl, rfl⟩
            · exact absurd hnm.symm (cog_moi_ne _ _)
            · obtain rfl := hu q hq (suffix_cancel hnm)
              rfl
      · rcases mem_propertySensEvents he' with hx | hx
        · rw [hf] at hx; cases hx
        · exact absurd hx hpm
  obtain ⟨path, evs, k1, k2⟩ := key "_cog_sensitivity.txt" _ (by unfold PlainName; decide) (.inl ⟨rfl, rfl⟩)
  obtain ⟨path', evs', k3, k4⟩ := key "_moi_sensitivity.txt" _ (by unfold PlainName; decide) (.inr ⟨rfl, rfl⟩)
  rw [k1] at k3
  cases k3
  exact ⟨path, evs, k1, k2, k4⟩

/-- The files of volumes, masses and areas, and of the properties. -/
theorem tables_file (cwd : String) (outdir : Option String) (dc : Dict String (List (String × Vec (Option ℝ))))
    (hdc : self'.componentScalarSens = some dc) (dp : Dict String (Dict String (Option ℝ))) (hdp : self'.propertySens = some dp) :
    ∃ path evs, self'.toCsv cwd outdir = (.ok path, evs) ∧
      (∀ name t, Dict.get? dc name = some t → ∃ f, lastWrite evs (scalarFile (outdir.getD cwd) "volmass_sensitivity.csv") = some f ∧
        ∀ c s, Dict.get? t c = some s → labelledCell f (c ++ "_mass") name = some s.x ∧ labelledCell f (c ++ "_volume") name = some s.y ∧
          labelledCell f (c ++ "_area") name = some s.z) ∧
      ∀ name t, Dict.get? dp name = some t → ∃ f, lastWrite evs (scalarFile (outdir.getD cwd) "property_sensitivity.csv") = some f ∧
        ∀ k w, Dict.get? t k = some w → labelledCell f k name = some w := by
  obtain ⟨rs, ks, ps, e1, e2, e3, e4, e5, e6, e7⟩ := study_present hn h
  rw [hdc] at e2
  rw [hdp] at e3
  cases e2
  cases e3
  have hsub := present_keys (fun p => p.analysis.map Prod.fst) rs
  rw [e5] at hsub
  have hplain : ∀ n ∈ (present rs fun p => p.analysis.map Prod.fst).map Prod.fst, PlainName n := by
    intro n hm
    obtain ⟨x, hx, rfl⟩ := List.mem_map.1 (hsub.subset hm)
    exact hl x hx
  have hno : ∀ (b suf : String) (q : String × AnalysisSens), q ∈ (present rs fun p => p.analysis.map Prod.fst) → b.toList.getLast? = some 'v' →
      b.toList.head? ≠ some '/' → suf.toList.getLast? = some 't' → PlainName suf →
      scalarFile (outdir.getD cwd) (q.1 ++ suf) ≠ scalarFile (outdir.getD cwd) b := by
    intro b suf q hq hb1 hb2 hs1 hs2 hh
    have hqp : PlainName q.1 := hplain q.1 (List.mem_map.2 ⟨q, hq, rfl⟩)
    have := pathJoin_inj (plain_join_head hqp hs2.head) hb2 hh
    exact suffix_ne q.1 "" suf b (by rw [hb1, hs1]; decide) (fun h0 => by rw [h0] at hs1; cases hs1) (fun h0 => by rw [h0] at hb1; cases hb1)
      (by rw [this]; simp)
  have hother : ∀ (b : String), b.toList.getLast? = some 'v' → b.toList.head? ≠ some '/' →
      ∀ e' ∈ scalarEvents (outdir.getD cwd) (self'.scalarSens.getD []) (self'.componentScalarSens.getD []),
        filePath e' = some (scalarFile (outdir.getD cwd) b) → filePath e' = some (scalarFile (outdir.getD cwd) "volmass_sensitivity.csv") := by
    intro b hb1 hb2 e' he' hf
    obtain ⟨-, hx | ⟨-, hx⟩ | ⟨q, hq, hx⟩⟩ := mem_scalarEvents he'
    · rw [hf] at hx; cases hx
    · exact hx
    · rw [e1, Option.getD_some] at hq
      rcases hx with rfl | rfl <;> simp only [filePath, Option.some.injEq] at hf
      · exact absurd hf (hno b _ q hq hb1 hb2 (by decide) (by unfold PlainName; decide))
      · exact absurd hf (hno b _ q hq hb1 hb2 (by decide) (by unfold PlainName; decide))
  have hvp : scalarFile (outdir.getD cwd) "volmass_sensitivity.csv" ≠ scalarFile (outdir.getD cwd) "property_sensitivity.csv" := fun hh =>
    absurd (pathJoin_inj (by decide) (by decide) hh) (by decide)
  have hcsv := hd
  obtain ⟨path, evs, hte⟩ : ∃ path evs, self'.toCsv cwd outdir = (.ok path, evs) := by
    unfold Study.toCsv
    rw [hd]
    exact ⟨_, _, rfl⟩
  refine ⟨path, evs, hte, fun name t ht => ?_, fun name t ht => ?_⟩
  · have hmem := Dict.mem_of_get? ht
    have hne : (present rs fun p => p.analysis.map Prod.fst) ≠ [] := by
      intro h0
      obtain ⟨y, hy, ey⟩ := List.mem_filterMap.1 hmem
      rw [Option.map_eq_some_iff] at ey
      obtain ⟨z, hz, -⟩ := ey
      obtain ⟨u, hu, -⟩ := Option.map_eq_some_iff.1 hz
      have : (y.1, u.1) ∈ (present rs fun p => p.analysis.map Prod.fst) :=
        List.mem_filterMap.2 ⟨y, hy, by beta_reduce; rw [hu]; rfl⟩
      rw [h0] at this
      simp at this
    have hks : ∀ e ∈ (present rs fun p => p.analysis.map Prod.snd), e.2.map Prod.fst = ks := by
      intro e he
      obtain ⟨y, hy, ey⟩ := List.mem_filterMap.1 he
      rw [Option.map_eq_some_iff] at ey
      obtain ⟨z, hz, rfl⟩ := ey
      obtain ⟨u, hu, rfl⟩ := Option.map_eq_some_iff.1 hz
      exact e6 y hy u.1 u.2 hu
    obtain ⟨path', evs', k1, k2⟩ := scalar_write self' cwd outdir d hd hpl (by rw [e4]; exact hcp) "volmass_sensitivity.csv" (by decide)
      (.labelled (scalarFile (outdir.getD cwd) "volmass_sensitivity.csv") (Dict.keys (present rs fun p => p.analysis.map Prod.snd))
        (((((present rs fun p => p.analysis.map Prod.snd).getLast?.map fun e => e.2).getD []).flatMap fun r =>
          ["mass", "volume", "area"].map fun i => r.1 ++ "_" ++ i).mapIdx fun i l =>
            (l, ((present rs fun p => p.analysis.map Prod.snd).map fun e => e.2.flatMap fun r => Sens.entries r.2).map fun v => (v[i]?).getD none))) rfl
      (List.mem_append_left _ (by
        rw [e1, hdc]
        unfold scalarEvents
        simp only [Option.getD_some]
        rw [if_neg hne]
        exact List.mem_append_left _ (List.mem_cons_of_mem _ List.mem_cons_self)))
      (by
        intro e' he' hf
        rcases List.mem_append.1 he' with he' | he'
        · rw [e1, hdc] at he'
          unfold scalarEvents at he'
          simp only [Option.getD_some] at he'
          rw [if_neg hne] at he'
          rcases List.mem_append.1 he' with he' | he'
          · simp only [List.mem_cons, List.not_mem_nil, or_false] at he'
            rcases he' with rfl | rfl
            · cases hf
            · rfl
          · obtain ⟨q, hq, he'⟩ := List.mem_flatMap.1 he'
            simp only [List.mem_cons, List.not_mem_nil, or_false] at he'
            rcases he' with rfl | rfl <;> simp only [filePath, Option.some.injEq] at hf
            · exact absurd hf (hno _ _ q hq (by decide) (by decide) (by decide) (by unfold PlainName; decide))
            · exact absurd hf (hno _ _ q hq (by decide) (by decide) (by decide) (by unfold PlainName; decide))
        · rcases mem_propertySensEvents he' with hx | hx
          · rw [hf] at hx; cases hx
          · rw [hf, Option.some.injEq] at hx
            exact absurd hx hvp)
    rw [hte] at k1
    cases k1
    refine ⟨_, k2, fun c s hs => ?_⟩
    have hcell := volmass_cell _ ks hks name t ht c s hs (scalarFile (outdir.getD cwd) "volmass_sensitivity.csv")
    have r1 := hcell 0 (by norm_num) "mass" rfl s.x rfl
    have r2 := hcell 1 (by norm_num) "volume" rfl s.y rfl
    have r3 := hcell 2 (by norm_num) "area" rfl s.z rfl
    have as : ∀ q : String, c ++ "_" ++ q = c ++ ("_" ++ q) := fun q => String.append_assoc
    rw [as] at r1 r2 r3
    exact ⟨r1, r2, r3⟩
  · have hmem := Dict.mem_of_get? ht
    have hne : (present rs PSens.properties) ≠ [] := List.ne_nil_of_mem hmem
    have hps : ∀ e ∈ present rs PSens.properties, e.2.map Prod.fst = ps := by
      intro e he
      obtain ⟨y, hy, ey⟩ := List.mem_filterMap.1 he
      rw [Option.map_eq_some_iff] at ey
      obtain ⟨z, hz, rfl⟩ := ey
      exact e7 y hy z hz
    obtain ⟨path', evs', k1, k2⟩ := scalar_write self' cwd outdir d hd hpl (by rw [e4]; exact hcp) "property_sensitivity.csv" (by decide)
      (.labelled (scalarFile (outdir.getD cwd) "property_sensitivity.csv") (Dict.keys (present rs PSens.properties))
        (((((present rs PSens.properties).head?.map fun e => e.2).getD []).map Prod.fst).map fun l =>
          (l, (present rs PSens.properties).map fun e => (e.2.get? l).getD none))) rfl
      (List.mem_append_right _ (by
        rw [hdp]
        unfold propertySensEvents
        simp only [Option.getD_some]
        rw [if_neg hne]
        exact List.mem_cons_of_mem _ List.mem_cons_self))
      (by
        intro e' he' hf
        rcases List.mem_append.1 he' with he' | he'
        · have := hother _ (by decide) (by decide) e' he' hf
          rw [hf, Option.some.injEq] at this
          exact absurd this.symm hvp
        · rw [hdp] at he'
          unfold propertySensEvents at he'
          simp only [Option.getD_some] at he'
          rw [if_neg hne] at he'
          simp only [List.mem_cons, List.not_mem_nil, or_false] at he'
          rcases he' with rfl | rfl
          · cases hf
          · rfl)
    rw [hte] at k1
    cases k1
    exact ⟨_, k2, fun k w hk => property_cell _ ps hps name t ht k w hk _⟩

variable (name : String) (v : ℝ) (he : (name, v) ∈ l) (hv : v ≠ 0) (hp : p ≠ 0) (cwd : String) (outdir : Option String)
include he hv hp

/-- C161, centre of gravity: if its coordinates depend affinely on a parameter, the file of the parameter holds their slopes. -/
theorem C161_centre (βx βy βz : ℝ)
    (hx : AffineQty ctor lib depth (kwWith run.store (numbers l) overrides name) (fun w => w.analysisResults.bind fun a => a.cog.map Vec.x) βx)
    (hy : AffineQty ctor lib depth (kwWith run.store (numbers l) overrides name) (fun w => w.analysisResults.bind fun a => a.cog.map Vec.y) βy)
    (hz : AffineQty ctor lib depth (kwWith run.store (numbers l) overrides name) (fun w => w.analysisResults.bind fun a => a.cog.map Vec.z) βz) :
    ∃ path evs, self'.toCsv cwd outdir = (.ok path, evs) ∧
      lastWrite evs (scalarFile (outdir.getD cwd) (name ++ "_cog_sensitivity.txt")) =
        some (.numbers (scalarFile (outdir.getD cwd) (name ++ "_cog_sensitivity.txt")) [some βx, some βy, some βz]) := by
  obtain ⟨-, -, k1, k2, k3, -⟩ := C82_analysis hn h name v he hv hp
  obtain ⟨ds, a, d1, d2, d3⟩ := k1 βx hx
  obtain ⟨ds', a', d1', d2', d4⟩ := k2 βy hy
  rw [d1] at d1'; cases d1'
  rw [d2] at d2'; cases d2'
  obtain ⟨ds', a', d1', d2', d5⟩ := k3 βz hz
  rw [d1] at d1'; cases d1'
  rw [d2] at d2'; cases d2'
  obtain ⟨path, evs, e1, e2, -⟩ := numbers_file hn h hl hcp d hd hpl cwd outdir name ds d1 a d2
  rw [d3, d4, d5] at e2
  exact ⟨path, evs, e1, e2⟩

/-- C161, inertia: if the entries of the inertia matrix depend affinely on a parameter, the file of the parameter holds their slopes, row
by row. -/
theorem C161_inertia (B : Fin 3 → Fin 3 → ℝ)
    (hB : ∀ i j, AffineQty ctor lib depth (kwWith run.store (numbers l) overrides name)
      (fun w => w.analysisResults.bind fun a => a.moi.map fun m => m i j) (B i j)) :
    ∃ path evs, self'.toCsv cwd outdir = (.ok path, evs) ∧
      lastWrite evs (scalarFile (outdir.getD cwd) (name ++ "_moi_sensitivity.txt")) =
        some (.numbers (scalarFile (outdir.getD cwd) (name ++ "_moi_sensitivity.txt"))
          [some (B 0 0), some (B 0 1), some (B 0 2), some (B 1 0), some (B 1 1), some (B 1 2), some (B 2 0), some (B 2 1), some (B 2 2)]) := by
  obtain ⟨-, -, -, -, -, k⟩ := C82_analysis hn h name v he hv hp
  obtain ⟨ds, a, d1, d2, -⟩ := k 0 0 _ (hB 0 0)
  have hall : ∀ i j, a.moi i j = some (B i j) := by
    intro i j
    obtain ⟨ds', a', d1', d2', d3⟩ := k i j _ (hB i j)
    rw [d1] at d1'; cases d1'
    rw [d2] at d2'; cases d2'
    exact d3
  obtain ⟨path, evs, e1, -, e2⟩ := numbers_file hn h hl hcp d hd hpl cwd outdir name ds d1 a d2
  simp only [hall] at e2
  exact ⟨path, evs, e1, e2⟩

/-- C161, components: if mass, volume and area of a component depend affinely on a parameter, the table of volumes and masses has their
slopes in the column of the parameter and the rows `{component}_mass`, `{component}_volume` and `{component}_area`. -/
theorem C161_component (c : String) (βm βv βa : ℝ)
    (hres : ∀ q i, Built ctor lib depth (kwWith run.store (numbers l) overrides name q) i → i.st.veh.analysisResults ≠ none)
    (hm : AffineQty ctor lib depth (kwWith run.store (numbers l) overrides name) (compQty (fun q => q.props.mass) c) βm)
    (hvol : AffineQty ctor lib depth (kwWith run.store (numbers l) overrides name) (compQty (fun q => q.props.volume) c) βv)
    (ha : AffineQty ctor lib depth (kwWith run.store (numbers l) overrides name) (compQty CompProps.area c) βa) :
    ∃ path evs f, self'.toCsv cwd outdir = (.ok path, evs) ∧
      lastWrite evs (scalarFile (outdir.getD cwd) "volmass_sensitivity.csv") = some f ∧ labelledCell f (c ++ "_mass") name = some (some βm) ∧
      labelledCell f (c ++ "_volume") name = some (some βv) ∧ labelledCell f (c ++ "_area") name = some (some βa) := by
  obtain ⟨dc, t, d1, d2, d3⟩ := C82_components hn h name v he hv hp c βm βv βa hres hm hvol ha
  obtain ⟨rs, ks, ps, -, -, e3, -, -, -, -⟩ := study_present hn h
  obtain ⟨path, evs, q1, q2, -⟩ := tables_file hn h hl hcp d hd hpl cwd outdir dc d1 _ e3
  obtain ⟨f, f1, f2⟩ := q2 name t d2
  exact ⟨path, evs, f, q1, f1, f2 c _ d3⟩

/-- C161, the vehicle: likewise for the totals, in the rows `vehicle_mass`, `vehicle_volume` and `vehicle_area`, unless a component is named
"vehicle". -/
theorem C161_vehicle (βm βv βa : ℝ)
    (hres : ∀ q i, Built ctor lib depth (kwWith run.store (numbers l) overrides name q) i → i.st.veh.analysisResults ≠ none)
    (hm : AffineQty ctor lib depth (kwWith run.store (numbers l) overrides name) (totalQty Analysis.mass) βm)
    (hvol : AffineQty ctor lib depth (kwWith run.store (numbers l) overrides name) (totalQty Analysis.volume) βv)
    (ha : AffineQty ctor lib depth (kwWith run.store (numbers l) overrides name) (totalQty Analysis.area) βa) :
    ∃ path evs f, self'.toCsv cwd outdir = (.ok path, evs) ∧
      lastWrite evs (scalarFile (outdir.getD cwd) "volmass_sensitivity.csv") = some f ∧ labelledCell f "vehicle_mass" name = some (some βm) ∧
      labelledCell f "vehicle_volume" name = some (some βv) ∧ labelledCell f "vehicle_area" name = some (some βa) := by
  obtain ⟨nom, par, ds, dc, dp', b1, b2, e1, e2, e3, a1, -⟩ := study_scalars hn h name v he
  have hdp := perturbed_ne hv hp
  obtain ⟨α1, h1⟩ := hm
  obtain ⟨α2, h2⟩ := hvol
  obtain ⟨α3, h3⟩ := ha
  unfold analysisStep at a1
  rcases hx : nom.st.veh.analysisResults with _ | x
  · exact absurd hx (hres _ _ b1)
  rcases hy : par.st.veh.analysisResults with _ | y
  · exact absurd hy (hres _ _ b2)
  simp only [hx, hy] at a1
  simp only [Except.ok.injEq] at a1
  rcases hds : Dict.get? ds name with _ | s
  · rw [hds] at a1; simp at a1
  rcases hdc : Dict.get? dc name with _ | t
  · rw [hds, hdc] at a1; simp at a1
  rw [hds, hdc] at a1
  simp only [Option.bind_some, Option.map_some, Option.some.injEq, Prod.mk.injEq] at a1
  have row : ∀ w : Veh, ∀ q m u r, totalQty Analysis.mass w = some m → totalQty Analysis.volume w = some u →
      totalQty Analysis.area w = some r → Dict.get? (volmass (w.analysis.getD q)) "vehicle" = some ⟨m, u, r⟩ := by
    intro w q m u r k1 k2 k3
    unfold totalQty at k1 k2 k3
    rcases hw : w.analysis with _ | a
    · simp [hw] at k1
    simp only [hw, Option.bind_some] at k1 k2 k3
    split_ifs at k1 k2 k3 with hk
    simp only [Option.some.injEq] at k1 k2 k3
    subst k1 k2 k3
    simp only [Option.getD_some, volmass]
    have : ∀ (L : List (String × CompProps)) (R : Vec ℝ), "vehicle" ∉ Dict.keys L →
        Dict.get? (L.map (fun q => (q.1, (⟨q.2.props.mass, q.2.props.volume, q.2.area⟩ : Vec ℝ))) ++ [("vehicle", R)]) "vehicle" = some R := by
      intro L R
      induction L with
      | nil => intro _; simp [Dict.get?]
      | cons k L ih =>
        intro hL
        simp only [Dict.keys, List.map_cons, List.mem_cons, not_or] at hL
        simp only [Dict.get?, List.map_cons, List.cons_append]
        rw [if_neg (fun e => hL.1 e.symm)]
        exact ih hL.2
    exact this _ _ hk
  have r1 := row nom.st.veh x _ _ _ (h1 _ _ b1) (h2 _ _ b1) (h3 _ _ b1)
  have r2 := row par.st.veh y _ _ _ (h1 _ _ b2) (h2 _ _ b2) (h3 _ _ b2)
  have d3 : Dict.get? t "vehicle" = some ⟨some βm, some βv, some βa⟩ := by
    rw [← a1.2]
    unfold volmassDiff
    have := Dict.get?_mapVals (fun k (e : Vec ℝ) => match Dict.get? (volmass (par.st.veh.analysis.getD y)) k with
      | some v' => quotV (v' - e) (.num (v * (1 + p / 100) - v))
      | none => nan3) (volmass (nom.st.veh.analysis.getD x)) "vehicle"
    rw [r1, Option.map_some] at this
    refine Eq.trans this ?_
    simp only [r2, quotV, Vec.sub_x, Vec.sub_y, Vec.sub_z, quot_affine _ _ _ _ hdp]
  obtain ⟨path, evs, q1, q2, -⟩ := tables_file hn h hl hcp d hd hpl cwd outdir dc e2 _ e3
  obtain ⟨f, f1, f2⟩ := q2 name t hdc
  exact ⟨path, evs, f, q1, f1, f2 "vehicle" _ d3⟩

/-- C161, properties: a property that depends affinely on a parameter has its slope in the row of the property and the column of the
parameter. -/
theorem C161_property (k : String) (β : ℝ)
    (ha : AffineQty ctor lib depth (kwWith run.store (numbers l) overrides name) (fun w => w.properties.get? k) β) :
    ∃ path evs f, self'.toCsv cwd outdir = (.ok path, evs) ∧
      lastWrite evs (scalarFile (outdir.getD cwd) "property_sensitivity.csv") = some f ∧ labelledCell f k name = some (some β) := by
  obtain ⟨dp, t, d1, d2, d3⟩ := C82_properties hn h name v he hv hp k β ha
  obtain ⟨rs, ks, ps, -, e2, -, -, -, -, -⟩ := study_present hn h
  obtain ⟨path, evs, q1, -, q2⟩ := tables_file hn h hl hcp d hd hpl cwd outdir _ e2 dp d1
  obtain ⟨f, f1, f2⟩ := q2 name t d2
  exact ⟨path, evs, f, q1, f1, f2 k _ d3⟩

end

/-- The example of C82 meets the hypotheses: one parameter, one component, results and a property. -/
example (lib : Lib) : (∃ T self' run' d, dvdp {} lenCtor lib 1 { store := fun _ => [] } (numbers [("p", 2)]) [] 5 false none =
      (.ok T, self', run') ∧ self'.componentSens = some d ∧ ∀ n ∈ d.keys, PlainName n) ∧ PlainName "p" ∧ PlainName ({} : Study).combinedFn ∧
    AffineQty lenCtor lib 1 (kwWith (fun _ => []) (numbers [("p", 2)]) [] "p") (fun w => w.analysisResults.bind fun a => a.cog.map Vec.x) (1 / 2) ∧
    AffineQty lenCtor lib 1 (kwWith (fun _ => []) (numbers [("p", 2)]) [] "p") (totalQty Analysis.area) 5 := by
  refine ⟨?_, by unfold PlainName; decide, by unfold PlainName; decide, ⟨0, fun q i hi => ?_⟩, ⟨0, fun q i hi => ?_⟩⟩
  · simp only [dvdp, construct, kwargs, numbers, List.map_cons, List.map_nil, Dict.keys, ParamVal.val, lenCtor, Except.bind, len_prepare,
      writeNominal, study, scale, Dict.set, assess, analysisStep, propertyStep, compareAll, Study.finish, combine, bind, pure, Except.pure,
      List.mapM_nil, List.mapM_cons, Dict.get, Dict.get?, quotPy, lenArg]
    norm_num [Dict.get?, Functor.map, Except.map, pure, Except.pure]
    exact ⟨_, _, ⟨_, rfl⟩, _, rfl, by simp⟩
  · beta_reduce
    rw [(len_built lib _ i hi).1]
    simp [kwWith, numbers, lenArg, Dict.get?, lenAnalysis]
    ring
  · unfold totalQty
    rw [(len_built lib _ i hi).2.1]
    simp [kwWith, numbers, lenArg, Dict.get?, lenAnalysis, Dict.keys]

end HV
