import Verif.Props.SensCsv

/-!
# Appending sensitivities to `.tri` files: C86, C87, C88
-/

namespace HV
open Spec Sens

namespace Spec

/-- All three coordinates in the row are within the tolerance of the point. -/
def Within (tol : ℝ) (p : V) (r : List (Option ℝ)) : Prop :=
  ∃ x y z rest, r = some x :: some y :: some z :: rest ∧ |p.x - x| < tol ∧ |p.y - y| < tol ∧ |p.z - z| < tol

/-- Values below the tolerance are zero. -/
noncomputable def rounded (tol : ℝ) (v : Option ℝ) : Option ℝ :=
  match v with
  | some x => if |x| < tol then some 0 else some x
  | none => none

/-- The values of a point: those of the first row within the tolerance, rounded, or `n` zeros if there is none. -/
def ValuesOf (mtol rtol : ℝ) (rows : List (List (Option ℝ))) (n : ℕ) (p : V) (vals : List (Option ℝ)) : Prop :=
  (∃ (k : ℕ) (r : List (Option ℝ)), rows[k]? = some r ∧ Within mtol p r ∧ (∀ j < k, ∀ r', rows[j]? = some r' → ¬ Within mtol p r') ∧
    vals = (r.drop 3).map (rounded rtol)) ∨
  ((∀ r ∈ rows, ¬ Within mtol p r) ∧ vals = List.replicate n (some 0))

open Classical in
/-- The fraction of points with a row within the tolerance. -/
noncomputable def matchedFraction (mtol : ℝ) (rows : List (List (Option ℝ))) (pts : List V) : ℝ :=
  ((pts.filter fun p => ∃ r ∈ rows, Within mtol p r).length : ℝ) / pts.length

/-- The lines of a text, joined. -/
def joined (l : List String) : String := l.foldl (· ++ ·) ""

end Spec

theorem lookup_row (h : List String) (r : List (Option ℝ)) (hn : ("x" :: "y" :: "z" :: h).Nodup) (hl : r.length = h.length + 3) :
    ∃ a b c, r = a :: b :: c :: r.drop 3 ∧ (Dict.get? (("x" :: "y" :: "z" :: h).zip r) "x").getD none = a ∧
      (Dict.get? (("x" :: "y" :: "z" :: h).zip r) "y").getD none = b ∧
      (Dict.get? (("x" :: "y" :: "z" :: h).zip r) "z").getD none = c ∧
      (h.map fun c => (Dict.get? (("x" :: "y" :: "z" :: h).zip r) c).getD none) = r.drop 3 := by
  have := fill_self ("x" :: "y" :: "z" :: h) r hn (by simpa using hl)
  rcases r with _ | ⟨a, _ | ⟨b, _ | ⟨c, r⟩⟩⟩
  · simp at hl
  · simp at hl
  · simp at hl
  · simp only [List.map_cons, List.cons.injEq] at this
    exact ⟨a, b, c, rfl, this.1, this.2.1, this.2.2.1, this.2.2.2⟩

theorem near_within (tol : ℝ) (p : V) (a b c : Option ℝ) (rest : List (Option ℝ)) :
    (near tol p.x a && near tol p.y b && near tol p.z c) = true ↔ Within tol p (a :: b :: c :: rest) := by
  constructor
  · intro h
    simp only [Bool.and_eq_true] at h
    obtain ⟨⟨h1, h2⟩, h3⟩ := h
    rcases a with _ | a
    · simp [near] at h1
    rcases b with _ | b
    · simp [near] at h2
    rcases c with _ | c
    · simp [near] at h3
    exact ⟨a, b, c, rest, rfl, by simpa [near] using h1, by simpa [near] using h2, by simpa [near] using h3⟩
  · rintro ⟨x, y, z, r, he, h1, h2, h3⟩
    simp only [List.cons.injEq] at he
    obtain ⟨rfl, rfl, rfl, -⟩ := he
    simp [near, h1, h2, h3]

theorem roundOff_rounded (tol : ℝ) : roundOff tol = rounded tol := by
  funext v
  rcases v with _ | x
  · rfl
  · simp only [roundOff, rounded, Option.map_some]
    split <;> rfl

/-- A well-formed table of sensitivities. -/
structure Table (cols : List String) (rows : List (List (Option ℝ))) : Prop where
  nodup : ("x" :: "y" :: "z" :: cols).Nodup
  width : ∀ r ∈ rows, r.length = cols.length + 3

theorem firstMatch_rows {cols : List String} {rows : List (List (Option ℝ))} (ht : Table cols rows) (tol : ℝ) (p : V) :
    ∃ xs ys zs, (⟨"x" :: "y" :: "z" :: cols, rows⟩ : Csv).column "x" = .ok xs ∧
      (⟨"x" :: "y" :: "z" :: cols, rows⟩ : Csv).column "y" = .ok ys ∧ (⟨"x" :: "y" :: "z" :: cols, rows⟩ : Csv).column "z" = .ok zs ∧
      (∀ k, firstMatch tol xs ys zs p = some k ↔ ∃ r, rows[k]? = some r ∧ Within tol p r ∧
        ∀ j < k, ∀ r', rows[j]? = some r' → ¬ Within tol p r') ∧
      (firstMatch tol xs ys zs p = none ↔ ∀ r ∈ rows, ¬ Within tol p r) := by
  let f := fun (c : String) (r : List (Option ℝ)) => (Dict.get? (("x" :: "y" :: "z" :: cols).zip r) c).getD none
  have hcol : ∀ c ∈ ["x", "y", "z"], (⟨"x" :: "y" :: "z" :: cols, rows⟩ : Csv).column c = .ok (rows.map (f c)) := by
    intro c hc
    unfold Csv.column
    rw [if_pos]
    simp only [List.mem_cons, List.not_mem_nil, or_false] at hc ⊢
    tauto
  refine ⟨_, _, _, hcol "x" (by simp), hcol "y" (by simp), hcol "z" (by simp), ?_⟩
  have hzip : (rows.map (f "x")).zip ((rows.map (f "y")).zip (rows.map (f "z"))) = rows.map fun r => (f "x" r, f "y" r, f "z" r) := by
    rw [List.zip_map', List.zip_map']
  have hpred : ∀ r ∈ rows, (near tol p.x (f "x" r) && near tol p.y (f "y" r) && near tol p.z (f "z" r)) = true ↔ Within tol p r := by
    intro r hr
    obtain ⟨a, b, c, e, h1, h2, h3, -⟩ := lookup_row cols r ht.nodup (ht.width r hr)
    simp only [f, h1, h2, h3]
    rw [near_within tol p a b c (r.drop 3), ← e]
  have hfi : firstMatch tol (rows.map (f "x")) (rows.map (f "y")) (rows.map (f "z")) p =
      rows.findIdx? fun r => near tol p.x (f "x" r) && near tol p.y (f "y" r) && near tol p.z (f "z" r) := by
    unfold firstMatch
    rw [hzip, List.findIdx?_map]
    rfl
  rw [hfi]
  constructor
  · intro k
    rw [List.findIdx?_eq_some_iff_getElem]
    constructor
    · rintro ⟨hk, h1, h2⟩
      refine ⟨rows[k], List.getElem?_eq_getElem hk, (hpred _ (List.getElem_mem _)).1 h1, fun j hj r' hr' hw => ?_⟩
      have hj' : j < rows.length := by omega
      rw [List.getElem?_eq_getElem hj'] at hr'
      cases hr'
      exact h2 j hj ((hpred _ (List.getElem_mem _)).2 hw)
    · rintro ⟨r, hr, h1, h2⟩
      obtain ⟨hk, rfl⟩ := List.getElem?_eq_some_iff.1 hr
      refine ⟨hk, (hpred _ (List.getElem_mem _)).2 h1, fun j hj hc => ?_⟩
      have hj' : j < rows.length := by omega
      exact h2 j hj rows[j] (List.getElem?_eq_getElem hj') ((hpred _ (List.getElem_mem _)).1 hc)
  · rw [List.findIdx?_eq_none_iff]
    constructor
    · intro h r hr hw
      have h1 := h r hr
      have h2 := (hpred r hr).2 hw
      rw [h1] at h2
      cases h2
    · intro h r hr
      by_contra hc
      exact h r hr ((hpred r hr).1 (Bool.not_eq_false _ ▸ hc))

theorem valuesOf_exists (mtol rtol : ℝ) (rows : List (List (Option ℝ))) (n : ℕ) (p : V) :
    ∃ vals, ValuesOf mtol rtol rows n p vals := by
  classical
  by_cases h : ∃ k : ℕ, ∃ r, rows[k]? = some r ∧ Within mtol p r
  · obtain ⟨r, h1, h2⟩ := Nat.find_spec h
    exact ⟨_, .inl ⟨Nat.find h, r, h1, h2, fun j hj r' hr' hw => Nat.find_min h hj ⟨r', hr', hw⟩, rfl⟩⟩
  · refine ⟨_, .inr ⟨fun r hr hw => h ?_, rfl⟩⟩
    obtain ⟨k, hk⟩ := List.getElem?_of_mem hr
    exact ⟨k, r, hk, hw⟩

theorem pushZeros_matched (fmt : Option ℝ → String) (n : ℕ) (d : Dict String String) (h : 3 * d.length ≤ n) :
    pushZeros fmt d = pushMatched fmt (List.replicate n (some 0)) d := by
  unfold pushZeros pushMatched
  apply List.ext_getElem (by simp)
  intro i h1 h2
  have hi : i < d.length := by simpa using h1
  simp only [List.getElem_map, List.getElem_mapIdx]
  rw [List.getElem?_replicate, List.getElem?_replicate, List.getElem?_replicate, if_pos (by omega), if_pos (by omega), if_pos (by omega)]
  rfl

open Classical in
/-- One point. -/
theorem matchPoint_spec (fmt : Option ℝ → String) {cols : List String} {rows : List (List (Option ℝ))} (ht : Table cols rows)
    (mtol rtol : ℝ) (a : Acc) (p : V) (ha : 3 * a.data.length ≤ cols.length) : ∃ vals, ValuesOf mtol rtol rows cols.length p vals ∧
    matchPoint fmt ⟨"x" :: "y" :: "z" :: cols, rows⟩ cols mtol rtol a p =
      .ok ⟨a.all ++ [vals], pushMatched fmt vals a.data, a.matched + if ∃ r ∈ rows, Within mtol p r then 1 else 0⟩ := by
  obtain ⟨xs, ys, zs, h1, h2, h3, h4, h5⟩ := firstMatch_rows ht mtol p
  unfold matchPoint
  rw [h1, ok_bind, h2, ok_bind, h3, ok_bind]
  rcases hm : firstMatch mtol xs ys zs p with _ | k
  · have hno := h5.1 hm
    refine ⟨_, .inr ⟨hno, rfl⟩, ?_⟩
    simp only
    rw [if_neg (by rintro ⟨r, hr, hw⟩; exact hno r hr hw), pure_eq, pushZeros_matched fmt cols.length a.data ha]
    simp
  · obtain ⟨r, g1, g2, g3⟩ := (h4 k).1 hm
    have hr : r ∈ rows := List.mem_of_getElem? g1
    obtain ⟨x, y, z, e, -, -, -, e4⟩ := lookup_row cols r ht.nodup (ht.width r hr)
    refine ⟨_, .inl ⟨k, r, g1, g2, g3, rfl⟩, ?_⟩
    simp only
    rw [if_pos ⟨r, hr, g2⟩, pure_eq]
    have hv : paramValues ⟨"x" :: "y" :: "z" :: cols, rows⟩ cols k = r.drop 3 := by
      unfold paramValues
      simp only [g1, Option.getD_some]
      exact e4
    rw [hv, roundOff_rounded]

/-- The line of a point in the array of the `k`-th parameter. -/
def triLine (fmt : Option ℝ → String) (k : ℕ) (vals : List (Option ℝ)) : String :=
  dataLine fmt ((vals[3 * k]?).getD none) ((vals[1 + 3 * k]?).getD none) ((vals[2 + 3 * k]?).getD none)

theorem joined_cons_aux (l : List String) (a : String) : l.foldl (· ++ ·) a = a ++ joined l := by
  unfold joined
  induction l generalizing a with
  | nil => simp
  | cons b l ih => simp only [List.foldl_cons]; rw [ih, ih ("" ++ b)]; simp [String.append_assoc]

theorem joined_cons (a : String) (l : List String) : joined (a :: l) = a ++ joined l := by
  conv_lhs => unfold joined
  rw [List.foldl_cons, joined_cons_aux]
  simp

open Classical in
/-- All points. -/
theorem matchAll_spec (fmt : Option ℝ → String) {cols : List String} {rows : List (List (Option ℝ))} (ht : Table cols rows)
    (mtol rtol : ℝ) (pts : List V) : ∀ a : Acc, 3 * a.data.length ≤ cols.length → ∃ vals,
    List.Forall₂ (ValuesOf mtol rtol rows cols.length) pts vals ∧
    pts.foldlM (matchPoint fmt ⟨"x" :: "y" :: "z" :: cols, rows⟩ cols mtol rtol) a =
      .ok ⟨a.all ++ vals, a.data.mapIdx fun k e => (e.1, e.2 ++ joined (vals.map (triLine fmt k))),
        a.matched + (pts.filter fun p => decide (∃ r ∈ rows, Within mtol p r)).length⟩ := by
  induction pts with
  | nil =>
    intro a _
    refine ⟨[], .nil, ?_⟩
    have : (a.data.mapIdx fun k e => (e.1, e.2 ++ joined (([] : List (List (Option ℝ))).map (triLine fmt k)))) = a.data := by
      apply List.ext_getElem (by simp)
      intro i h1 h2
      simp [joined]
    rw [this]
    simp [pure_eq]
  | cons p pts ih =>
    intro a ha
    obtain ⟨v, hv, hp⟩ := matchPoint_spec fmt ht mtol rtol a p ha
    obtain ⟨vals, hvs, hps⟩ := ih ⟨a.all ++ [v], pushMatched fmt v a.data, a.matched + if ∃ r ∈ rows, Within mtol p r then 1 else 0⟩
      (by simpa [pushMatched] using ha)
    refine ⟨v :: vals, .cons hv hvs, ?_⟩
    rw [List.foldlM_cons, hp, ok_bind, hps]
    congr 1
    simp only [Acc.mk.injEq, List.append_assoc, List.singleton_append, true_and]
    constructor
    · apply List.ext_getElem (by simp [pushMatched])
      intro i h1 h2
      simp only [pushMatched, List.getElem_mapIdx, List.map_cons, joined_cons, triLine, String.append_assoc]
    · rw [List.filter_cons]
      by_cases hw : ∃ r ∈ rows, Within mtol p r
      · simp only [hw, if_true, decide_true, List.length_cons]; omega
      · simp only [hw, if_false, decide_false, Bool.false_eq_true, add_zero]

theorem readTables_same (fs : String → Res Csv) (h : List String) (hn : h.Nodup) (R : String → List (List (Option ℝ)))
    (files : List String) (hf : files ≠ []) (hfs : ∀ f ∈ files, fs f = .ok ⟨h, R f⟩)
    (hw : ∀ f ∈ files, ∀ r ∈ R f, r.length = h.length) : readTables fs files = .ok ⟨h, files.flatMap R⟩ := by
  unfold readTables
  rw [mapM_ok files fs (fun f => ⟨h, R f⟩) hfs, ok_bind, pure_eq]
  congr 1
  have key : ∀ (l : List String) (S : List (List (Option ℝ))), (∀ f ∈ l, ∀ r ∈ R f, r.length = h.length) →
      (∀ r ∈ S, r.length = h.length) → (l.map fun f => (⟨h, R f⟩ : Csv)).foldl Csv.append ⟨h, S⟩ = ⟨h, S ++ l.flatMap R⟩ := by
    intro l
    induction l with
    | nil => intro S _ _; simp
    | cons f l ih =>
      intro S hl hS
      rw [List.map_cons, List.foldl_cons, append_same h S _ hn hS (hl f List.mem_cons_self),
        ih _ (fun f hf => hl f (List.mem_cons_of_mem _ hf))]
      · simp
      · intro r hr
        rcases List.mem_append.1 hr with hr | hr
        · exact hS r hr
        · exact hl f List.mem_cons_self r hr
  rcases files with _ | ⟨f, files⟩
  · exact absurd rfl hf
  · rw [List.map_cons, List.foldl_cons, append_empty h _ hn (hw f List.mem_cons_self),
      key files _ (fun f hf => hw f (List.mem_cons_of_mem _ hf)) (hw f List.mem_cons_self)]
    simp

/-- The dictionary of empty data arrays. -/
theorem arrays_init (ps : List String) : ∀ d : Dict String String, (∀ e ∈ d, e.2 = "\n ") →
    let d' := d.setAll (ps.map fun p => (p, "\n "))
    (∀ e ∈ d', e.2 = "\n ") ∧ d'.length ≤ d.length + ps.length ∧ ∀ p ∈ ps, p ∈ d'.keys := by
  induction ps with
  | nil => intro d hd; exact ⟨hd, by simp, by simp⟩
  | cons p ps ih =>
    intro d hd
    have hset : (∀ e ∈ d.set p "\n ", e.2 = "\n ") ∧ (d.set p "\n ").length ≤ d.length + 1 := by
      clear ih
      induction d with
      | nil => simp [Dict.set]
      | cons e d ih =>
        unfold Dict.set
        split
        · refine ⟨fun x hx => ?_, by simp⟩
          rcases List.mem_cons.1 hx with rfl | hx
          · rfl
          · exact hd x (List.mem_cons_of_mem _ hx)
        · obtain ⟨i1, i2⟩ := ih fun x hx => hd x (List.mem_cons_of_mem _ hx)
          refine ⟨fun x hx => ?_, by simp only [List.length_cons]; omega⟩
          rcases List.mem_cons.1 hx with rfl | hx
          · exact hd _ List.mem_cons_self
          · exact i1 x hx
    obtain ⟨h1, h2, h3⟩ := ih (d.set p "\n ") hset.1
    intro d'
    have e : d' = (d.set p "\n ").setAll (ps.map fun p => (p, "\n ")) := rfl
    rw [e]
    refine ⟨h1, by simp only [List.length_cons] at *; have := hset.2; omega, fun q hq => ?_⟩
    rcases List.mem_cons.1 hq with rfl | hq
    · rw [Dict.mem_keys_setAll]
      left
      rw [Dict.mem_keys]
      exact ⟨_, Dict.mem_of_get? (by rw [Dict.get?_set, if_pos rfl])⟩
    · exact h3 q hq

theorem readPoints_ok (lines : List (List ℝ)) (pts : List V) (hp : pts ≠ [])
    (hl : lines.filter (fun l => !l.isEmpty) = pts.map fun p => [p.x, p.y, p.z]) : readPoints lines = .ok pts := by
  have key : ∀ (lines : List (List ℝ)) (pts : List V) (n : ℕ), n ≤ 3 →
      lines.filter (fun l => !l.isEmpty) = pts.map (fun p => [p.x, p.y, p.z]) →
      lines.foldl (fun n l => max n l.length) n = (if pts = [] then n else 3) ∧
      lines.filterMap (fun l => match l with | [x, y, z] => some (⟨x, y, z⟩ : V) | _ => none) = pts := by
    intro lines
    induction lines with
    | nil => intro pts n _ h; rcases pts with _ | ⟨p, pts⟩ <;> simp at h ⊢
    | cons l lines ih =>
      intro pts n hn h
      rcases l with _ | ⟨a, l⟩
      · rw [List.filter_cons_of_neg (by simp)] at h
        obtain ⟨h1, h2⟩ := ih pts n hn h
        refine ⟨by rw [List.foldl_cons]; simpa using h1, by rw [List.filterMap_cons]; exact h2⟩
      · rw [List.filter_cons_of_pos (by simp)] at h
        rcases pts with _ | ⟨p, pts⟩
        · simp at h
        · rw [List.map_cons, List.cons.injEq] at h
          obtain ⟨h1, h2⟩ := ih pts 3 (le_refl _) h.2
          rw [h.1]
          refine ⟨?_, ?_⟩
          · rw [List.foldl_cons]
            have : max n [p.x, p.y, p.z].length = 3 := by simp; omega
            rw [this, h1]
            simp
          · rw [List.filterMap_cons]
            simp only
            rw [h2]
  obtain ⟨h1, h2⟩ := key lines pts 0 (by omega) hl
  unfold readPoints
  rw [h1, if_neg hp]
  simp only [ne_eq, not_true_eq_false, if_false]
  exact congrArg Except.ok h2

namespace Spec

/-- The text of the data array of the `k`-th parameter: one line per point with the three values. -/
def arrayText (fmt : Option ℝ → String) (k : ℕ) (vals : List (List (Option ℝ))) : String :=
  "\n " ++ joined (vals.map fun v => "\t" ++ fmt ((v[3 * k]?).getD none) ++ "\t" ++ fmt ((v[1 + 3 * k]?).getD none) ++ "\t" ++
    fmt ((v[2 + 3 * k]?).getD none) ++ "\n ")

/-- What `append_sensitivities_to_tri` is given: files that hold tables with the same columns, and points. -/
structure TriInput (fs : String → Res Csv) (files : List String) (combined : String) (cols : List String)
    (R : String → List (List (Option ℝ))) (lines : List (List ℝ)) (pts : List V) : Prop where
  points : pts ≠ []
  lines : lines.filter (fun l => !l.isEmpty) = pts.map fun p => [p.x, p.y, p.z]
  some_file : files.erase combined ≠ []
  nodup : ("x" :: "y" :: "z" :: cols).Nodup
  read : ∀ f ∈ files.erase combined, fs f = .ok ⟨"x" :: "y" :: "z" :: cols, R f⟩
  width : ∀ f ∈ files.erase combined, ∀ r ∈ R f, r.length = cols.length + 3

end Spec

theorem mapIdx_keys {α β γ : Type} (d : List (α × β)) (f : ℕ → α × β → γ) :
    (d.mapIdx fun k e => (e.1, f k e)).map Prod.fst = d.map Prod.fst := by
  apply List.ext_getElem (by simp)
  intro i h1 h2
  simp

theorem map_of_forall₂ {α β γ : Type} {P : α → β → Prop} {l : List α} {m : List β} (h : List.Forall₂ P l m) {f : α → γ} {g : β → γ}
    (hfg : ∀ a b, P a b → g b = f a) : m.map g = l.map f := by
  induction h with
  | nil => rfl
  | cons h1 _ ih => rw [List.map_cons, List.map_cons, ih, hfg _ _ h1]

open Classical in
theorem appendToTri_spec (fmt : Option ℝ → String) {fs : String → Res Csv} {files : List String} {combined : String}
    {cols : List String} {R : String → List (List (Option ℝ))} {lines : List (List ℝ)} {pts : List V}
    (hi : TriInput fs files combined cols R lines pts) (mtol rtol : ℝ) : ∃ vals arrays,
    appendToTri fmt fs files lines mtol rtol combined = ⟨files.erase combined,
      .ok (matchedFraction mtol ((files.erase combined).flatMap R) pts,
        ⟨"x" :: "y" :: "z" :: cols, (pts.zip vals).map fun e => some e.1.x :: some e.1.y :: some e.1.z :: e.2⟩, arrays)⟩ ∧
    List.Forall₂ (ValuesOf mtol rtol ((files.erase combined).flatMap R) cols.length) pts vals ∧
    arrays.map Prod.fst = (paramNames cols).map (· ++ "_sens") ∧
    (∀ a ∈ arrays, ∃ k, a.2 = arrayText fmt k vals) ∧
    ((paramNames cols).Nodup → arrays = (paramNames cols).mapIdx fun k p => (p ++ "_sens", arrayText fmt k vals)) := by
  have ht : Table cols ((files.erase combined).flatMap R) := by
    refine ⟨hi.nodup, fun r hr => ?_⟩
    obtain ⟨f, hf, hr⟩ := List.mem_flatMap.1 hr
    exact hi.width f hf r hr
  set ps := paramNames cols with hps
  set d0 := Dict.setAll [] (ps.map fun p => (p, "\n ")) with hd0
  obtain ⟨i1, i2, i3⟩ := arrays_init ps [] (by simp)
  rw [← hd0] at i1 i2 i3
  have hlen : 3 * d0.length ≤ cols.length := by
    have : ps.length = cols.length / 3 := by simp [hps, paramNames]
    simp only [List.length_nil, Nat.zero_add] at i2
    omega
  obtain ⟨vals, hv, hm⟩ := matchAll_spec fmt ht mtol rtol pts ⟨[], d0, 0⟩ hlen
  set data := d0.mapIdx fun k e => (e.1, e.2 ++ joined (vals.map (triLine fmt k))) with hdata
  have hkeys : Dict.keys data = Dict.keys d0 := by
    unfold Dict.keys
    exact mapIdx_keys d0 fun k e => e.2 ++ joined (vals.map (triLine fmt k))
  have htext : ∀ e ∈ data, ∃ k, e.2 = arrayText fmt k vals := by
    intro e he
    obtain ⟨k, hk, rfl⟩ := List.mem_iff_getElem.1 he
    refine ⟨k, ?_⟩
    have hk' : k < d0.length := by simpa [hdata] using hk
    simp only [hdata, List.getElem_mapIdx]
    rw [i1 _ (List.getElem_mem hk')]
    rfl
  have hget : ∀ p ∈ ps, ∃ t, Dict.get? data p = some t := by
    intro p hp
    rcases hg : Dict.get? data p with _ | t
    · rw [Dict.get?_eq_none, hkeys] at hg
      exact absurd (i3 p hp) hg
    · exact ⟨t, rfl⟩
  have harr : ∃ arrays, (ps.mapM fun p => do let d ← Dict.get data p; return (p ++ "_sens", d)) = .ok arrays ∧
      List.Forall₂ (fun p a => a.1 = p ++ "_sens" ∧ Dict.get? data p = some a.2) ps arrays := by
    refine ⟨ps.map fun p => (p ++ "_sens", (Dict.get? data p).getD ""), ?_, ?_⟩
    · apply mapM_ok
      intro p hp
      obtain ⟨t, ht⟩ := hget p hp
      rw [(dict_get_ok _ _ _).2 ht, ok_bind, pure_eq, ht]
      rfl
    · rw [List.forall₂_map_right_iff, List.forall₂_same]
      intro p hp
      obtain ⟨t, ht⟩ := hget p hp
      simp [ht]
  obtain ⟨arrays, ha, hfa⟩ := harr
  refine ⟨vals, arrays, ?_, hv, ?_, ?_, ?_⟩
  · unfold appendToTri
    rw [readPoints_ok lines pts hi.points hi.lines]
    simp only [delFirst]
    congr 1
    unfold appendPoints
    rw [readTables_same fs _ hi.nodup R _ hi.some_file hi.read (fun f hf r hr => by rw [hi.width f hf r hr]; simp), ok_bind]
    simp only [List.drop_succ_cons, List.drop_zero]
    rw [← hps, ← hd0, hm, ok_bind]
    have hdiv : pdiv ((0 + (pts.filter fun p => decide (∃ r ∈ (files.erase combined).flatMap R, Within mtol p r)).length : ℕ) : ℝ) (pts.length : ℝ) =
        .ok (matchedFraction mtol ((files.erase combined).flatMap R) pts) := by
      unfold pdiv matchedFraction
      rw [if_neg (by simpa using hi.points)]
      simp
    rw [hdiv, ok_bind]
    refine (congrArg (· >>= _) ha).trans ?_
    rw [ok_bind, pure_eq]
    rfl
  · exact map_of_forall₂ hfa fun _ _ h => h.1
  · intro a haa
    obtain ⟨k, hk, rfl⟩ := List.mem_iff_getElem.1 haa
    have hk' : k < ps.length := by rw [hfa.length_eq]; exact hk
    have h := (List.forall₂_iff_get.1 hfa).2 k hk' hk
    exact htext (ps[k], arrays[k].2) (Dict.mem_of_get? h.2)
  · intro hnd
    have hd0' : d0 = ps.map fun p => (p, "\n ") := by
      rw [hd0]
      exact Dict.setAll_nil_nodup _ (by simpa [Function.comp_def] using hnd)
    have hdn : (Dict.keys data).Nodup := by rw [hkeys, hd0']; simpa [Dict.keys, Function.comp_def] using hnd
    apply List.ext_getElem (by rw [List.length_mapIdx]; exact hfa.length_eq.symm)
    intro k h1 h2
    have hk : k < ps.length := by simpa using h2
    obtain ⟨e1, e2⟩ := (List.forall₂_iff_get.1 hfa).2 k hk h1
    simp only [List.get_eq_getElem] at e1 e2
    have hmem : (ps[k], arrayText fmt k vals) ∈ data := by
      rw [List.mem_iff_getElem]
      refine ⟨k, by simp [hdata, hd0', hk], ?_⟩
      simp only [hdata, List.getElem_mapIdx, hd0', List.getElem_map]
      rfl
    rw [Dict.get?_of_mem (d := data) hdn hmem] at e2
    rw [List.getElem_mapIdx]
    ext1
    · exact e1
    · exact (Option.some.inj e2).symm

/-! ## C86 -/

/-- C86: for tables with the same columns and any points, `append_sensitivities_to_tri` succeeds; in the combined table each
point has the values of the first row within the tolerance, rounded, or zeros, and the fraction returned is that of the points
with such a row. -/
theorem C86_matching (fmt : Option ℝ → String) {fs : String → Res Csv} {files : List String} {combined : String}
    {cols : List String} {R : String → List (List (Option ℝ))} {lines : List (List ℝ)} {pts : List V}
    (hi : TriInput fs files combined cols R lines pts) (mtol rtol : ℝ) : ∃ vals arrays,
    (appendToTri fmt fs files lines mtol rtol combined).result =
      .ok (matchedFraction mtol ((files.erase combined).flatMap R) pts,
        ⟨"x" :: "y" :: "z" :: cols, (pts.zip vals).map fun e => some e.1.x :: some e.1.y :: some e.1.z :: e.2⟩, arrays) ∧
    List.Forall₂ (ValuesOf mtol rtol ((files.erase combined).flatMap R) cols.length) pts vals := by
  obtain ⟨vals, arrays, h1, h2, -⟩ := appendToTri_spec fmt hi mtol rtol
  exact ⟨vals, arrays, by rw [h1], h2⟩

/-- C86: the fraction lies between 0 and 1; it is 1 exactly when every point is matched. -/
theorem C86_fraction (mtol : ℝ) (rows : List (List (Option ℝ))) (pts : List V) (hp : pts ≠ []) :
    0 ≤ matchedFraction mtol rows pts ∧ matchedFraction mtol rows pts ≤ 1 ∧
    (matchedFraction mtol rows pts = 1 ↔ ∀ p ∈ pts, ∃ r ∈ rows, Within mtol p r) := by
  classical
  have hpos : (0 : ℝ) < pts.length := by
    have := List.length_pos_of_ne_nil hp
    exact_mod_cast this
  have hle : (pts.filter fun p => decide (∃ r ∈ rows, Within mtol p r)).length ≤ pts.length := List.length_filter_le _ _
  unfold matchedFraction
  refine ⟨by positivity, by rw [div_le_one hpos]; exact_mod_cast hle, ?_⟩
  rw [div_eq_one_iff_eq hpos.ne']
  constructor
  · intro h p hpm
    have h' : (pts.filter fun p => decide (∃ r ∈ rows, Within mtol p r)).length = pts.length := by exact_mod_cast h
    rw [List.length_filter_eq_length_iff] at h'
    simpa using h' p hpm
  · intro h
    have h' : (pts.filter fun p => decide (∃ r ∈ rows, Within mtol p r)).length = pts.length := by
      rw [List.length_filter_eq_length_iff]
      intro p hpm
      simpa using h p hpm
    exact_mod_cast h'

/-- C86: a point that coincides with a row is matched, for any positive tolerance. -/
theorem C86_exact (mtol : ℝ) (hm : 0 < mtol) (p : V) (rest : List (Option ℝ)) :
    Within mtol p (some p.x :: some p.y :: some p.z :: rest) := ⟨_, _, _, _, rfl, by simpa, by simpa, by simpa⟩

/-- The hypotheses of C86 hold for one table with two rows and two points, one of which is matched. -/
example : ∃ fs files cols R lines pts, TriInput fs files "all.csv" cols R lines pts ∧ pts.length = 2 ∧
    matchedFraction 1 ((files.erase "all.csv").flatMap R) pts = 1 / 2 := by
  refine ⟨fun _ => .ok ⟨["x", "y", "z", "dxdp", "dydp", "dzdp"], [[some 0, some 0, some 0, some 1, some 2, some 3]]⟩,
    ["wing.csv"], ["dxdp", "dydp", "dzdp"], fun _ => [[some 0, some 0, some 0, some 1, some 2, some 3]],
    [[], [0, 0, 0], [5, 5, 5]], [⟨0, 0, 0⟩, ⟨5, 5, 5⟩], ⟨by simp, by simp, by simp, by simp, by simp, by simp⟩, rfl, ?_⟩
  have h0 : Within 1 ⟨0, 0, 0⟩ [some 0, some 0, some 0, some 1, some 2, some 3] := C86_exact 1 one_pos ⟨0, 0, 0⟩ _
  have h5 : ¬ Within 1 ⟨5, 5, 5⟩ [some 0, some 0, some 0, some 1, some 2, some 3] := by
    rintro ⟨x, y, z, r, e, h, -⟩
    simp only [List.cons.injEq, Option.some.injEq] at e
    rw [← e.1] at h
    norm_num at h
  unfold matchedFraction
  simp [h0, h5]

/-! ## C87 -/

theorem splitLast_length (acc cs : List Char) : (splitLast acc cs).length ≤ acc.length + cs.length := by
  induction acc, cs using splitLast.induct with
  | case1 acc cs ih => rw [splitLast]; simp at ih ⊢; omega
  | case2 acc c cs h ih => rw [splitLast.eq_2 _ _ _ h]; simp at ih ⊢; omega
  | case3 acc => simp [splitLast]

theorem splitLast_infix (acc cs : List Char) (h : ['d', 'x', 'd'] <:+: cs) : (splitLast acc cs).length < cs.length := by
  induction acc, cs using splitLast.induct with
  | case1 acc cs ih =>
    rw [splitLast]
    have := splitLast_length [] cs
    simp at this ⊢
    omega
  | case2 acc c cs hn ih =>
    rw [splitLast.eq_2 _ _ _ hn]
    rcases List.infix_cons_iff.1 h with h | h
    · obtain ⟨t, ht⟩ := h
      simp only [List.cons_append, List.nil_append, List.cons.injEq] at ht
      exact (hn t ht.1.symm ht.2.symm).elim
    · have := ih h
      simp
      omega
  | case3 acc => simp at h

theorem splitLast_plain (acc cs : List Char) (h : ¬ ['d', 'x', 'd'] <:+: cs) : splitLast acc cs = acc ++ cs := by
  induction acc, cs using splitLast.induct with
  | case1 acc cs ih => exact absurd ⟨[], cs, rfl⟩ h
  | case2 acc c cs hn ih =>
    rw [splitLast.eq_2 _ _ _ hn, ih fun hh => h (List.infix_cons_iff.2 (.inr hh))]
    simp
  | case3 acc => simp [splitLast]

/-- The name read back from the columns of a parameter is that of the parameter exactly when `dxd` does not occur in it. -/
theorem paramName_iff (p : String) : paramName ("dxd" ++ p) = p ↔ ¬ "dxd".toList <:+: p.toList := by
  have h1 : ("dxd" ++ p).toList = 'd' :: 'x' :: 'd' :: p.toList := by rw [String.toList_append]; rfl
  have h2 : paramName ("dxd" ++ p) = String.ofList (splitLast [] p.toList) := by
    unfold paramName
    rw [h1, splitLast]
  rw [h2]
  constructor
  · intro h hi
    have := congrArg String.toList h
    rw [String.toList_ofList] at this
    have hl := splitLast_infix [] p.toList hi
    rw [this] at hl
    exact lt_irrefl _ hl
  · intro h
    rw [splitLast_plain [] _ h, List.nil_append, String.ofList_toList]

theorem paramNames_cols (ps : List String) : paramNames (ps.flatMap paramCols) = ps.map fun p => paramName ("dxd" ++ p) := by
  have hlen : (ps.flatMap paramCols).length = 3 * ps.length := by
    rw [List.length_flatMap]; simp [paramCols]; ring
  have hget : ∀ i (h : i < ps.length), (ps.flatMap paramCols)[3 * i]? = some ("dxd" ++ ps[i]) := by
    induction ps with
    | nil => intro i h; simp at h
    | cons p ps ih =>
      intro i h
      rcases i with _ | i
      · rfl
      · have h' : i < ps.length := by simpa using h
        rw [List.flatMap_cons, List.getElem?_append_right (by simp [paramCols])]
        have : 3 * (i + 1) - (paramCols p).length = 3 * i := by simp [paramCols]; omega
        rw [this, ih (by rw [List.length_flatMap]; simp [paramCols]; ring) i h']
        rfl
  unfold paramNames
  rw [hlen, Nat.mul_div_cancel_left _ (by norm_num)]
  apply List.ext_getElem (by simp)
  intro i h1 h2
  have hi : i < ps.length := by simpa using h2
  simp only [List.getElem_map, List.getElem_range]
  rw [hget i hi]
  rfl

/-- C87 for parameters in whose names `dxd` does not occur: the data arrays appended have the names of the parameters of the
study, and the array of each parameter holds its values.  Missing: other names, see `C87_violated`. -/
theorem C87_partial (fmt : Option ℝ → String) {fs : String → Res Csv} {files : List String} {combined : String}
    {ps : List String} (hps : ps.Nodup) (hn : ∀ p ∈ ps, ¬ "dxd".toList <:+: p.toList)
    {R : String → List (List (Option ℝ))} {lines : List (List ℝ)} {pts : List V}
    (hi : TriInput fs files combined (ps.flatMap paramCols) R lines pts) (mtol rtol : ℝ) : ∃ frac table vals,
    (appendToTri fmt fs files lines mtol rtol combined).result = .ok (frac, table, ps.mapIdx fun k p => (p ++ "_sens", arrayText fmt k vals)) ∧
    List.Forall₂ (ValuesOf mtol rtol ((files.erase combined).flatMap R) (3 * ps.length)) pts vals := by
  have hnames : paramNames (ps.flatMap paramCols) = ps := by
    rw [paramNames_cols]
    conv_rhs => rw [← List.map_id ps]
    exact List.map_congr_left fun p hp => (paramName_iff p).2 (hn p hp)
  have hlen : (ps.flatMap paramCols).length = 3 * ps.length := by
    rw [List.length_flatMap]; simp [paramCols]; ring
  obtain ⟨vals, arrays, h1, h2, -, -, h5⟩ := appendToTri_spec fmt hi mtol rtol
  rw [hnames] at h5
  rw [hlen] at h2
  have := h5 hps
  subst this
  exact ⟨_, _, vals, by rw [h1], h2⟩

/-- The hypotheses of `C87_partial` hold for two parameters. -/
example : ∃ fs files R lines pts, TriInput fs files "all.csv" (["span", "xd"].flatMap paramCols) R lines pts ∧
    ["span", "xd"].Nodup ∧ ∀ p ∈ ["span", "xd"], ¬ "dxd".toList <:+: p.toList := by
  refine ⟨fun _ => .ok ⟨"x" :: "y" :: "z" :: ["span", "xd"].flatMap paramCols, []⟩, ["wing.csv"], fun _ => [],
    [[1, 2, 3]], [⟨1, 2, 3⟩], ⟨by simp, by simp, by simp, paramCols_nodup _ (by simp), by simp, by simp⟩, by simp, ?_⟩
  intro p hp
  simp only [List.mem_cons, List.not_mem_nil, or_false] at hp
  rcases hp with rfl | rfl <;> decide

/-- C87 fails for a parameter named `widxdth`: its data array is named `th_sens`. -/
theorem C87_violated (fmt : Option ℝ → String) : ∃ fs files R lines pts,
    TriInput fs files "all.csv" (["widxdth"].flatMap paramCols) R lines pts ∧ ∃ frac table arrays,
      (appendToTri fmt fs files lines 1e-5 1e-8 "all.csv").result = .ok (frac, table, arrays) ∧ arrays.map Prod.fst = ["th_sens"] := by
  have hi : TriInput (fun _ => .ok ⟨"x" :: "y" :: "z" :: ["widxdth"].flatMap paramCols, []⟩) ["wing.csv"] "all.csv"
      (["widxdth"].flatMap paramCols) (fun _ => []) [[1, 2, 3]] [⟨1, 2, 3⟩] :=
    ⟨by simp, by simp, by simp, paramCols_nodup _ (by simp), by simp, by simp⟩
  refine ⟨_, _, _, _, _, hi, ?_⟩
  obtain ⟨vals, arrays, h1, -, h3, -⟩ := appendToTri_spec fmt hi 1e-5 1e-8
  refine ⟨_, _, arrays, by rw [h1], ?_⟩
  rw [h3, paramNames_cols]
  decide

/-! ## C88 -/

theorem count_joined (l : List String) (n : ℕ) (h : ∀ s ∈ l, s.toList.count '\n' = n) : (joined l).toList.count '\n' = n * l.length := by
  induction l with
  | nil => simp [joined]
  | cons a l ih =>
    rw [joined_cons, String.toList_append, List.count_append, h a List.mem_cons_self, ih fun s hs => h s (List.mem_cons_of_mem _ hs),
      List.length_cons]
    ring

/-- C88: the data array of every parameter has one line for each point after the initial line break, whatever the names of the
parameters, if formatted numbers have no line breaks. -/
theorem C88_lines (fmt : Option ℝ → String) (hf : ∀ v, '\n' ∉ (fmt v).toList) {fs : String → Res Csv} {files : List String}
    {combined : String} {cols : List String} {R : String → List (List (Option ℝ))} {lines : List (List ℝ)} {pts : List V}
    (hi : TriInput fs files combined cols R lines pts) (mtol rtol : ℝ) : ∃ frac table arrays,
    (appendToTri fmt fs files lines mtol rtol combined).result = .ok (frac, table, arrays) ∧
    arrays.length = cols.length / 3 ∧ ∀ a ∈ arrays, a.2.toList.count '\n' = pts.length + 1 := by
  obtain ⟨vals, arrays, h1, h2, h3, h4, -⟩ := appendToTri_spec fmt hi mtol rtol
  refine ⟨_, _, arrays, by rw [h1], ?_, fun a ha => ?_⟩
  · have := congrArg List.length h3
    simpa [paramNames] using this
  · obtain ⟨k, e⟩ := h4 a ha
    have h0 : ∀ v, (fmt v).toList.count '\n' = 0 := fun v => List.count_eq_zero.2 (hf v)
    rw [e, arrayText, String.toList_append, List.count_append, count_joined _ 1, List.length_map, ← h2.length_eq]
    · have : "\n ".toList.count '\n' = 1 := by decide
      rw [this]; ring
    · intro s hs
      obtain ⟨v, -, rfl⟩ := List.mem_map.1 hs
      simp only [String.toList_append, List.count_append, h0]
      decide

/-- C88: the list of files passed in is left as it was if the combined file is not in it. -/
theorem C88_files_partial (fmt : Option ℝ → String) (fs : String → Res Csv) (files : List String) (lines : List (List ℝ))
    (mtol rtol : ℝ) (combined : String) (h : combined ∉ files) :
    (appendToTri fmt fs files lines mtol rtol combined).files = files := by
  unfold appendToTri
  split
  · rfl
  · exact List.erase_of_not_mem h

/-- Formatted numbers without line breaks, and a list without the combined file. -/
example : (∀ v : Option ℝ, '\n' ∉ ((fun _ => "1.0e+00" : Option ℝ → String) v).toList) ∧
    "all_components_sensitivity.csv" ∉ ["wing_sensitivity.csv"] := by
  constructor
  · intro v
    show '\n' ∉ "1.0e+00".toList
    decide
  · decide

/-- C88 fails when the combined file is in the list, as when all CSV files of a directory are passed: its name is removed from
the caller's list. -/
theorem C88_files_violated (fmt : Option ℝ → String) (fs : String → Res Csv) (files : List String) (lines : List (List ℝ))
    (mtol rtol : ℝ) (combined : String) (h : combined ∈ files) (pts : List V) (hp : pts ≠ [])
    (hl : lines.filter (fun l => !l.isEmpty) = pts.map fun p => [p.x, p.y, p.z]) :
    (appendToTri fmt fs files lines mtol rtol combined).files ≠ files := by
  unfold appendToTri
  rw [readPoints_ok lines pts hp hl]
  intro hh
  have := congrArg List.length hh
  simp only [delFirst] at this
  rw [List.length_erase_of_mem h] at this
  have := List.length_pos_of_mem h
  omega

/-- A list containing the combined file and a point. -/
example : "all.csv" ∈ ["wing.csv", "all.csv"] ∧
    [[], [(1 : ℝ), 2, 3]].filter (fun l => !l.isEmpty) = [(⟨1, 2, 3⟩ : V)].map fun p => [p.x, p.y, p.z] := by
  simp

end HV
