import Verif.Props.Tri
import Verif.Props.WedgeStudy
import Verif.Lemmas.MeshVertex

/-!
# C125: from a study to the sensitivities of the points of a `.tri` file
-/

namespace HV
open Spec Sens

namespace Spec

/-- Each coordinate differs by less than the tolerance. -/
def Close (tol : ℝ) (q x : V) : Prop := |q.x - x.x| < tol ∧ |q.y - x.y| < tol ∧ |q.z - x.z| < tol

/-- Reading a file gives the table written to it last. -/
def ReadsBack (evs : List CsvEv) (fs : String → Res Csv) : Prop :=
  ∀ path u, lastWrite evs path = some (.csv path u) → fs path = .ok u

/-- The file of a component. -/
def sensFile (dir c : String) : String := pathJoin dir (c ++ "_sensitivity.csv")

/-- The values of the point `q`: those of the only vertex of the components `cs` near it, rounded; zeros if there is none; those of one of
the vertices near it if there are several.  `val c i` are the values of vertex `i` of component `c`. -/
def TriValues (mtol rtol : ℝ) (cs : List String) (M : String → StlMesh) (val : String → ℕ → List (Option ℝ)) (n : ℕ) (q : V)
    (v : List (Option ℝ)) : Prop :=
  (∀ c ∈ cs, ∀ (i : ℕ) x, (vertexList (M c))[i]? = some x → Close mtol q x →
    (∀ c' ∈ cs, ∀ x' ∈ vertexList (M c'), Close mtol q x' → c' = c ∧ x' = x) → v = (val c i).map (rounded rtol)) ∧
  ((∀ c ∈ cs, ∀ x ∈ vertexList (M c), ¬ Close mtol q x) → v = List.replicate n (some 0)) ∧
  ((∃ c ∈ cs, ∃ x ∈ vertexList (M c), Close mtol q x) →
    ∃ c ∈ cs, ∃ (i : ℕ) (x : V), (vertexList (M c))[i]? = some x ∧ Close mtol q x ∧ v = (val c i).map (rounded rtol))

open Classical in
/-- The fraction of the points with a property. -/
noncomputable def fractionOf (P : V → Prop) (pts : List V) : ℝ := ((pts.filter fun q => P q).length : ℝ) / (pts.length : ℝ)

end Spec

theorem entries_length (x : V) (r : CRow) (hx : r.pos = some x) : r.entries.length = 3 * r.sens.length + 3 := by
  unfold CRow.entries
  rw [hx]
  have : ∀ L : List (Vec (Option ℝ)), (L.flatMap Sens.entries).length = 3 * L.length := by
    intro L
    induction L with
    | nil => rfl
    | cons a L ih => simp only [List.flatMap_cons, List.length_append, ih, List.length_cons, Sens.entries, List.length_nil]; omega
  simp only [List.length_append, this]
  simp
  omega

theorem paramCols_length (L : List String) : (L.flatMap paramCols).length = 3 * L.length := by
  induction L with
  | nil => rfl
  | cons a L ih => simp only [List.flatMap_cons, List.length_append, ih, List.length_cons, paramCols, List.length_nil]; omega

/-- The scalar sensitivities are named after the parameters. -/
theorem study_scalar_names {self self' : Study} {ctor : Ctor} {lib : Lib} {depth : ℕ} {run run' : Run} {l : List (String × ℝ)}
    {overrides : Dict String ParamVal} (hn : (l.map Prod.fst).Nodup) {p : ℝ} {write : Bool} {pre : Option String} {T : Tables}
    (h : dvdp self ctor lib depth run (numbers l) overrides p write pre = (.ok T, self', run')) (hp : ∀ e ∈ l, PlainName e.1) :
    ∀ s, self'.scalarSens = some s → ∀ n ∈ s.keys, PlainName n := by
  obtain ⟨-, -, h3⟩ := dvdp_spec self self' ctor lib depth run run' l overrides hn p write pre (.ok T) h
  obtain ⟨nom, st, rs, c, -, -, b2, -, -, rfl⟩ := h3 T rfl
  intro s hs n hnm
  simp only [Study.withResults, Option.some.injEq] at hs
  subst hs
  obtain ⟨q, hq, rfl⟩ := List.mem_map.1 hnm
  obtain ⟨y, hy, ey⟩ := List.mem_filterMap.1 hq
  rw [Option.map_eq_some_iff] at ey
  obtain ⟨z, -, rfl⟩ := ey
  have : y.1 ∈ l.map Prod.fst := by rw [← forall₂_keys b2]; exact List.mem_map.2 ⟨y, hy, rfl⟩
  obtain ⟨x, hx, ex⟩ := List.mem_map.1 this
  show PlainName y.1
  rw [← ex]
  exact hp x hx

/-- The row of a point with values. -/
def rowOf (x : V) (vs : List (Option ℝ)) : List (Option ℝ) := some x.x :: some x.y :: some x.z :: vs

theorem within_rowOf (tol : ℝ) (q x : V) (vs : List (Option ℝ)) : Within tol q (rowOf x vs) ↔ Close tol q x := by
  unfold Within Close rowOf
  constructor
  · rintro ⟨a, b, c, rest, h, h1, h2, h3⟩
    simp only [List.cons.injEq, Option.some.injEq] at h
    obtain ⟨rfl, rfl, rfl, -⟩ := h
    exact ⟨h1, h2, h3⟩
  · rintro ⟨h1, h2, h3⟩
    exact ⟨_, _, _, _, rfl, h1, h2, h3⟩

/-- The values of vertex `i` of component `c` in the files of a study. -/
noncomputable def studyVal (l : List (String × ℝ)) (p : ℝ) (M : String → StlMesh) (Mp : String → String → StlMesh) (c : String) (i : ℕ) :
    List (Option ℝ) := l.flatMap fun e => Sens.entries (rate (M c) (Mp c e.1) i (e.2 * p / 100))

theorem tri_pipeline (fmt : Option ℝ → String) {self self' : Study} {ctor : Ctor} {lib : Lib} {depth : ℕ} {run run' : Run}
    {l : List (String × ℝ)} {overrides : Dict String ParamVal} (hn : (l.map Prod.fst).Nodup) {p : ℝ} {write : Bool} {pre : Option String}
    {T : Tables} (h : dvdp self ctor lib depth run (numbers l) overrides p write pre = (.ok T, self', run')) (hp : p ≠ 0)
    (hv : ∀ e ∈ l, e.2 ≠ 0) (cwd : String) (outdir : Option String) (d : Dict String CTable) (hd : self'.componentSens = some d)
    (hdn : d.keys.Nodup) (hpl : ∀ n ∈ d.keys, PlainName n) (hcp : PlainName self.combinedFn) (hpn : ∀ e ∈ l, PlainName e.1)
    (cs : List String) (hcs : cs ≠ []) (hne : ∀ c ∈ cs, c ++ "_sensitivity.csv" ≠ self.combinedFn) (M : String → StlMesh)
    (Mp : String → String → StlMesh)
    (hM : ∀ c ∈ cs, Generates ctor lib depth (kwGiven run.store (numbers l) overrides) c (M c))
    (hMp : ∀ c ∈ cs, ∀ e ∈ l,
      Generates ctor lib depth (kwWith run.store (numbers l) overrides e.1 (e.2 * (1 + p / 100))) c (Mp c e.1) ∧ KeepsTogether (M c) (Mp c e.1))
    (combined : String) (hcomb : combined ∉ cs.map (sensFile (outdir.getD cwd))) (lines : List (List ℝ)) (pts : List V) (hpts : pts ≠ [])
    (hlines : lines.filter (fun l => !l.isEmpty) = pts.map fun p => [p.x, p.y, p.z]) (mtol rtol : ℝ) :
    ∃ path evs, self'.toCsv cwd outdir = (.ok path, evs) ∧ ∀ fs, ReadsBack evs fs → ∃ rows vals arrays,
      (appendToTri fmt fs (cs.map (sensFile (outdir.getD cwd))) lines mtol rtol combined).result =
        .ok (matchedFraction mtol rows pts, ⟨"x" :: "y" :: "z" :: (l.map Prod.fst).flatMap paramCols,
          (pts.zip vals).map fun e => some e.1.x :: some e.1.y :: some e.1.z :: e.2⟩, arrays) ∧
      List.Forall₂ (ValuesOf mtol rtol rows (3 * l.length)) pts vals ∧
      (∀ r ∈ rows, ∃ c ∈ cs, ∃ (i : ℕ) (x : V), (vertexList (M c))[i]? = some x ∧ r = rowOf x (studyVal l p M Mp c i)) ∧
      ∀ c ∈ cs, ∀ x ∈ vertexList (M c), ∃ i : ℕ, (vertexList (M c))[i]? = some x ∧ rowOf x (studyVal l p M Mp c i) ∈ rows := by
  have htab : ∀ c ∈ cs, ∃ t, (c, t) ∈ d ∧ t.params = l.map Prod.fst ∧ OneRowEach (vertexList (M c)) t.rows ∧
      ∀ r ∈ t.rows, r.sens = l.map fun e => rate (M c) (Mp c e.1) r.ix (e.2 * p / 100) := by
    intro c hc
    obtain ⟨d', t, d1, d2, d3, d4, d5⟩ := C84_partial hn h hp hv c (M c) (Mp c) (hM c hc) (fun e he => (hMp c hc e he).1)
      (fun e he => (hMp c hc e he).2)
    rw [hd] at d1
    cases d1
    exact ⟨t, Dict.mem_of_get? d2, d3, d4, d5⟩
  haveI : Inhabited CTable := ⟨⟨[], []⟩⟩
  choose! tab ht1 ht2 ht3 ht4 using htab
  have hcf : self'.combinedFn = self.combinedFn := by
    obtain ⟨_, _, e, _⟩ := study_tabular hn h
    exact e
  obtain ⟨path, evs, hcsv⟩ : ∃ path evs, self'.toCsv cwd outdir = (.ok path, evs) := by
    unfold Study.toCsv
    rw [hd]
    exact ⟨_, _, rfl⟩
  refine ⟨path, evs, hcsv, fun fs hfs => ?_⟩
  have hread : ∀ c ∈ cs, fs (sensFile (outdir.getD cwd) c) = .ok (tab c).csv := by
    intro c hc
    obtain ⟨path', evs', e1, e2⟩ := C85_components_partial self' cwd outdir d hd hdn hpl (study_scalar_names hn h hpn)
      (by rw [hcf]; exact hcp) c (tab c) (ht1 c hc) (by rw [hcf]; exact hne c hc)
    rw [hcsv] at e1
    cases e1
    exact hfs _ _ e2
  let R : String → List (List (Option ℝ)) := fun f => match fs f with
    | .ok u => u.rows
    | .error _ => []
  have hR : ∀ c ∈ cs, R (sensFile (outdir.getD cwd) c) = (tab c).rows.map CRow.entries := by
    intro c hc
    simp only [R, hread c hc]
    rfl
  have her : (cs.map (sensFile (outdir.getD cwd))).erase combined = cs.map (sensFile (outdir.getD cwd)) := List.erase_of_not_mem hcomb
  have hlen3 : ((l.map Prod.fst).flatMap paramCols).length = 3 * l.length := by rw [paramCols_length]; simp
  have hi : TriInput fs (cs.map (sensFile (outdir.getD cwd))) combined ((l.map Prod.fst).flatMap paramCols) R lines pts := by
    refine ⟨hpts, hlines, by rw [her]; simpa using hcs, paramCols_nodup _ hn, ?_, ?_⟩
    · rw [her]
      intro f hf
      obtain ⟨c, hc, rfl⟩ := List.mem_map.1 hf
      rw [hR c hc, hread c hc]
      unfold CTable.csv
      rw [ht2 c hc]
      rfl
    · rw [her]
      intro f hf
      obtain ⟨c, hc, rfl⟩ := List.mem_map.1 hf
      intro r hr
      rw [hR c hc] at hr
      obtain ⟨r', hr', rfl⟩ := List.mem_map.1 hr
      obtain ⟨x, hx, -⟩ := (ht3 c hc).first r' hr'
      rw [entries_length x r' hx, ht4 c hc r' hr', hlen3]
      simp
  obtain ⟨vals, arrays, g1, g2⟩ := C86_matching fmt hi mtol rtol
  refine ⟨_, vals, arrays, g1, by rw [hlen3] at g2; exact g2, ?_, ?_⟩
  · rw [her]
    intro r hr
    simp only [List.mem_flatMap, List.mem_map, exists_exists_and_eq_and] at hr
    obtain ⟨c, hc, hr⟩ := hr
    rw [hR c hc] at hr
    obtain ⟨r', hr', rfl⟩ := List.mem_map.1 hr
    obtain ⟨x, hx, hx', -⟩ := (ht3 c hc).first r' hr'
    exact ⟨c, hc, r'.ix, x, hx', by
      unfold CRow.entries rowOf studyVal
      rw [hx, ht4 c hc r' hr', List.flatMap_map]
      rfl⟩
  · rw [her]
    intro c hc x hx
    obtain ⟨r', hr', hx'⟩ := (ht3 c hc).all x hx
    obtain ⟨y, hy, hy', -⟩ := (ht3 c hc).first r' hr'
    rw [hx'] at hy
    cases hy
    refine ⟨r'.ix, hy', ?_⟩
    simp only [List.mem_flatMap, List.mem_map, exists_exists_and_eq_and]
    refine ⟨c, hc, ?_⟩
    rw [hR c hc]
    refine List.mem_map.2 ⟨r', hr', ?_⟩
    unfold CRow.entries rowOf studyVal
    rw [hx', ht4 c hc r' hr', List.flatMap_map]
    rfl

/-- C125: after a study and `to_csv`, `append_sensitivities_to_tri` with the files of components gives each point near one vertex the
sensitivities of that vertex, and points near none zeros; the fraction is that of the points near a vertex.  Points near several vertices get the sensitivities of one of
these.  Missing: that it is the right one, see `C125_violated`. -/
theorem C125_partial (fmt : Option ℝ → String) {self self' : Study} {ctor : Ctor} {lib : Lib} {depth : ℕ} {run run' : Run}
    {l : List (String × ℝ)} {overrides : Dict String ParamVal} (hn : (l.map Prod.fst).Nodup) {p : ℝ} {write : Bool} {pre : Option String}
    {T : Tables} (h : dvdp self ctor lib depth run (numbers l) overrides p write pre = (.ok T, self', run')) (hp : p ≠ 0)
    (hv : ∀ e ∈ l, e.2 ≠ 0) (cwd : String) (outdir : Option String) (d : Dict String CTable) (hd : self'.componentSens = some d)
    (hdn : d.keys.Nodup) (hpl : ∀ n ∈ d.keys, PlainName n) (hcp : PlainName self.combinedFn) (hpn : ∀ e ∈ l, PlainName e.1)
    (cs : List String) (hcs : cs ≠ []) (hne : ∀ c ∈ cs, c ++ "_sensitivity.csv" ≠ self.combinedFn) (M : String → StlMesh)
    (Mp : String → String → StlMesh)
    (hM : ∀ c ∈ cs, Generates ctor lib depth (kwGiven run.store (numbers l) overrides) c (M c))
    (hMp : ∀ c ∈ cs, ∀ e ∈ l,
      Generates ctor lib depth (kwWith run.store (numbers l) overrides e.1 (e.2 * (1 + p / 100))) c (Mp c e.1) ∧ KeepsTogether (M c) (Mp c e.1))
    (combined : String) (hcomb : combined ∉ cs.map (sensFile (outdir.getD cwd))) (lines : List (List ℝ)) (pts : List V) (hpts : pts ≠ [])
    (hlines : lines.filter (fun l => !l.isEmpty) = pts.map fun p => [p.x, p.y, p.z]) (mtol rtol : ℝ) :
    ∃ path evs, self'.toCsv cwd outdir = (.ok path, evs) ∧ ∀ fs, ReadsBack evs fs → ∃ fraction vals arrays,
      (appendToTri fmt fs (cs.map (sensFile (outdir.getD cwd))) lines mtol rtol combined).result =
        .ok (fraction, ⟨"x" :: "y" :: "z" :: (l.map Prod.fst).flatMap paramCols,
          (pts.zip vals).map fun e => some e.1.x :: some e.1.y :: some e.1.z :: e.2⟩, arrays) ∧
      List.Forall₂ (TriValues mtol rtol cs M (studyVal l p M Mp) (3 * l.length)) pts vals ∧
      fraction = fractionOf (fun q => ∃ c ∈ cs, ∃ x ∈ vertexList (M c), Close mtol q x) pts := by
  obtain ⟨path, evs, hcsv, hh⟩ := tri_pipeline fmt hn h hp hv cwd outdir d hd hdn hpl hcp hpn cs hcs hne M Mp hM hMp combined hcomb lines pts
    hpts hlines mtol rtol
  refine ⟨path, evs, hcsv, fun fs hfs => ?_⟩
  obtain ⟨rows, vals, arrays, g1, g2, g3, g4⟩ := hh fs hfs
  have hnear : ∀ q, (∃ r ∈ rows, Within mtol q r) ↔ ∃ c ∈ cs, ∃ x ∈ vertexList (M c), Close mtol q x := by
    intro q
    constructor
    · rintro ⟨r, hr, hw⟩
      obtain ⟨c, hc, i, x, hx, rfl⟩ := g3 r hr
      exact ⟨c, hc, x, List.mem_of_getElem? hx, (within_rowOf _ _ _ _).1 hw⟩
    · rintro ⟨c, hc, x, hx, hw⟩
      obtain ⟨i, -, hr⟩ := g4 c hc x hx
      exact ⟨_, hr, (within_rowOf _ _ _ _).2 hw⟩
  refine ⟨_, vals, arrays, g1, ?_, ?_⟩
  · refine g2.imp fun q v hq => ⟨fun c hc i x hx hcl huniq => ?_, fun hno => ?_, fun hex => ?_⟩
    · rcases hq with ⟨k, r, k1, k2, -, rfl⟩ | ⟨hno, -⟩
      · obtain ⟨c', hc', j, y, hy, rfl⟩ := g3 r (List.mem_of_getElem? k1)
        obtain ⟨rfl, rfl⟩ := huniq c' hc' y (List.mem_of_getElem? hy) ((within_rowOf _ _ _ _).1 k2)
        show (studyVal l p M Mp c' j).map _ = _
        congr 1
        unfold studyVal
        apply List.flatMap_congr
        intro e he
        have e1 : (vertexList (M c'))[j]? = (vertexList (M c'))[i]? := by rw [hy, hx]
        have e2 := ((hMp c' hc' e he).2).2 _ _ e1
        unfold rate
        rw [e1, e2]
      · exfalso
        obtain ⟨r, hr, hw⟩ := (hnear q).2 ⟨c, hc, x, List.mem_of_getElem? hx, hcl⟩
        exact hno r hr hw
    · rcases hq with ⟨k, r, k1, k2, -, rfl⟩ | ⟨-, rfl⟩
      · exfalso
        obtain ⟨c, hc, x, hx, hcl⟩ := (hnear q).1 ⟨r, List.mem_of_getElem? k1, k2⟩
        exact hno c hc x hx hcl
      · rfl
    · rcases hq with ⟨k, r, k1, k2, -, rfl⟩ | ⟨hno, -⟩
      · obtain ⟨c, hc, i, x, hx, rfl⟩ := g3 r (List.mem_of_getElem? k1)
        exact ⟨c, hc, i, x, hx, (within_rowOf _ _ _ _).1 k2, rfl⟩
      · obtain ⟨r, hr, hw⟩ := (hnear q).2 hex
        exact absurd hw (hno r hr)
  · unfold matchedFraction fractionOf
    rw [List.filter_congr fun q _ => decide_eq_decide.2 (hnear q)]

/-- The tables of a study are those of the named components. -/
theorem study_names {self self' : Study} {ctor : Ctor} {lib : Lib} {depth : ℕ} {run run' : Run} {l : List (String × ℝ)}
    {overrides : Dict String ParamVal} (hn : (l.map Prod.fst).Nodup) {p : ℝ} {write : Bool} {pre : Option String} {T : Tables}
    (h : dvdp self ctor lib depth run (numbers l) overrides p write pre = (.ok T, self', run')) {v : Veh} {ms : Dict String StlMesh}
    (hnom : Makes ctor lib depth (kwGiven run.store (numbers l) overrides) v ms) :
    ∃ d, self'.componentSens = some d ∧ d.keys = v.named.keys := by
  obtain ⟨-, -, h3⟩ := dvdp_spec self self' ctor lib depth run run' l overrides hn p write pre (.ok T) h
  obtain ⟨nom, st, rs, d, ⟨s0, b1, b2⟩, b3, -, -, b4, rfl⟩ := h3 T rfl
  refine ⟨d, rfl, ?_⟩
  obtain ⟨i, i1, -, i3, -⟩ := makes_built hnom
  rw [b1] at i1
  have : nom = i := by
    have e : prepare lib depth s0 = .ok i := i1
    rw [b2] at e
    exact Except.ok.inj e
  subst this
  rw [← i3, ← b3]
  unfold combine at b4
  rw [mapM_ok_iff] at b4
  unfold Dict.keys
  have : ∀ (L : List String) (d : List (String × CTable)), List.Forall₂ (fun c e => (do
      let rows ← combineOne T c
      return (c, (⟨Dict.keys T, rows⟩ : CTable)) : Res (String × CTable)) = .ok e) L d → d.map Prod.fst = L := by
    intro L d hL
    induction hL with
    | nil => rfl
    | cons hh _ ih =>
      rw [bind_ok] at hh
      obtain ⟨r, -, hr⟩ := hh
      cases hr
      rw [List.map_cons, ih]
  exact this _ _ b4

/-- The setting of `C125_partial` for the wedge. -/
theorem wedge_setting (h : Heap) (id : ℕ) (lib : Lib) (depth : ℕ) (self : Study) (run : Run) (l o : List (String × ℝ)) (hl : l ≠ [])
    (hn : (Dict.keys (l ++ o)).Nodup) (p : ℝ) (write : Bool) (pre : Option String) :
    ∃ (T : Tables) (self' : Study) (run' : Run) (M : StlMesh) (Mp : String → StlMesh) (d : Dict String CTable), dvdp self (Wedge.ctor h id) lib depth run (numbers l) (numbers o) p write pre = (.ok T, self', run') ∧
      Makes (Wedge.ctor h id) lib depth (kwGiven run.store (numbers l) (numbers o)) { wedgeVeh id true with verbosity := 0 } [("swept_1", M)] ∧
      (∀ e ∈ l, Makes (Wedge.ctor h id) lib depth (kwWith run.store (numbers l) (numbers o) e.1 (e.2 * (1 + p / 100)))
        { wedgeVeh id true with verbosity := 0 } [("swept_1", Mp e.1)] ∧
        (Mp e.1).tris = mapVerts (wedgeStretch e.1 (1 + p / 100)) M.tris) ∧
      (l.map Prod.fst).Nodup ∧ self'.componentSens = some d ∧ d.keys = ["swept_1"] := by
  have hln : (l.map Prod.fst).Nodup := by
    unfold Dict.keys at hn
    rw [List.map_append] at hn
    exact hn.of_append_left
  obtain ⟨M, Mp, m1, m2⟩ := wedge_meshes h id lib depth run.store l o hl hn (1 + p / 100)
  obtain ⟨T, self', run', hd⟩ := wedge_dvdp h id lib depth self run l o hl hn p write pre
  obtain ⟨d, d1, d2⟩ := study_names hln hd m1
  exact ⟨T, self', run', M, Mp, d, hd, m1, m2, hln, d1, d2⟩

theorem wedge_files (self : Study) (hcf : self.combinedFn = "all_components_sensitivity.csv") :
    PlainName self.combinedFn ∧ PlainName "swept_1" ∧ "swept_1" ++ "_sensitivity.csv" ≠ self.combinedFn := by
  rw [hcf]
  refine ⟨by unfold PlainName; decide, by unfold PlainName; decide, by decide⟩

/-- C125 for the documented study of the wedge: a point of the `.tri` file near vertices gets the exact sensitivities of one of
them (but for the rounding to zero of small values), other points zeros; the fraction is that of the points near a vertex. -/
theorem C125_wedge (fmt : Option ℝ → String) (h : Heap) (id : ℕ) (lib : Lib) (depth : ℕ) (self : Study)
    (hcf : self.combinedFn = "all_components_sensitivity.csv") (run : Run) (l o : List (String × ℝ)) (hl : l ≠ [])
    (hn : (Dict.keys (l ++ o)).Nodup) (hpn : ∀ e ∈ l, PlainName e.1) (hv : ∀ e ∈ l, e.2 ≠ 0) (p : ℝ) (hp : p ≠ 0) (write : Bool)
    (pre : Option String) (cwd : String) (outdir : Option String) (combined : String)
    (hcomb : combined ≠ sensFile (outdir.getD cwd) "swept_1") (lines : List (List ℝ)) (pts : List V) (hpts : pts ≠ [])
    (hlines : lines.filter (fun l => !l.isEmpty) = pts.map fun p => [p.x, p.y, p.z]) (mtol rtol : ℝ) :
    ∃ T self' run' M path evs, dvdp self (Wedge.ctor h id) lib depth run (numbers l) (numbers o) p write pre = (.ok T, self', run') ∧
      Generates (Wedge.ctor h id) lib depth (kwGiven run.store (numbers l) (numbers o)) "swept_1" M ∧
      self'.toCsv cwd outdir = (.ok path, evs) ∧ ∀ fs, ReadsBack evs fs → ∃ fraction vals arrays,
        (appendToTri fmt fs [sensFile (outdir.getD cwd) "swept_1"] lines mtol rtol combined).result =
          .ok (fraction, ⟨"x" :: "y" :: "z" :: (l.map Prod.fst).flatMap paramCols,
            (pts.zip vals).map fun e => some e.1.x :: some e.1.y :: some e.1.z :: e.2⟩, arrays) ∧
        List.Forall₂ (fun q v => ((∃ x ∈ vertexList M, Close mtol q x) → ∃ x ∈ vertexList M, Close mtol q x ∧
            v = (l.flatMap fun e => Sens.entries (wedgeRate e.1 e.2 x)).map (Spec.rounded rtol)) ∧
          ((∀ x ∈ vertexList M, ¬ Close mtol q x) → v = List.replicate (3 * l.length) (some 0))) pts vals ∧
        fraction = fractionOf (fun q => ∃ x ∈ vertexList M, Close mtol q x) pts := by
  obtain ⟨T, self', run', M, Mp, d, hd, m1, m2, hln, d1, d2⟩ := wedge_setting h id lib depth self run l o hl hn p write pre
  obtain ⟨f1, f2, f3⟩ := wedge_files self hcf
  obtain ⟨path, evs, e1, e2⟩ := C125_partial fmt hln hd hp hv cwd outdir d d1 (by rw [d2]; simp)
    (by rw [d2]; intro n hn; rw [List.mem_singleton.1 hn]; exact f2) f1 hpn ["swept_1"] (by simp)
    (by intro c hc; rw [List.mem_singleton.1 hc]; exact f3) (fun _ => M) (fun _ => Mp)
    (by intro c hc; rw [List.mem_singleton.1 hc]; exact makes_generates m1)
    (by
      intro c hc e he
      rw [List.mem_singleton.1 hc]
      exact ⟨makes_generates (m2 e he).1, wedge_together (m2 e he).2⟩)
    combined (by simpa using hcomb) lines pts hpts hlines mtol rtol
  refine ⟨T, self', run', M, path, evs, hd, makes_generates m1, e1, fun fs hfs => ?_⟩
  obtain ⟨fraction, vals, arrays, g1, g2, g3⟩ := e2 fs hfs
  refine ⟨fraction, vals, arrays, g1, g2.imp fun q v hq => ⟨fun hex => ?_, fun hno => hq.2.1 fun c _ x hx => hno x hx⟩, by simpa using g3⟩
  obtain ⟨c, -, i, x, hx, hcl, rfl⟩ := hq.2.2 ⟨"swept_1", by simp, hex⟩
  refine ⟨x, List.mem_of_getElem? hx, hcl, ?_⟩
  congr 1
  unfold studyVal
  apply List.flatMap_congr
  intro e he
  rw [wedge_rates (hv e he) hp (m2 e he).2 hx]

/-- For every mesh there is a tolerance at which each vertex is near only itself. -/
theorem separating (L : List V) : ∃ mtol > 0, ∀ x ∈ L, ∀ x' ∈ L, Close mtol x x' → x' = x := by
  have hone : ∀ (x : V) (L : List V), ∃ m > 0, ∀ x' ∈ L, Close m x x' → x' = x := by
    intro x L
    induction L with
    | nil => exact ⟨1, one_pos, by simp⟩
    | cons a L ih =>
      obtain ⟨m, hm, hL⟩ := ih
      by_cases ha : a = x
      · refine ⟨m, hm, fun x' hx' hc => ?_⟩
        rcases List.mem_cons.1 hx' with rfl | hx'
        · exact ha
        · exact hL x' hx' hc
      · have hpos : 0 < |x.x - a.x| + |x.y - a.y| + |x.z - a.z| := by
          by_contra hn
          apply ha
          have h1 := abs_nonneg (x.x - a.x)
          have h2 := abs_nonneg (x.y - a.y)
          have h3 := abs_nonneg (x.z - a.z)
          ext
          · exact (sub_eq_zero.1 (abs_eq_zero.1 (by linarith))).symm
          · exact (sub_eq_zero.1 (abs_eq_zero.1 (by linarith))).symm
          · exact (sub_eq_zero.1 (abs_eq_zero.1 (by linarith))).symm
        refine ⟨min m ((|x.x - a.x| + |x.y - a.y| + |x.z - a.z|) / 3), lt_min hm (by positivity), fun x' hx' hc => ?_⟩
        have hmn := min_le_left m ((|x.x - a.x| + |x.y - a.y| + |x.z - a.z|) / 3)
        have hmn' := min_le_right m ((|x.x - a.x| + |x.y - a.y| + |x.z - a.z|) / 3)
        obtain ⟨c1, c2, c3⟩ := hc
        rcases List.mem_cons.1 hx' with rfl | hx'
        · exfalso
          linarith
        · exact hL x' hx' ⟨by linarith, by linarith, by linarith⟩
  have hall : ∀ K : List V, ∃ m > 0, ∀ x ∈ K, ∀ x' ∈ L, Close m x x' → x' = x := by
    intro K
    induction K with
    | nil => exact ⟨1, one_pos, by simp⟩
    | cons a K ih =>
      obtain ⟨m, hm, h1⟩ := ih
      obtain ⟨m', hm', h2⟩ := hone a L
      refine ⟨min m m', lt_min hm hm', fun x hx x' hx' hc => ?_⟩
      obtain ⟨c1, c2, c3⟩ := hc
      have e1 := min_le_left m m'
      have e2 := min_le_right m m'
      rcases List.mem_cons.1 hx with rfl | hx
      · exact h2 x' hx' ⟨by linarith, by linarith, by linarith⟩
      · exact h1 x hx x' hx' ⟨by linarith, by linarith, by linarith⟩
  exact hall L

/-- The hypotheses of `C125_wedge`: parameters, a file name, and for every mesh a tolerance at which its vertices are matched. -/
example (M : StlMesh) : ([("chord", (2 : ℝ)), ("wingspan", 3)] : List (String × ℝ)) ≠ [] ∧
    (Dict.keys ([("chord", (2 : ℝ)), ("wingspan", 3)] ++ [("thickness", 0.2)])).Nodup ∧
    (∀ e ∈ [("chord", (2 : ℝ)), ("wingspan", 3)], PlainName e.1 ∧ e.2 ≠ 0) ∧
    "all_components_sensitivity.csv" ≠ sensFile "." "swept_1" ∧ ∃ mtol > 0, ∀ q ∈ vertexList M, ∃ x ∈ vertexList M,
      Close mtol q x ∧ ∀ x' ∈ vertexList M, Close mtol q x' → x' = x := by
  refine ⟨by simp, by simp [Dict.keys], ?_, by decide, ?_⟩
  · intro e he
    simp only [List.mem_cons, List.not_mem_nil, or_false] at he
    rcases he with rfl | rfl
    · exact ⟨by show PlainName "chord"; unfold PlainName; decide, by norm_num⟩
    · exact ⟨by show PlainName "wingspan"; unfold PlainName; decide, by norm_num⟩
  · obtain ⟨m, hm, hs⟩ := separating (vertexList M)
    exact ⟨m, hm, fun q hq => ⟨q, hq, ⟨by simpa using hm, by simpa using hm, by simpa using hm⟩, fun x' hx' => hs q hq x' hx'⟩⟩

/-- The corners of the sections are vertices of the wedge. -/
theorem wedge_corner (h : Heap) (id : ℕ) (w c t : ℝ) (g : Heap) (M : StlMesh) (d : Comp)
    (hg : generatePatches (wedgeHeap h id w c t) id = (.ok (), g)) (hM : (g id).mesh = (.ok M, d)) (k : ℕ) (hk : k < 4) :
    (⟨wedgeX c k, wedgeY t k, -(w / 2)⟩ : V) ∈ vertexList M := by
  have hx := quad_extrusion (wedgeX c) (wedgeY t) [-(w / 2), w / 2]
  rw [← wedge_sections] at hx
  obtain ⟨c1, i1, hh⟩ := closed_swept_mesh (Wedge.sections w c t) _ _ (by simp [Wedge.sections]; rfl) (by simp [Wedge.sections]; rfl)
    (by simp [Wedge.sections]) hx.len hx.total
    (hx.closed fun ne hne => ⟨quad_closes _ ne hne, quad_closes _ ne hne⟩) (.int 10) 10 10 (.inl ⟨rfl, rfl⟩) (by norm_num) (by norm_num) none
  rw [wedge_init] at i1
  cases i1
  obtain ⟨g', M', d', g1, g2, -, F0, F1, -, -, -, -, -, -, f5⟩ := hh _ id (upd_self _ _ _)
  rw [show ((h.upd id (Swept.comp (Wedge.sections w c t) 4 true (.int 10) none)).upd id
    (Swept.comp (Wedge.sections w c t) 4 true (.int 10) none)) = wedgeHeap h id w c t from rfl, hg] at g1
  cases g1
  rw [hM] at g2
  cases g2
  have hv : IsVertex (sweptGrid (Wedge.sections w c t) 10 k 0 0) M.tris := by
    obtain ⟨tr, t1, t2⟩ := gridMesh_vertex 10 10 (sweptGrid (Wedge.sections w c t) 10 k) 0 0 (by norm_num) (by norm_num) (by norm_num)
      (by norm_num)
    refine ⟨tr, ?_, t2⟩
    rw [f5, List.mem_flatten]
    refine ⟨_, List.mem_map.2 ⟨(10, sweptGrid (Wedge.sections w c t) 10 k), List.mem_append_left _ (List.mem_map.2
      ⟨k, List.mem_range.2 hk, rfl⟩), rfl⟩, t1⟩
  have he : sweptGrid (Wedge.sections w c t) 10 k 0 0 = ⟨wedgeX c k, wedgeY t k, -(w / 2)⟩ := by
    rw [sweptGrid_first (Wedge.sections w c t) (quadSection (wedgeX c) (wedgeY t) (-(w / 2))) (by simp [Wedge.sections])
      (by rw [wedge_sections]; rfl)]
    unfold edgePts
    match k, hk with
    | 0, _ | 1, _ | 2, _ | 3, _ => ext <;> simp [edgeOf, quadSection, Line, lineAt, okv]
  rw [he] at hv
  obtain ⟨tr, t1, t2⟩ := hv
  unfold vertexList
  rw [List.mem_flatMap]
  exact ⟨tr, t1, by simpa using t2⟩

/-- The values of points near the same rows are the same. -/
theorem valuesOf_same {mtol rtol : ℝ} {rows : List (List (Option ℝ))} {n : ℕ} {q q' : V} {v v' : List (Option ℝ)}
    (h : ValuesOf mtol rtol rows n q v) (h' : ValuesOf mtol rtol rows n q' v') (hs : ∀ r ∈ rows, Within mtol q r ↔ Within mtol q' r) :
    v = v' := by
  rcases h with ⟨k, r, k1, k2, k3, rfl⟩ | ⟨hno, rfl⟩
  · rcases h' with ⟨k', r', j1, j2, j3, rfl⟩ | ⟨hno', rfl⟩
    · have hk : k = k' := by
        rcases lt_trichotomy k k' with hlt | heq | hgt
        · exact absurd ((hs r (List.mem_of_getElem? k1)).1 k2) (j3 k hlt r k1)
        · exact heq
        · exact absurd ((hs r' (List.mem_of_getElem? j1)).2 j2) (k3 k' hgt r' j1)
      subst hk
      rw [k1] at j1
      cases j1
      rfl
    · exact absurd ((hs r (List.mem_of_getElem? k1)).1 k2) (hno' r (List.mem_of_getElem? k1))
  · rcases h' with ⟨k', r', j1, j2, -, rfl⟩ | ⟨-, rfl⟩
    · exact absurd ((hs r' (List.mem_of_getElem? j1)).2 j2) (hno r' (List.mem_of_getElem? j1))
    · rfl

/-- C125 fails for vertices closer than the tolerance: for every match tolerance, and every wedge thin enough, the upper and the lower
corner of the first section are points of the `.tri` file that coincide with vertices and get the same values, although the
sensitivities of their heights to the thickness are 1/2 and -1/2. -/
theorem C125_violated (fmt : Option ℝ → String) (h : Heap) (id : ℕ) (lib : Lib) (depth : ℕ) (self : Study)
    (hcf : self.combinedFn = "all_components_sensitivity.csv") (run : Run) (p : ℝ) (hp : p ≠ 0) (write : Bool)
    (pre : Option String) (mtol rtol : ℝ) (hm : 0 < mtol) : ∃ t0 > 0, ∀ t, 0 < t → t < t0 →
    ∃ T self' run' M path evs x y,
      dvdp self (Wedge.ctor h id) lib depth run (numbers [("thickness", t)]) (numbers []) p write pre = (.ok T, self', run') ∧
      Generates (Wedge.ctor h id) lib depth (kwGiven run.store (numbers [("thickness", t)]) (numbers [])) "swept_1" M ∧
      x ∈ vertexList M ∧ y ∈ vertexList M ∧ wedgeRate "thickness" t x = ⟨some 0, some (1 / 2), some 0⟩ ∧
      wedgeRate "thickness" t y = ⟨some 0, some (-1 / 2), some 0⟩ ∧
      self'.toCsv "." none = (.ok path, evs) ∧ ∀ fs, ReadsBack evs fs → ∃ vx vy arrays,
        (appendToTri fmt fs ["./swept_1_sensitivity.csv"] [[x.x, x.y, x.z], [y.x, y.y, y.z]] mtol rtol).result =
          .ok (1, ⟨["x", "y", "z", "dxdthickness", "dydthickness", "dzdthickness"],
            [some x.x :: some x.y :: some x.z :: vx, some y.x :: some y.y :: some y.z :: vy]⟩, arrays) ∧ vx = vy := by
  obtain ⟨g1, M1, d1, -, -, -, hg1, hM1, -⟩ := wedge_pair h id 1 1 1 1 1 1
  obtain ⟨B, hB⟩ : ∃ B : ℝ, ∀ x ∈ vertexList M1, |x.y| ≤ B := by
    have : ∀ L : List V, ∃ B : ℝ, ∀ x ∈ L, |x.y| ≤ B := by
      intro L
      induction L with
      | nil => exact ⟨0, by simp⟩
      | cons a L ih =>
        obtain ⟨B, hB⟩ := ih
        refine ⟨max |a.y| B, fun x hx => ?_⟩
        rcases List.mem_cons.1 hx with rfl | hx
        · exact le_max_left _ _
        · exact (hB x hx).trans (le_max_right _ _)
    exact this _
  have hB0 : 0 ≤ B := (abs_nonneg _).trans (hB _ (wedge_corner h id 1 1 1 g1 M1 d1 hg1 hM1 0 (by norm_num)))
  refine ⟨mtol / (2 * B + 1), by positivity, fun t ht0 ht => ?_⟩
  have htB : t * (2 * B + 1) < mtol := (lt_div_iff₀ (by linarith)).1 ht
  obtain ⟨T, self', run', M, Mp, d, hd, m1, m2, hln, e1, e2⟩ := wedge_setting h id lib depth self run [("thickness", t)] [] (by simp)
    (by simp [Dict.keys]) p write pre
  obtain ⟨ga, Ma, da, g, M', dd, hga, hMa, hg, hM', htris⟩ := wedge_pair h id 1 1 1 1 t 1
  rw [hg1] at hga
  cases hga
  rw [hM1] at hMa
  cases hMa
  rw [mul_one, mul_one] at hg
  have hM : M' = M := by
    have := wedge_makes h id lib depth [("thickness", t)] (by simp [Dict.keys]) 1 1 t (.inr ⟨by simp, rfl⟩) (.inr ⟨by simp, rfl⟩)
      (.inl (by simp)) g M' dd hg hM'
    rw [vals_given] at m1
    exact generates_unique (makes_generates this) (makes_generates m1)
  subst hM
  have hx := wedge_corner h id 1 1 t g M' dd hg hM' 0 (by norm_num)
  have hy := wedge_corner h id 1 1 t g M' dd hg hM' 2 (by norm_num)
  have hbound : ∀ v ∈ vertexList M', |v.y| ≤ t * B := by
    intro v hv
    rw [vertexList_map M1 M' _ htris] at hv
    obtain ⟨u, hu, rfl⟩ := List.mem_map.1 hv
    show |t * u.y| ≤ _
    rw [abs_mul, abs_of_pos ht0]
    exact mul_le_mul_of_nonneg_left (hB u hu) ht0.le
  obtain ⟨f1, f2, f3⟩ := wedge_files self hcf
  set x : V := ⟨wedgeX 1 0, wedgeY t 0, -(1 / 2)⟩ with hxd
  set y : V := ⟨wedgeX 1 2, wedgeY t 2, -(1 / 2)⟩ with hyd
  obtain ⟨path, evs, k1, k2⟩ := tri_pipeline fmt hln hd hp (by simpa using ht0.ne') "." none d e1 (by rw [e2]; simp)
    (by rw [e2]; intro n hn; rw [List.mem_singleton.1 hn]; exact f2) f1
    (by intro e he; rw [List.mem_singleton.1 he]; show PlainName "thickness"; unfold PlainName; decide) ["swept_1"] (by simp)
    (by intro c hc; rw [List.mem_singleton.1 hc]; exact f3) (fun _ => M') (fun _ => Mp)
    (by intro c hc; rw [List.mem_singleton.1 hc]; exact makes_generates m1)
    (by
      intro c hc e he
      rw [List.mem_singleton.1 hc]
      exact ⟨makes_generates (m2 e he).1, wedge_together (m2 e he).2⟩)
    "all_components_sensitivity.csv" (by decide) [[x.x, x.y, x.z], [y.x, y.y, y.z]] [x, y] (by simp) (by simp) mtol rtol
  refine ⟨T, self', run', M', path, evs, x, y, hd, makes_generates m1, hx, hy, ?_, ?_, k1, fun fs hfs => ?_⟩
  · simp [wedgeRate, hxd, wedgeY]
    field_simp
  · simp [wedgeRate, hyd, wedgeY]
    field_simp
  · obtain ⟨rows, vals, arrays, r1, r2, r3, r4⟩ := k2 fs hfs
    cases r2 with
    | cons v1 r2 =>
    cases r2 with
    | cons v2 r2 =>
    cases r2
    rename_i vx vy
    have hfr : matchedFraction mtol rows [x, y] = 1 := by
      rw [(C86_fraction _ _ _ (by simp)).2.2]
      intro q hq
      have hqv : q ∈ vertexList M' := by
        rcases List.mem_cons.1 hq with rfl | hq
        · exact hx
        · rw [List.mem_singleton.1 hq]; exact hy
      obtain ⟨i, -, hr⟩ := r4 "swept_1" (by simp) q hqv
      exact ⟨_, hr, (within_rowOf _ _ _ _).2 ⟨by simpa using hm, by simpa using hm, by simpa using hm⟩⟩
    rw [hfr] at r1
    refine ⟨vx, vy, arrays, r1, valuesOf_same v1 v2 fun r hr => ?_⟩
    obtain ⟨c, -, i, u, hu, rfl⟩ := r3 r hr
    rw [within_rowOf, within_rowOf]
    have hub := hbound u (List.mem_of_getElem? hu)
    have hnear : ∀ q ∈ vertexList M', |q.y - u.y| < mtol := by
      intro q hq
      have := hbound q hq
      have := abs_sub q.y u.y
      nlinarith
    unfold Close
    have hxx : x.x = y.x := rfl
    have hzz : x.z = y.z := rfl
    rw [hxx, hzz]
    constructor
    · rintro ⟨a, -, b⟩
      exact ⟨a, hnear y hy, b⟩
    · rintro ⟨a, -, b⟩
      exact ⟨a, hnear x hx, b⟩

end HV
