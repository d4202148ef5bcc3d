import Verif.Model.Results
import Verif.Props.Inertia

/-!
# The analysis files written by `to_stl`: C116
-/

namespace HV
open Spec Veh

namespace Spec

/-- The table of masses, volumes and areas: a row for every part, then a row with the sums. -/
def SumTable (rows parts : List VmRow) : Prop :=
  rows = parts ++ [⟨"vehicle", (parts.map VmRow.mass).sum, (parts.map VmRow.volume).sum, (parts.map VmRow.area).sum⟩]

/-- What the library reports for the component `e` with the given density is in the row `r`; `c` is its centre. -/
def RowOf (lib : Lib) (dens : Dict String ℝ) (h : Heap) (e : String × ℕ) (q : VmRow × V) : Prop :=
  q.1.label = e.1 ∧ ∃ M c ρ p, (h e.2).mesh = (.ok M, c) ∧ dens.get? e.1 = some ρ ∧ lib.massProps M ρ = .ok p ∧
    q.1.mass = p.mass ∧ q.1.volume = p.volume ∧ q.1.area = lib.area M ∧ q.2 = p.cog

/-- The three analysis files with prefix `p` report one analysis of the components with the densities `dens`: the table lists
what the library reports for each component, and their sums; the centre of gravity is the mean of the components' centres
weighted with the masses in the table (nothing finite when their sum is 0). -/
def Documents (lib : Lib) (st : VState) (dens : Dict String ℝ) (p : String) (files : List (String × Content)) : Prop :=
  ∃ (parts : List (VmRow × V)) (rows : List VmRow) (g : Option V) (I : Option (Fin 3 → Fin 3 → ℝ)),
    files = [(p ++ "_properties/" ++ p ++ "_volmass.csv", .table rows), (p ++ "_properties/" ++ p ++ "_cog.txt", .vec g),
      (p ++ "_properties/" ++ p ++ "_moi.txt", .mat I)] ∧
    List.Forall₂ (RowOf lib dens st.heap) st.veh.named parts ∧ SumTable rows (parts.map Prod.fst) ∧
    (((parts.map fun q => q.1.mass).sum = 0 ∧ g = none) ∨
     ((parts.map fun q => q.1.mass).sum ≠ 0 ∧ g = some (weightedMean (parts.map fun q => (q.1.mass, q.2)))))

/-- The files report some analysis of the vehicle. -/
def DocumentsSome (lib : Lib) (st : VState) (p : String) (files : List (String × Content)) : Prop :=
  ∃ dens, Documents lib st dens p files

end Spec

/-- The rows of an analysis, with the centres. -/
def partsOf (a : Analysis) : List (VmRow × V) :=
  a.components.map fun e => (⟨e.1, e.2.props.mass, e.2.props.volume, e.2.area⟩, e.2.props.cog)

theorem volmass_sums (a : Analysis) (hv : a.volume = (a.components.map fun q => q.2.props.volume).sum)
    (hm : a.mass = (a.components.map fun q => q.2.props.mass).sum) (ha : a.area = (a.components.map fun q => q.2.area).sum) :
    SumTable (volmass a) ((partsOf a).map Prod.fst) := by
  unfold SumTable volmass partsOf
  simp [Function.comp_def, hv, hm, ha]

theorem partsOf_rows (lib : Lib) (dens : Dict String ℝ) (h : Heap) (named : List (String × ℕ)) (l : List (String × CompProps))
    (hl : List.Forall₂ (AssessedAs lib dens h) named l) :
    List.Forall₂ (RowOf lib dens h) named (l.map fun e => ((⟨e.1, e.2.props.mass, e.2.props.volume, e.2.area⟩ : VmRow), e.2.props.cog)) := by
  induction hl with
  | nil => exact .nil
  | cons h1 _ ih =>
    obtain ⟨q1, M, c, ρ, q2, q3, q4, q5⟩ := h1
    exact .cons ⟨q1, M, c, ρ, _, q2, q3, q4, rfl, rfl, q5, rfl⟩ ih

/-- If the table and the arrays come from the same analysis of the vehicle, the files report it. -/
theorem reports_of (lib : Lib) (st s : VState) (dens : Dict String ℝ) (a : Analysis) (v : Veh) (p : String)
    (h : analyseGenerated lib st dens = (.ok a, s)) (h1 : v.analysis = some a) (h2 : v.analysisResults = some a) :
    ∃ files, resultFiles v p = .ok files ∧ Documents lib st dens p files := by
  obtain ⟨l, hl, hs⟩ := (analyseGenerated_ok lib st dens a).1 ⟨s, h⟩
  obtain ⟨rfl, hne, hv, hm, ha, z0, z1⟩ := summarise_ok l a hs
  refine ⟨_, by simp only [resultFiles, h2, h1], partsOf a, volmass a, a.cog, a.moi, rfl, partsOf_rows lib dens st.heap _ _ hl,
    volmass_sums a hv hm ha, ?_⟩
  have e : ((partsOf a).map fun q => q.1.mass).sum = a.mass := by rw [hm]; simp [partsOf, Function.comp_def]
  have e' : ((partsOf a).map fun q => (q.1.mass, q.2)) = masses a := by simp [partsOf, masses, Function.comp_def]
  rw [e, e']
  by_cases hz : a.mass = 0
  · exact .inl ⟨hz, (z0 hz).1⟩
  · exact .inr ⟨hz, cog_mean _ a hs hz⟩

theorem analyseGenerated_sets (lib : Lib) (st st' : VState) (dens : Dict String ℝ) (a : Analysis)
    (h : analyseGenerated lib st dens = (.ok a, st')) : st'.veh = { st.veh with analysis := some a } := by
  unfold analyseGenerated at h
  rcases hc : assessAll lib dens st.heap st.veh.named with ⟨x | l, g⟩
  · rw [hc] at h; simp at h
  · rw [hc] at h
    simp only at h
    rcases hs : summarise l with x | b
    · rw [hs] at h; simp at h
    · rw [hs] at h
      simp only [Prod.mk.injEq, Except.ok.injEq] at h
      rw [← h.2, ← h.1]

theorem genAnalyse_sets (lib : Lib) (depth : ℕ) (s0 st' : VState) (dens : Dict String ℝ) (hne : dens ≠ [])
    (hg : s0.veh.generated = true) (ho : s0.veh.analyseOn = some dens)
    (ha : genAnalyse (analyse lib (depth + 1)) s0 = (.ok (), st')) :
    ∃ a s, analyseGenerated lib s0 dens = (.ok a, s) ∧ st'.heap = s.heap ∧
      st'.veh = { s0.veh with analysis := some a, analysisResults := some a } := by
  unfold genAnalyse at ha
  rcases dens with _ | ⟨d, ds⟩
  · exact absurd rfl hne
  · rw [ho] at ha
    simp only at ha
    rw [analyse_generated lib depth _ _ hg] at ha
    rcases hx : analyseGenerated lib s0 (d :: ds) with ⟨x | a, s⟩
    · rw [hx] at ha; simp at ha
    · rw [hx] at ha
      simp only [Prod.mk.injEq, true_and] at ha
      refine ⟨a, s, rfl, by rw [← ha], ?_⟩
      rw [← ha, analyseGenerated_sets lib s0 s _ a hx]

/-- C116 (partial: `to_stl` follows a `generate` that analysed, with nothing in between): the files written report one analysis,
with the densities requested, of the generated geometry. -/
theorem C116_generated_partial (lib : Lib) (depth : ℕ) (st st' : VState) (dens : Dict String ℝ) (hne : dens ≠ [])
    (ho : st.veh.analyseOn = some dens) (h : generate lib (depth + 1) st = (.ok (), st')) (p : String) :
    ∃ files, resultFiles st'.veh p = .ok files ∧ Documents lib st' dens p files := by
  obtain ⟨h1, h2, -, -, ha, -, -⟩ := generate_steps lib (depth + 1) st st' h
  obtain ⟨a, s, e1, e2, e3⟩ := genAnalyse_sets lib depth ⟨h2, { st.veh with generated := true }⟩ st' dens hne rfl ho ha
  obtain ⟨s'', h''⟩ := analyseGenerated_again lib _ s st' _ a e1 e2 (by rw [e3])
  exact reports_of lib st' s'' dens a st'.veh p h'' (by rw [e3]) (by rw [e3])

/-- C116: an analysis made after generating changes the table and nothing else: the files then combine the table of the
latest analysis with the centre of gravity and inertia of the analysis made by `generate`. -/
theorem C116_split (lib : Lib) (depth : ℕ) (st st' : VState) (r b : Analysis) (dens : Dict String ℝ) (hg : st.veh.generated = true)
    (hr : st.veh.analysisResults = some r) (h : analyse lib (depth + 1) st dens = (.ok b, st')) (p : String) :
    resultFiles st'.veh p = .ok [(p ++ "_properties/" ++ p ++ "_volmass.csv", .table (volmass b)),
      (p ++ "_properties/" ++ p ++ "_cog.txt", .vec r.cog), (p ++ "_properties/" ++ p ++ "_moi.txt", .mat r.moi)] ∧
    SumTable (volmass b) ((partsOf b).map Prod.fst) := by
  rw [analyse_generated lib depth st dens hg] at h
  have e := analyseGenerated_sets lib st st' dens b h
  obtain ⟨l, hl, hs⟩ := (analyseGenerated_ok lib st dens b).1 ⟨st', h⟩
  obtain ⟨rfl, hne, hv, hm, ha, -⟩ := summarise_ok l b hs
  exact ⟨by simp only [resultFiles, e, hr], volmass_sums b hv hm ha⟩

/-- C116: transforming the vehicle leaves the analysis files as they were, whatever the transformation does to the geometry. -/
theorem C116_stale (st st' : VState) (t : TransfArg) (h : transform st t = (.ok (), st')) (p : String) :
    resultFiles st'.veh p = resultFiles st.veh p := by
  unfold transform at h
  split at h
  · simp only [Prod.mk.injEq] at h
    rw [← h.2]
  · cases h

/-- C116: the files with contents are the ones `to_stl` writes. -/
theorem C116_paths (v : Veh) (p : String) (files : List (String × Content)) (h : resultFiles v p = .ok files) :
    resultEvents v p = if files = [] then [] else .dir (p ++ "_properties") :: files.map fun f => .file f.1 := by
  unfold resultFiles at h
  unfold resultEvents
  rcases hr : v.analysisResults with _ | r
  · rw [hr] at h
    cases h
    simp
  · rw [hr] at h
    rcases ha : v.analysis with _ | a
    · rw [ha] at h; cases h
    · rw [ha] at h
      cases h
      simp

/-- The components `a` and `b` have the meshes of the vehicle of C79. -/
def DemoMeshes (h : Heap) : Prop := (∃ c, (h 0).mesh = (.ok (demoMeshAt 0), c)) ∧ ∃ c, (h 1).mesh = (.ok (demoMeshAt 3), c)

theorem demoMeshes_analyse (h : Heap) (v : Veh) (hv : v.named = [("a", 0), ("b", 1)]) (hm : DemoMeshes h) (ρ σ : ℝ) (hs : ρ + σ ≠ 0) :
    ∃ a s, analyseGenerated demoLib ⟨h, v⟩ [("a", ρ), ("b", σ)] = (.ok a, s) ∧ DemoMeshes s.heap ∧
      s.veh = { v with analysis := some a } ∧ a.cog = some ⟨3 * σ / (ρ + σ), 0, 0⟩ ∧
      volmass a = [⟨"a", ρ, 1, 2⟩, ⟨"b", σ, 1, 2⟩, ⟨"vehicle", ρ + σ, 2, 4⟩] := by
  obtain ⟨⟨c0, m0⟩, c1, m1⟩ := hm
  have hl : List.Forall₂ (AssessedAs demoLib [("a", ρ), ("b", σ)] h) v.named
      [("a", ⟨⟨1, ρ, ⟨0, 0, 0⟩, fun i j => if i = j then 1 else 0⟩, 2⟩),
       ("b", ⟨⟨1, σ, ⟨3, 0, 0⟩, fun i j => if i = j then 1 else 0⟩, 2⟩)] := by
    rw [hv]
    exact .cons ⟨rfl, demoMeshAt 0, c0, ρ, m0, rfl, rfl, rfl⟩
      (.cons ⟨rfl, demoMeshAt 3, c1, σ, m1, by simp [Dict.get?], rfl, rfl⟩ .nil)
  obtain ⟨a, hs'⟩ : ∃ a, summarise [("a", (⟨⟨1, ρ, ⟨0, 0, 0⟩, fun i j => if i = j then 1 else 0⟩, 2⟩ : CompProps)),
       ("b", ⟨⟨1, σ, ⟨3, 0, 0⟩, fun i j => if i = j then 1 else 0⟩, 2⟩)] = .ok a := by
    unfold summarise compositeCog
    simp only
    split
    · exact ⟨_, rfl⟩
    · exact ⟨_, rfl⟩
  obtain ⟨s, hx⟩ := (analyseGenerated_ok demoLib ⟨h, v⟩ [("a", ρ), ("b", σ)] a).2 ⟨_, hl, hs'⟩
  have hsame := analyseGenerated_same demoLib _ s _ a hx
  obtain ⟨e1, -, e2, e3, e4, -⟩ := summarise_ok _ a hs'
  have hmass : a.mass = ρ + σ := by rw [e3]; simp
  refine ⟨a, s, hx, ⟨((hsame 0).2 _).2 ⟨c0, m0⟩, ((hsame 1).2 _).2 ⟨c1, m1⟩⟩, analyseGenerated_sets demoLib _ s _ a hx, ?_, ?_⟩
  · rw [cog_mean _ a hs' (by rw [hmass]; exact hs)]
    simp only [masses, e1, weightedMean]
    congr 1
    ext <;> simp
    ring
  · simp only [volmass, e1, hmass, e2, e4]
    norm_num

theorem demoToAnalyse_generated : ∃ st' a, generate demoLib 1 demoToAnalyse = (.ok (), st') ∧ DemoMeshes st'.heap ∧
    st'.veh = { demoToAnalyse.veh with generated := true, analysis := some a, analysisResults := some a } ∧
    a.cog = some ⟨2, 0, 0⟩ := by
  obtain ⟨h1, hg, m0, m1⟩ : ∃ h1, genAll demoToAnalyse.veh.angleOffset demoToAnalyse.heap demoToAnalyse.veh.components = (.ok (), h1) ∧
      (h1 0).mesh_ = some (demoMeshAt (3 * (0 : ℕ))) ∧ (h1 1).mesh_ = some (demoMeshAt (3 * (1 : ℕ))) := ⟨_, rfl, rfl, rfl⟩
  have hm : ∀ (c : Comp) (x : ℝ), c.mesh_ = some (demoMeshAt x) → c.mesh = (.ok (demoMeshAt x), c) := by
    intro c x hc
    simp [Comp.mesh, hc, demoMeshAt, StlMesh.ofTris]
  simp only [Nat.cast_zero, mul_zero, Nat.cast_one, mul_one] at m0 m1
  obtain ⟨a, s, e1, e2, e3, e4, -⟩ := demoMeshes_analyse h1 { demoToAnalyse.veh with generated := true } rfl
    ⟨⟨_, hm _ _ m0⟩, _, hm _ _ m1⟩ 1 2 (by norm_num)
  refine ⟨⟨s.heap, { s.veh with analysisResults := some a }⟩, a, ?_, e2, by rw [e3], by rw [e4]; norm_num⟩
  rw [C79_no_nested demoLib 0]
  unfold generateWith
  rw [hg]
  have e : genTransform ⟨h1, { demoToAnalyse.veh with generated := true }⟩ =
      (.ok (), ⟨h1, { demoToAnalyse.veh with generated := true }⟩) := by simp [genTransform, demoToAnalyse]
  simp only
  rw [e]
  simp only
  have ho : ∀ (an : Analyser) (s0 : VState) (d : String × ℝ) (ds : Dict String ℝ), s0.veh.analyseOn = some (d :: ds) →
      an s0 (d :: ds) = (.ok a, s) → genAnalyse an s0 = (.ok (), ⟨s.heap, { s.veh with analysisResults := some a }⟩) := by
    intro an s0 d ds h1 h2
    unfold genAnalyse
    rw [h1]
    simp only
    rw [h2]
  exact ho _ _ _ _ rfl e1

/-- The hypotheses of `C116_generated_partial` and `C116_split` hold for this vehicle. -/
example : ∃ st' st'' a b, generate demoLib 1 demoToAnalyse = (.ok (), st') ∧ st'.veh.generated = true ∧
    st'.veh.analysisResults = some a ∧ analyse demoLib 1 st' [("a", 2), ("b", 1)] = (.ok b, st'') := by
  obtain ⟨st', a, h1, h2, h3, h4⟩ := demoToAnalyse_generated
  obtain ⟨b, s, e1, -⟩ := demoMeshes_analyse st'.heap st'.veh (by rw [h3]; rfl) h2 2 1 (by norm_num)
  exact ⟨st', s, a, b, h1, by rw [h3], by rw [h3], by rw [analyse_generated _ _ _ _ (by rw [h3])]; exact e1⟩

/-- C116 fails for a vehicle which is generated with an analysis and then analysed with other densities (`vehicle.py:367-378`:
the table is that of the latest `analyse`, the centre of gravity that of `generate`): the files written report no analysis
of the vehicle at all.  Here the table gives the masses 2 and 1 of components centred at `x = 0` and `x = 3`, and the centre of
gravity is written as `x = 2`. -/
theorem C116_violated : ∃ st1 st2 b files, generate demoLib 1 demoToAnalyse = (.ok (), st1) ∧
    analyse demoLib 1 st1 [("a", 2), ("b", 1)] = (.ok b, st2) ∧ resultFiles st2.veh "v" = .ok files ∧
    ¬ DocumentsSome demoLib st2 "v" files := by
  obtain ⟨st', a, h1, h2, h3, h4⟩ := demoToAnalyse_generated
  obtain ⟨b, s, e1, e2, e3, -, e5⟩ := demoMeshes_analyse st'.heap st'.veh (by rw [h3]; rfl) h2 2 1 (by norm_num)
  have han : analyse demoLib 1 st' [("a", 2), ("b", 1)] = (.ok b, s) := by
    rw [analyse_generated _ _ _ _ (by rw [h3])]; exact e1
  obtain ⟨hf, -⟩ := C116_split demoLib 0 st' s a b _ (by rw [h3]) (by rw [h3]) han "v"
  refine ⟨st', s, b, _, h1, han, hf, ?_⟩
  rintro ⟨dens, parts, rows, g, I, r1, r2, r3, r4⟩
  simp only [List.cons.injEq, Prod.mk.injEq, true_and, Content.table.injEq, Content.vec.injEq] at r1
  obtain ⟨rfl, rfl, -⟩ := r1
  rw [show s.veh.named = [("a", 0), ("b", 1)] by rw [e3, h3]; rfl] at r2
  obtain ⟨⟨c0, m0⟩, c1, m1⟩ := e2
  rcases r2 with _ | ⟨⟨-, M0, d0, ρ0, p0, a1, a2, a3, a4, -, -, a7⟩, _ | ⟨⟨-, M1, d1, ρ1, p1, b1, b2, b3, b4, -, -, b7⟩, ⟨⟩⟩⟩
  rename_i q0 q1
  simp only at a1 b1
  rw [m0] at a1
  rw [m1] at b1
  cases a1
  cases b1
  rw [SumTable, e5] at r3
  simp only [List.map_cons, List.map_nil, List.cons_append, List.nil_append, List.cons.injEq] at r3
  have k0 : q0.1.mass = 2 := by rw [← r3.1]
  have k1 : q1.1.mass = 1 := by rw [← r3.2.1]
  have g0 : q0.2 = ⟨0, 0, 0⟩ := by rw [a7]; simp only [demoLib, demoMeshAt, StlMesh.ofTris] at a3; cases a3; rfl
  have g1 : q1.2 = ⟨3, 0, 0⟩ := by rw [b7]; simp only [demoLib, demoMeshAt, StlMesh.ofTris] at b3; cases b3; rfl
  rw [h4] at r4
  rcases r4 with ⟨-, r4⟩ | ⟨-, r4⟩
  · cases r4
  · simp only [weightedMean, List.map_cons, List.map_nil, k0, k1, g0, g1, Option.some.injEq, Vec.mk.injEq] at r4
    norm_num at r4

/-- C116 fails for results computed by calling `analyse`: `to_stl` promises to write analysis results that are present, but
writes those of `generate` only. -/
theorem C116_unwritten_violated : ∃ a st', analyse demoLib 1 demoAnalysed [("a", 1), ("b", 2)] = (.ok a, st') ∧
    st'.veh.analysis = some a ∧ (∀ p, resultEvents st'.veh p = []) ∧ ∀ p, ¬ ∃ files, resultFiles st'.veh p = .ok files ∧
      DocumentsSome demoLib st' p files := by
  obtain ⟨a, st', h, -⟩ := demoAnalysed_ok 1 2 0
  have e := analyseGenerated_sets demoLib demoAnalysed st' [("a", 1), ("b", 2)] a
    (by rw [← analyse_generated demoLib 0 demoAnalysed _ rfl]; exact h)
  have hn : st'.veh.analysisResults = none := by rw [e]; rfl
  refine ⟨a, st', h, by rw [e], fun p => by simp [resultEvents, hn], ?_⟩
  rintro p ⟨files, hf, dens, parts, rows, g, I, r1, -⟩
  simp only [resultFiles, hn] at hf
  cases hf
  cases r1

/-- C116: a component called "vehicle" gives the table two rows of this label, the last of which is the total. -/
theorem C116_label (lib : Lib) (st : VState) (dens : Dict String ℝ) (a : Analysis) (h : Totals lib st dens a) (id : ℕ)
    (hn : ("vehicle", id) ∈ st.veh.named) : 2 ≤ ((volmass a).filter fun r => r.label = "vehicle").length := by
  obtain ⟨i, hi, e⟩ := List.getElem_of_mem hn
  obtain ⟨q1, -⟩ := List.forall₂_iff_get.1 h.components |>.2 i hi (by rw [← h.components.length_eq]; exact hi)
  have hmem : ∃ q ∈ a.components, q.1 = "vehicle" :=
    ⟨_, List.getElem_mem (by rw [← h.components.length_eq]; exact hi), by simpa [e] using q1⟩
  unfold volmass
  rw [List.filter_append, List.length_append]
  have h1 : 0 < ((a.components.map fun e => (⟨e.1, e.2.props.mass, e.2.props.volume, e.2.area⟩ : VmRow)).filter
      fun r => r.label = "vehicle").length := by
    obtain ⟨q, hq, hq'⟩ := hmem
    refine List.length_pos_of_mem (a := ⟨q.1, q.2.props.mass, q.2.props.volume, q.2.area⟩) ?_
    rw [List.mem_filter]
    exact ⟨List.mem_map.2 ⟨q, hq, rfl⟩, by simp [hq']⟩
  simp
  omega

/-- Vehicles made by the calls of the API. -/
inductive Made (lib : Lib) : VState → Prop
  | new (h : Heap) : Made lib ⟨h, {}⟩
  | heap (st : VState) (h : Heap) : Made lib st → Made lib ⟨h, st.veh⟩
  | configure (st : VState) (n : Option String) (k : ℤ) : Made lib st → Made lib ⟨st.heap, st.veh.configure n k⟩
  | add (st : VState) (id : ℕ) (o : AddOpts) : Made lib st → Made lib (addComponent st id o).2
  | later (st : VState) (d : Dict String ℝ) : Made lib st → Made lib ⟨st.heap, st.veh.analyseAfterGenerating d⟩
  | transformations (st : VState) (t : TransfArg) : Made lib st → Made lib ⟨st.heap, st.veh.addVehicleTransformations t⟩
  | property (st : VState) (n : String) (x : ℝ) : Made lib st → Made lib ⟨st.heap, st.veh.addProperty n x⟩
  | generate (st : VState) (depth : ℕ) : Made lib st → Made lib (generate lib depth st).2
  | analyse (st : VState) (depth : ℕ) (d : Dict String ℝ) : Made lib st → Made lib (analyse lib depth st d).2
  | transform (st : VState) (t : TransfArg) : Made lib st → Made lib (transform st t).2
  | toStl (st : VState) (pre : Option String) (m : MergeArg) : Made lib st → Made lib (toStl st pre m).2.2

/-- There is a table whenever there are results to write. -/
def HasTable (v : Veh) : Prop := v.analysisResults.isSome = true → v.analysis.isSome = true

theorem analyseGenerated_table (lib : Lib) (st : VState) (d : Dict String ℝ) (h : HasTable st.veh) :
    HasTable (analyseGenerated lib st d).2.veh ∧ ((analyseGenerated lib st d).1.isOk = true →
      (analyseGenerated lib st d).2.veh.analysis.isSome = true) := by
  unfold analyseGenerated
  rcases assessAll lib d st.heap st.veh.named with ⟨x | l, g⟩
  · exact ⟨h, by simp [Except.isOk, Except.toBool]⟩
  · simp only
    rcases summarise l with x | a
    · exact ⟨h, by simp [Except.isOk, Except.toBool]⟩
    · exact ⟨fun _ => rfl, fun _ => rfl⟩

theorem generateWith_table (an : Analyser)
    (han : ∀ st d, HasTable st.veh → HasTable (an st d).2.veh ∧ ((an st d).1.isOk = true → (an st d).2.veh.analysis.isSome = true))
    (st : VState) (h : HasTable st.veh) : HasTable (generateWith an st).2.veh := by
  unfold generateWith
  rcases genAll st.veh.angleOffset st.heap st.veh.components with ⟨x | _, h1⟩
  · exact h
  · simp only
    have ht : HasTable (genTransform ⟨h1, { st.veh with generated := true }⟩).2.veh := by
      unfold genTransform
      split
      · exact h
      · simp only [Veh.transform, if_true]
        exact h
    rcases hx : genTransform ⟨h1, { st.veh with generated := true }⟩ with ⟨x | _, s⟩
    · rw [hx] at ht; exact ht
    · rw [hx] at ht
      simp only
      unfold genAnalyse
      rcases s.veh.analyseOn with _ | _ | ⟨d, ds⟩
      · exact ht
      · exact ht
      · simp only
        have := han s (d :: ds) ht
        rcases hy : an s (d :: ds) with ⟨x | a, s'⟩
        · rw [hy] at this; exact this.1
        · rw [hy] at this
          exact fun _ => this.2 rfl

theorem analyse_table (lib : Lib) (depth : ℕ) : ∀ st d, HasTable st.veh → HasTable (Veh.analyse lib depth st d).2.veh ∧
    ((Veh.analyse lib depth st d).1.isOk = true → (Veh.analyse lib depth st d).2.veh.analysis.isSome = true) := by
  induction depth with
  | zero => exact fun st d h => ⟨h, by simp [Veh.analyse, Except.isOk, Except.toBool]⟩
  | succ n ih =>
    intro st d h
    unfold Veh.analyse analyseWith
    split
    · exact analyseGenerated_table lib st d h
    · have hg := generateWith_table _ ih st h
      rcases hx : generateWith (Veh.analyse lib n) st with ⟨x | _, s⟩
      · rw [hx] at hg; exact ⟨hg, by simp [Except.isOk, Except.toBool]⟩
      · rw [hx] at hg; exact analyseGenerated_table lib s d hg

theorem made_table (lib : Lib) (st : VState) (h : Made lib st) : HasTable st.veh := by
  induction h with
  | new h => intro h'; cases h'
  | heap st h _ ih => exact ih
  | configure st n k _ ih => cases n <;> exact ih
  | add st id o _ ih =>
    unfold addComponent
    split <;> exact ih
  | later st d _ ih => exact ih
  | transformations st t _ ih => exact ih
  | property st n x _ ih => exact ih
  | generate st depth _ ih => exact generateWith_table _ (analyse_table lib depth) st ih
  | analyse st depth d _ ih => exact (analyse_table lib depth st d ih).1
  | transform st t _ ih =>
    unfold Veh.transform
    split <;> exact ih
  | toStl st pre m _ ih =>
    unfold Veh.toStl
    rcases writeAll pre st.veh.name [] st.heap st.veh.components with ⟨x | _, ev, g⟩ <;> exact ih

/-- C116: whatever calls were made before, including failed ones, writing the analysis files does not fail for want of the
table. -/
theorem C116_no_crash (lib : Lib) (st : VState) (h : Made lib st) (p : String) : ∃ files, resultFiles st.veh p = .ok files := by
  have := made_table lib st h
  unfold resultFiles
  rcases hr : st.veh.analysisResults with _ | r
  · exact ⟨_, rfl⟩
  · rcases ha : st.veh.analysis with _ | a
    · exact absurd (this (by rw [hr]; rfl)) (by rw [ha]; simp)
    · exact ⟨_, rfl⟩

/-- `C116_no_crash` applies to a vehicle with components after generating, analysing and moving it. -/
example : Made demoLib (transform (analyse demoLib 3 (generate demoLib 2 ⟨demoToAnalyse.heap,
    Veh.analyseAfterGenerating {} [("a", 1)]⟩).2 [("a", 2)]).2 (.many CART3D)).2 :=
  .transform _ _ (.analyse _ _ _ (.generate _ _ (.later ⟨_, _⟩ _ (.new _))))

end HV
