import Verif.Model.Hangar8
import Verif.Props.Waverider
import Verif.Props.Settings
import Verif.Props.SymmetricFalcon

/-!
# C135: the densities and the fuselage of the waverider
-/

namespace HV
open Spec Veh

namespace Spec

/-- The names for which `ParametricWaverider` documents densities. -/
def waveriderNames : List String := ["fuselage", "wings", "right_flap", "left_flap", "fin"]

end Spec

/-- A request for an analysis does not affect what precedes the analysis. -/
theorem generate_request (lib : Lib) (depth : ℕ) (h : Heap) (v : Veh) (st' : VState)
    (hg : generate lib depth ⟨h, { v with analyseOn := none }⟩ = (.ok (), st')) (d : Option (Dict String ℝ)) (n : ℕ) :
    generate lib n ⟨h, { v with analyseOn := d }⟩ = genAnalyse (analyse lib n) ⟨st'.heap, { v with generated := true, analyseOn := d }⟩ := by
  unfold generate generateWith at hg ⊢
  simp only at hg ⊢
  rcases hx : genAll v.angleOffset h v.components with ⟨e | _, g⟩ <;> rw [hx] at hg
  · simp at hg
  · simp only at hg ⊢
    unfold genTransform at hg ⊢
    simp only at hg ⊢
    by_cases ht : v.transformations = []
    · rw [if_pos ht] at hg ⊢
      simp only [genAnalyse, Prod.mk.injEq, true_and] at hg ⊢
      rw [← hg]
    · rw [if_neg ht] at hg ⊢
      unfold transform at hg ⊢
      simp only [if_true] at hg ⊢
      rcases hy : transformAll g (TransfArg.many v.transformations).toList v.components with ⟨e | _, g'⟩ <;> rw [hy] at hg
      · simp at hg
      · simp only [genAnalyse, Prod.mk.injEq, true_and] at hg ⊢
        rw [← hg]

/-- A waverider, generated without analysis: its records and meshes. -/
theorem waverider_generated (ptan : ℝ → ℝ) (hT : FloatTan ptan) (h : Heap) (ids : ℕ → ℕ) (hi : Function.Injective ids) (nf nw nt : ℕ)
    (hf : 1 ≤ nf) (hw : 1 ≤ nw) (ht : 1 ≤ nt) (kwargs : Dict String ℝ) (p : Waverider.Params) (ha : WaveriderArgs kwargs p) (hp : WaveriderOk p)
    (dens : Option (Dict String ℝ)) :
    ∃ st st₁, Waverider.instanceWith bisect01 ptan h ids nf nw nt kwargs dens = .ok st ∧
      Waverider.instanceOf bisect01 ptan h ids nf nw nt kwargs = .ok st₁ ∧ st.veh = Waverider.request st₁.veh dens ∧
      st₁.veh.analyseOn = none ∧ st₁.veh.components = (List.range 5).map ids ∧
      st₁.veh.named = waveriderNames.zip ((List.range 5).map ids) ∧ (st.heap (ids 0)).name = some "fuselage" ∧ (st.heap (ids 0)).ghost = false ∧
      ∀ st0 lib, Rescaled st st0 → ∃ st', generate lib 0 ⟨st0.heap, st₁.veh⟩ = (.ok (), st') ∧
        ∀ i < 5, ∃ M c', (st'.heap (ids i)).mesh = (.ok M, c') := by
  obtain ⟨st₁, b1, b2, b3, -, -, b4, b5, -, mf, c, b6⟩ := waverider_meshes ptan hT h ids hi nf nw nt hf hw ht kwargs p ha hp
  refine ⟨⟨st₁.heap, Waverider.request st₁.veh dens⟩, st₁, by simp only [Waverider.instanceWith, b1, ok_bind]; rfl, b1, rfl, b4, b2, b3, ?_, ?_,
    fun st0 lib hr => ?_⟩
  · simp only [b5]; rfl
  · simp only [b5]; rfl
  · obtain ⟨A, st', n2, n3, -, -, g, ⟨M0, d0, m0, -⟩, ⟨M1, d1, m1, -⟩, ⟨-, -, M2, d2, m2, -⟩, ⟨-, -, M3, d3, m3, -⟩, ⟨M4, d4, m4, -⟩, -, -⟩ :=
      b6 ⟨st0.heap, st₁.veh⟩ lib 0 ⟨rfl, hr.2⟩
    refine ⟨st', g, fun i h5 => ?_⟩
    interval_cases i
    · exact ⟨M0, d0, m0⟩
    · exact ⟨M1, d1, m1⟩
    · exact ⟨M2, d2, m2⟩
    · exact ⟨M3, d3, m3⟩
    · exact ⟨M4, d4, m4⟩

theorem waverider_names_zip (ids : ℕ → ℕ) : waveriderNames.zip ((List.range 5).map ids) =
    [("fuselage", ids 0), ("wings", ids 1), ("right_flap", ids 2), ("left_flap", ids 3), ("fin", ids 4)] := rfl

/-- The first name without a density ends an assessment of meshed components with a `KeyError`. -/
theorem assessAll_key (lib : Lib) (hlib : ∀ M ρ, ∃ q, lib.massProps M ρ = .ok q) (dens : Dict String ℝ) (h : Heap) (l : List (String × ℕ))
    (hm : ∀ e ∈ l, ∃ M c, (h e.2).mesh = (.ok M, c)) (hd : ∃ e ∈ l, dens.get? e.1 = none) :
    ∀ g, SameBut h g → ∃ g', assessAll lib dens g l = (.error .key, g') := by
  induction l with
  | nil => obtain ⟨e, he, -⟩ := hd; simp at he
  | cons e l ih =>
    intro g hg
    obtain ⟨M, c, hM⟩ := hm e (by simp)
    unfold assessAll
    rcases hq : dens.get? e.1 with _ | ρ
    · obtain ⟨c', hc'⟩ := ((hg e.2).2 M).2 ⟨c, hM⟩
      have h1 : assessOne lib dens g e = (.error .key, g.upd e.2 c') := by
        unfold assessOne Dict.get
        rw [hc']
        simp only [hq]
      rw [h1]
      exact ⟨_, rfl⟩
    · obtain ⟨q, hq'⟩ := hlib M ρ
      obtain ⟨g1, h1⟩ := assessOne_ok lib dens h g e (e.1, ⟨q, lib.area M⟩) hg ⟨rfl, M, c, ρ, hM, hq, hq', rfl⟩
      obtain ⟨-, hg1⟩ := assessOne_spec lib dens h g g1 e _ hg h1
      rw [h1]
      obtain ⟨e', he', hn⟩ := hd
      have he'' : e' ∈ l := by
        rcases List.mem_cons.1 he' with rfl | h
        · rw [hq] at hn; simp at hn
        · exact h
      obtain ⟨g', h2⟩ := ih (fun e he => hm e (by simp [he])) ⟨e', he'', hn⟩ g1 hg1
      simp only [h2]
      exact ⟨_, rfl⟩

/-- C135, first part: the waverider created with a density for each of the five documented names is analysed when it is generated, at every mesh
resolution; the results stored are the totals over the five named parts, the fuselage among them, each with the density given for its name.
What is missing: the fuselage is not a ghost component (`C135_violated`). -/
theorem C135_partial (ptan : ℝ → ℝ) (hT : FloatTan ptan) (h : Heap) (ids : ℕ → ℕ) (hi : Function.Injective ids) (nf nw nt : ℕ)
    (hf : 1 ≤ nf) (hw : 1 ≤ nw) (ht : 1 ≤ nt) (kwargs : Dict String ℝ) (p : Waverider.Params) (ha : WaveriderArgs kwargs p) (hp : WaveriderOk p)
    (dens : Dict String ℝ) (hd : ∀ s ∈ waveriderNames, ∃ ρ, dens.get? s = some ρ) :
    ∃ st, Waverider.instanceWith bisect01 ptan h ids nf nw nt kwargs (some dens) = .ok st ∧
      ∀ st0 lib depth, Rescaled st st0 → (∀ M ρ, ∃ q, lib.massProps M ρ = .ok q) →
        ∃ st' a, generate lib (depth + 1) st0 = (.ok (), st') ∧ st'.veh.analysisResults = some a ∧ Totals lib st' dens a ∧
          a.components.map Prod.fst = waveriderNames := by
  obtain ⟨st, st₁, b1, -, bv, bn, -, b3, -, -, b4⟩ := waverider_generated ptan hT h ids hi nf nw nt hf hw ht kwargs p ha hp (some dens)
  rw [waverider_names_zip] at b3
  obtain ⟨d, ds, rfl⟩ : ∃ d ds, dens = d :: ds := by
    rcases dens with _ | ⟨d, ds⟩
    · obtain ⟨ρ, hρ⟩ := hd "fin" (by simp [waveriderNames]); simp [Dict.get?] at hρ
    · exact ⟨d, ds, rfl⟩
  refine ⟨st, b1, fun st0 lib depth hr hlib => ?_⟩
  obtain ⟨st2, g, m⟩ := b4 st0 lib hr
  have e0 : st0 = ⟨st0.heap, { st₁.veh with analyseOn := some (d :: ds) }⟩ := by
    rcases st0 with ⟨h0, v0⟩
    have : v0 = _ := hr.1.trans bv
    rw [this]; rfl
  have g' := generate_request lib 0 st0.heap st₁.veh st2 (by rw [← g]; congr 2; rcases hv : st₁.veh; rw [hv] at bn; simp only at bn; rw [bn])
    (some (d :: ds)) (depth + 1)
  rw [← e0] at g'
  set s : VState := ⟨st2.heap, { st₁.veh with generated := true, analyseOn := some (d :: ds) }⟩ with hs
  obtain ⟨a, s', ea⟩ := analyse_succeeds lib hlib s (d :: ds) depth rfl (by rw [hs]; simp only [b3]; simp)
    (by
      intro e he
      have he : e ∈ [("fuselage", ids 0), ("wings", ids 1), ("right_flap", ids 2), ("left_flap", ids 3), ("fin", ids 4)] := b3 ▸ he
      fin_cases he
      · exact m 0 (by norm_num)
      · exact m 1 (by norm_num)
      · exact m 2 (by norm_num)
      · exact m 3 (by norm_num)
      · exact m 4 (by norm_num))
    (by
      intro e he
      have he : e ∈ [("fuselage", ids 0), ("wings", ids 1), ("right_flap", ids 2), ("left_flap", ids 3), ("fin", ids 4)] := b3 ▸ he
      fin_cases he <;> exact hd _ (by simp [waveriderNames]))
  have g2 : generate lib (depth + 1) st0 = (.ok (), ⟨s'.heap, { s'.veh with analysisResults := some a }⟩) := by
    rw [g']
    unfold genAnalyse
    simp only [hs] at ea ⊢
    rw [ea]
  obtain ⟨a', -, r1, -, r3⟩ := C79_stored lib depth 0 st0 _ (d :: ds) (by simp) (by rw [e0]) g2
  have : a' = a := by simpa using r1.symm
  subst this
  refine ⟨_, a', g2, r1, r3, ?_⟩
  have hb := congrArg (fun v : Veh => v.named) (generateWith_blueprint (analyse_blueprint lib (depth + 1)) st0)
  have hb' : (generate lib (depth + 1) st0).2.veh.named = st0.veh.named := hb
  rw [g2] at hb'
  have hc := r3.components
  rw [hb', e0] at hc
  simp only [b3] at hc
  have key : ∀ (l : List (String × ℕ)) (qs : List (String × CompProps)) H, List.Forall₂ (AssessedAs lib (d :: ds) H) l qs →
      qs.map Prod.fst = l.map Prod.fst := by
    intro l qs H hf
    induction hf with
    | nil => rfl
    | cons h1 _ ih => simp only [List.map_cons, ih, h1.1]
  rw [key _ _ _ hc]
  rfl

/-- C135: when a density is missing for one of the five documented names, generating raises `KeyError`. -/
theorem C135_missing (ptan : ℝ → ℝ) (hT : FloatTan ptan) (h : Heap) (ids : ℕ → ℕ) (hi : Function.Injective ids) (nf nw nt : ℕ)
    (hf : 1 ≤ nf) (hw : 1 ≤ nw) (ht : 1 ≤ nt) (kwargs : Dict String ℝ) (p : Waverider.Params) (ha : WaveriderArgs kwargs p) (hp : WaveriderOk p)
    (dens : Dict String ℝ) (hne : dens ≠ []) (hd : ∃ s ∈ waveriderNames, dens.get? s = none) :
    ∃ st, Waverider.instanceWith bisect01 ptan h ids nf nw nt kwargs (some dens) = .ok st ∧
      ∀ st0 lib depth, Rescaled st st0 → (∀ M ρ, ∃ q, lib.massProps M ρ = .ok q) → ∃ st', generate lib (depth + 1) st0 = (.error .key, st') := by
  obtain ⟨st, st₁, b1, -, bv, bn, -, b3, -, -, b4⟩ := waverider_generated ptan hT h ids hi nf nw nt hf hw ht kwargs p ha hp (some dens)
  rw [waverider_names_zip] at b3
  obtain ⟨d, ds, rfl⟩ : ∃ d ds, dens = d :: ds := by
    rcases dens with _ | ⟨d, ds⟩
    · exact absurd rfl hne
    · exact ⟨d, ds, rfl⟩
  refine ⟨st, b1, fun st0 lib depth hr hlib => ?_⟩
  obtain ⟨st2, g, m⟩ := b4 st0 lib hr
  have e0 : st0 = ⟨st0.heap, { st₁.veh with analyseOn := some (d :: ds) }⟩ := by
    rcases st0 with ⟨h0, v0⟩
    have : v0 = _ := hr.1.trans bv
    rw [this]; rfl
  have g' := generate_request lib 0 st0.heap st₁.veh st2 (by rw [← g]; congr 2; rcases hv : st₁.veh; rw [hv] at bn; simp only at bn; rw [bn])
    (some (d :: ds)) (depth + 1)
  rw [← e0] at g'
  obtain ⟨g3, e3⟩ := assessAll_key lib hlib (d :: ds) st2.heap st₁.veh.named
    (by
      rw [b3]
      intro e he
      fin_cases he
      · exact m 0 (by norm_num)
      · exact m 1 (by norm_num)
      · exact m 2 (by norm_num)
      · exact m 3 (by norm_num)
      · exact m 4 (by norm_num))
    (by
      rw [b3]
      obtain ⟨s, hs, hn⟩ := hd
      simp only [waveriderNames, List.mem_cons, List.not_mem_nil, or_false] at hs
      rcases hs with rfl | rfl | rfl | rfl | rfl
      · exact ⟨("fuselage", ids 0), by simp, hn⟩
      · exact ⟨("wings", ids 1), by simp, hn⟩
      · exact ⟨("right_flap", ids 2), by simp, hn⟩
      · exact ⟨("left_flap", ids 3), by simp, hn⟩
      · exact ⟨("fin", ids 4), by simp, hn⟩)
    st2.heap (SameBut.refl _)
  rw [g']
  unfold genAnalyse
  simp only
  rw [analyse_generated lib depth _ _ rfl]
  unfold analyseGenerated
  simp only [e3]
  exact ⟨_, rfl⟩

/-- C135: without densities, or with an empty dictionary, no analysis is conducted. -/
theorem C135_none (ptan : ℝ → ℝ) (hT : FloatTan ptan) (h : Heap) (ids : ℕ → ℕ) (hi : Function.Injective ids) (nf nw nt : ℕ)
    (hf : 1 ≤ nf) (hw : 1 ≤ nw) (ht : 1 ≤ nt) (kwargs : Dict String ℝ) (p : Waverider.Params) (ha : WaveriderArgs kwargs p) (hp : WaveriderOk p)
    (dens : Option (Dict String ℝ)) (hd : dens = none ∨ dens = some []) :
    ∃ st, Waverider.instanceWith bisect01 ptan h ids nf nw nt kwargs dens = .ok st ∧
      ∀ st0 lib depth, Rescaled st st0 → ∃ st', generate lib depth st0 = (.ok (), st') ∧ st'.veh = { st.veh with generated := true } := by
  obtain ⟨st, st₁, b1, -, bv, bn, -, -, -, -, b4⟩ := waverider_generated ptan hT h ids hi nf nw nt hf hw ht kwargs p ha hp dens
  refine ⟨st, b1, fun st0 lib depth hr => ?_⟩
  obtain ⟨st2, g, m⟩ := b4 st0 lib hr
  have bv' : st.veh = st₁.veh := by
    rcases hd with rfl | rfl <;> exact bv
  have e1 : ({ st₁.veh with analyseOn := none } : Veh) = st₁.veh := by rcases hv : st₁.veh; rw [hv] at bn; simp only at bn; rw [bn]
  have e0 : st0 = ⟨st0.heap, { st₁.veh with analyseOn := none }⟩ := by
    rcases st0 with ⟨h0, v0⟩
    have : v0 = _ := hr.1.trans bv'
    rw [this, e1]
  have g' := generate_request lib 0 st0.heap st₁.veh st2 (by rw [e1]; exact g) none depth
  rw [← e0] at g'
  refine ⟨_, g', ?_⟩
  simp only [bv']
  rcases hv : st₁.veh; rw [hv] at bn; simp only at bn; rw [bn]

/-- The fuselage is written: for all sensible parameters the STL files written by `to_stl` after `generate` include `fuselage.stl`. -/
theorem waverider_fuselage (ptan : ℝ → ℝ) (hT : FloatTan ptan) (h : Heap) (ids : ℕ → ℕ) (hi : Function.Injective ids) (nf nw nt : ℕ)
    (hf : 1 ≤ nf) (hw : 1 ≤ nw) (ht : 1 ≤ nt) (kwargs : Dict String ℝ) (p : Waverider.Params) (ha : WaveriderArgs kwargs p) (hp : WaveriderOk p)
    (lib : Lib) (depth : ℕ) :
    ∃ st st', Waverider.instanceWith bisect01 ptan h ids nf nw nt kwargs none = .ok st ∧ generate lib depth st = (.ok (), st') ∧
      (∃ ev st'', toStl st' none (.bool false) = (.ok (), ev, st'')) ∧
      ∀ ev st'', toStl st' none (.bool false) = (.ok (), ev, st'') → ∃ M, ("fuselage.stl", M) ∈ stlFiles ev := by
  obtain ⟨st, st₁, b1, b0, bv, bn, b2, b3, bf, bg, b4⟩ := waverider_generated ptan hT h ids hi nf nw nt hf hw ht kwargs p ha hp none
  obtain ⟨st2, g, m⟩ := b4 st lib ⟨rfl, fun _ => .inl rfl⟩
  have bv' : st.veh = st₁.veh := bv
  have e1 : ({ st₁.veh with analyseOn := none } : Veh) = st₁.veh := by rcases hv : st₁.veh; rw [hv] at bn; simp only at bn; rw [bn]
  have e0 : st = ⟨st.heap, { st₁.veh with analyseOn := none }⟩ := by
    rw [e1, ← bv']
  have g' := generate_request lib 0 st.heap st₁.veh st2 (by rw [e1]; exact g) none depth
  rw [← e0] at g'
  have g'' : generate lib depth st = (.ok (), ⟨st2.heap, { st₁.veh with generated := true, analyseOn := none }⟩) := g'
  have hk := generateWith_keeps (analyse_keeps lib depth) st (ids 0)
  have hk' : settings ((generate lib depth st).2.heap (ids 0)) = settings (st.heap (ids 0)) := hk
  rw [g''] at hk'
  have kn : (st2.heap (ids 0)).name = some "fuselage" := (congrArg (fun c : Comp => c.name) hk' :).trans bf
  have kg : (st2.heap (ids 0)).ghost = false := (congrArg (fun c : Comp => c.ghost) hk' :).trans bg
  refine ⟨st, _, b1, g'', toStl_total _ _ _ ?_, fun ev st'' hw => ?_⟩
  · simp only [b2]
    intro k hk _
    simp only [List.mem_map, List.mem_range] at hk
    obtain ⟨i, h5, rfl⟩ := hk
    exact m i h5
  · have hF := (C69_files _ _ _ _ _ hw).1
    simp only [b2] at hF
    have : ((numbered (fun k => (st2.heap k).componenttype) [] ((List.range 5).map ids)).filter fun k => !(st2.heap k.1).ghost) =
        (ids 0, 0) :: ((numbered (fun k => (st2.heap k).componenttype) [ids 0] [ids 1, ids 2, ids 3, ids 4]).filter fun k => !(st2.heap k.1).ghost) := by
      show List.filter _ ((ids 0, 0) :: numbered _ [ids 0] [ids 1, ids 2, ids 3, ids 4]) = _
      rw [List.filter_cons_of_pos (by simp [kg])]
    rw [this] at hF
    generalize stlFiles ev = F at hF
    cases hF with
    | @cons _ q _ qs h1 _ =>
      obtain ⟨⟨-, -, h3, -⟩, -⟩ := h1
      have : q.1 = "fuselage.stl" := h3 "fuselage" (.inl rfl) kn (by decide)
      exact ⟨q.2, by rw [← this]; exact List.mem_cons_self ..⟩

/-- C135 is violated: the fuselage of the waverider created without arguments is written to STL, although it is documented as a ghost component
which is not. -/
theorem C135_violated (h : Heap) (lib : Lib) (depth : ℕ) : ∃ st st' ev st'' M,
    Waverider.instanceWith bisect01 ieeeTan h id 30 5 4 [] none = .ok st ∧ generate lib depth st = (.ok (), st') ∧
    toStl st' none (.bool false) = (.ok (), ev, st'') ∧ ("fuselage.stl", M) ∈ stlFiles ev := by
  obtain ⟨st, st', h1, h2, ⟨ev, st'', h3⟩, h4⟩ := waverider_fuselage ieeeTan ieeeTan_float h id Function.injective_id 30 5 4 (by norm_num)
    (by norm_num) (by norm_num) [] _ waveriderDefault_ok.1 waveriderDefault_ok.2 lib depth
  obtain ⟨M, h5⟩ := h4 ev st'' h3
  exact ⟨st, st', ev, st'', M, h1, h2, h3, h5⟩

/-- The default waverider with a density for each documented name is analysed, and raises when the fin is left out. -/
example (h : Heap) : (∃ st st' a, Waverider.instanceWith bisect01 ieeeTan h id 30 5 4 []
      (some [("fuselage", 1), ("wings", 2), ("right_flap", 3), ("left_flap", 3), ("fin", 4)]) = .ok st ∧
      generate numpyStlFull 1 st = (.ok (), st') ∧ st'.veh.analysisResults = some a) ∧
    ∃ st st', Waverider.instanceWith bisect01 ieeeTan h id 30 5 4 [] (some [("fuselage", 1), ("wings", 2), ("right_flap", 3), ("left_flap", 3)]) = .ok st ∧
      generate numpyStlFull 1 st = (.error .key, st') := by
  have hl : ∀ M ρ, ∃ q, numpyStlFull.massProps M ρ = .ok q := fun M ρ => ⟨_, rfl⟩
  constructor
  · obtain ⟨st, h1, h2⟩ := C135_partial ieeeTan ieeeTan_float h id Function.injective_id 30 5 4 (by norm_num) (by norm_num) (by norm_num) [] _
      waveriderDefault_ok.1 waveriderDefault_ok.2 [("fuselage", 1), ("wings", 2), ("right_flap", 3), ("left_flap", 3), ("fin", 4)]
      (by simp [waveriderNames, Dict.get?])
    obtain ⟨st', a, h3, h4, -⟩ := h2 st numpyStlFull 0 ⟨rfl, fun _ => .inl rfl⟩ hl
    exact ⟨st, st', a, h1, h3, h4⟩
  · obtain ⟨st, h1, h2⟩ := C135_missing ieeeTan ieeeTan_float h id Function.injective_id 30 5 4 (by norm_num) (by norm_num) (by norm_num) [] _
      waveriderDefault_ok.1 waveriderDefault_ok.2 [("fuselage", 1), ("wings", 2), ("right_flap", 3), ("left_flap", 3)] (by simp)
      ⟨"fin", by simp [waveriderNames], by simp [Dict.get?]⟩
    obtain ⟨st', h3⟩ := h2 st numpyStlFull 0 ⟨rfl, fun _ => .inl rfl⟩ hl
    exact ⟨st, st', h1, h3⟩

end HV
