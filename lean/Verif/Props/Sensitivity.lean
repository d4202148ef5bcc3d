import Verif.Props.CompareMeshes
import Verif.Props.Inertia
import Verif.Props.Regenerate

/-!
# Sensitivity studies: C81, C82, C84
-/

namespace HV
open Spec Sens

namespace Spec

/-- The keyword arguments when the parameter `name` has the value `q` and all others the values given. -/
def kwWith (s : Store) (params overrides : Dict String ParamVal) (name : String) (q : ℝ) : Dict String Val :=
  params.map (fun e => (e.1, if e.1 = name then Val.num q else e.2.val s)) ++ overrides.map fun e => (e.1, e.2.val s)

/-- The keyword arguments given. -/
def kwGiven (s : Store) (params overrides : Dict String ParamVal) : Dict String Val :=
  params.map (fun e => (e.1, e.2.val s)) ++ overrides.map fun e => (e.1, e.2.val s)

/-- Parameters that are numbers. -/
def numbers (l : List (String × ℝ)) : Dict String ParamVal := l.map fun e => (e.1, .num e.2)

/-- The calls of the constructor the documentation announces: the nominal vehicle, then one vehicle per parameter, which is
scaled by `1 + perturbation / 100`. -/
noncomputable def studyCalls (s : Store) (l : List (String × ℝ)) (overrides : Dict String ParamVal) (perturbation : ℝ) :
    List (Dict String Val) :=
  kwGiven s (numbers l) overrides :: l.map fun e => kwWith s (numbers l) overrides e.1 (e.2 * (1 + perturbation / 100))

/-- The vehicle constructed from the arguments, generated, has the mesh `M` for the component named. -/
def Generates (ctor : Ctor) (lib : Lib) (depth : ℕ) (kw : Dict String Val) (name : String) (M : StlMesh) : Prop :=
  ∃ st st' id c, ctor kw = .ok st ∧ Veh.generate lib depth ⟨st.heap, { st.veh with verbosity := 0 }⟩ = (.ok (), st') ∧
    st'.veh.named.get? name = some id ∧ (st'.heap id).mesh = (.ok M, c)

/-- The vertices of a mesh. -/
def vertexList (M : StlMesh) : List V := M.tris.flatMap fun t => [t.v0, t.v1, t.v2]

end Spec

theorem kwWith_given (s : Store) (l : List (String × ℝ)) (overrides : Dict String ParamVal) (hn : (l.map Prod.fst).Nodup)
    (e : String × ℝ) (he : e ∈ l) : kwWith s (numbers l) overrides e.1 e.2 = kwGiven s (numbers l) overrides := by
  unfold kwWith kwGiven
  congr 1
  apply List.map_congr_left
  intro x hx
  obtain ⟨y, hy, rfl⟩ := List.mem_map.1 hx
  by_cases h : y.1 = e.1
  · have : y = e := by
      obtain ⟨y1, y2⟩ := y
      obtain ⟨e1, e2⟩ := e
      simp only at h
      subst h
      have h1 := Dict.get?_of_mem (d := l) hn hy
      have h2 := Dict.get?_of_mem (d := l) hn he
      rw [h1] at h2
      cases h2; rfl
    subst this
    simp [ParamVal.val]
  · simp [h]

theorem set_map (d : Dict String ParamVal) (name : String) (v : ParamVal) (hn : d.keys.Nodup) (hm : name ∈ d.keys) :
    d.set name v = d.map fun e => (e.1, if e.1 = name then v else e.2) := by
  induction d with
  | nil => simp [Dict.keys] at hm
  | cons e d ih =>
    unfold Dict.set
    have hn' := List.nodup_cons.1 (show (e.1 :: Dict.keys d).Nodup from hn)
    by_cases h : e.1 = name
    · simp only [h, if_true, List.map_cons]
      congr 1
      symm
      conv_rhs => rw [← List.map_id d]
      apply List.map_congr_left
      intro x hx
      have : x.1 ≠ name := fun h' => hn'.1 (List.mem_map.2 ⟨x, hx, h'.trans h.symm⟩)
      simp [this]
    · have hm' : name ∈ Dict.keys d := by
        rcases List.mem_cons.1 (show name ∈ e.1 :: Dict.keys d from hm) with h' | h'
        · exact absurd h'.symm h
        · exact h'
      simp only [h, if_false, List.map_cons, ih hn'.2 hm']

theorem kwargs_ok (s : Store) (params overrides : Dict String ParamVal) (kw : Dict String Val)
    (h : kwargs s params overrides = .ok kw) : kw = kwGiven s params overrides := by
  unfold kwargs at h
  split at h
  · cases h
  · cases h
    simp [kwGiven]

/-- The vehicle made in a study. -/
def Built (ctor : Ctor) (lib : Lib) (depth : ℕ) (kw : Dict String Val) (i : Inst) : Prop :=
  ∃ st, ctor kw = .ok st ∧ prepare lib depth st = .ok i

theorem construct_spec (ctor : Ctor) (lib : Lib) (depth : ℕ) (run run' : Run) (params overrides : Dict String ParamVal) (r : Res Inst)
    (h : construct ctor lib depth run params overrides = (r, run')) :
    run'.store = run.store ∧ run'.events = run.events ∧
    ((run'.calls = run.calls ∧ ∃ x, r = .error x) ∨ run'.calls = run.calls ++ [kwGiven run.store params overrides]) ∧
    ∀ i, r = .ok i → run'.calls = run.calls ++ [kwGiven run.store params overrides] ∧
      Built ctor lib depth (kwGiven run.store params overrides) i := by
  unfold construct at h
  rcases hk : kwargs run.store params overrides with x | kw
  · rw [hk] at h
    simp only [Prod.mk.injEq] at h
    obtain ⟨rfl, rfl⟩ := h
    exact ⟨rfl, rfl, .inl ⟨rfl, x, rfl⟩, fun i hi => by cases hi⟩
  · rw [hk] at h
    simp only [Prod.mk.injEq] at h
    obtain ⟨h1, rfl⟩ := h
    have := kwargs_ok _ _ _ _ hk
    subst this
    refine ⟨rfl, rfl, .inr rfl, fun i hi => ⟨rfl, ?_⟩⟩
    rw [hi] at h1
    rcases hc : ctor (kwGiven run.store params overrides) with x | st
    · rw [hc] at h1; simp [Except.bind] at h1
    · rw [hc] at h1; exact ⟨st, hc, h1⟩

theorem kwGiven_set (s : Store) (l : List (String × ℝ)) (overrides : Dict String ParamVal) (hn : (l.map Prod.fst).Nodup)
    (name : String) (hm : name ∈ l.map Prod.fst) (q : ℝ) :
    kwGiven s ((numbers l).set name (.num q)) overrides = kwWith s (numbers l) overrides name q := by
  have hk : (numbers l).keys = l.map Prod.fst := by simp [numbers, Dict.keys, Function.comp_def]
  rw [set_map _ _ _ (by rw [hk]; exact hn) (by rw [hk]; exact hm)]
  unfold kwGiven kwWith
  congr 1
  rw [List.map_map]
  apply List.map_congr_left
  intro e _
  simp only [Function.comp]
  split <;> simp [ParamVal.val]

theorem study_cons (ctor : Ctor) (lib : Lib) (depth : ℕ) (params overrides : Dict String ParamVal) (f : ℝ) (nom : Inst) (run : Run)
    (e : String × ℝ) (rest : List (String × ℝ)) :
    study ctor lib depth params overrides f nom run (numbers (e :: rest)) =
        match construct ctor lib depth run (params.set e.1 (.num (e.2 * f))) overrides with
        | (.error x, run') => (.error x, run')
        | (.ok par, run') => match assess nom par (.num (e.2 * f - e.2)) with
          | .error x => (.error x, run')
          | .ok r => match study ctor lib depth params overrides f nom run' (numbers rest) with
            | (.error x, run'') => (.error x, run'')
            | (.ok rs, run'') => (.ok ((e.1, r) :: rs), run'') := rfl

/-- What the loop over numeric parameters does. -/
theorem study_spec (ctor : Ctor) (lib : Lib) (depth : ℕ) (l : List (String × ℝ)) (overrides : Dict String ParamVal)
    (hn : (l.map Prod.fst).Nodup) (f : ℝ) (nom : Inst) (rest : List (String × ℝ)) :
    ∀ (run run' : Run) (r : Res (Dict String PSens)), (∀ e ∈ rest, e ∈ l) →
      study ctor lib depth (numbers l) overrides f nom run (numbers rest) = (r, run') →
      run'.store = run.store ∧ run'.events = run.events ∧
      (∃ cs, cs <+: rest.map (fun e => kwWith run.store (numbers l) overrides e.1 (e.2 * f)) ∧ run'.calls = run.calls ++ cs ∧
        ∀ rs, r = .ok rs → cs = rest.map (fun e => kwWith run.store (numbers l) overrides e.1 (e.2 * f))) ∧
      ∀ rs, r = .ok rs → List.Forall₂ (fun e q => q.1 = e.1 ∧
        ∃ par, Built ctor lib depth (kwWith run.store (numbers l) overrides e.1 (e.2 * f)) par ∧
          assess nom par (.num (e.2 * f - e.2)) = .ok q.2) rest rs := by
  induction rest with
  | nil =>
    intro run run' r _ h
    simp only [numbers, List.map_nil, study, Prod.mk.injEq] at h
    obtain ⟨rfl, rfl⟩ := h
    refine ⟨rfl, rfl, ⟨[], List.prefix_refl _, by simp, fun _ _ => rfl⟩, fun rs hrs => ?_⟩
    cases hrs
    exact .nil
  | cons e rest ih =>
    intro run run' r hs h
    have hm : e.1 ∈ l.map Prod.fst := List.mem_map.2 ⟨e, hs e List.mem_cons_self, rfl⟩
    rw [study_cons] at h
    rcases hc : construct ctor lib depth run ((numbers l).set e.1 (.num (e.2 * f))) overrides with ⟨rc, run1⟩
    obtain ⟨c1, c2, c3, c4⟩ := construct_spec _ _ _ _ _ _ _ _ hc
    rw [kwGiven_set _ _ _ hn _ hm] at c3 c4
    rw [hc] at h
    rcases rc with x | par
    · simp only [Prod.mk.injEq] at h
      obtain ⟨rfl, rfl⟩ := h
      refine ⟨c1, c2, ?_, fun rs hrs => by cases hrs⟩
      rcases c3 with ⟨c3, -⟩ | c3
      · exact ⟨[], List.nil_prefix, by simp [c3], fun rs hrs => by cases hrs⟩
      · refine ⟨_, ?_, c3, fun rs hrs => by cases hrs⟩
        rw [List.map_cons]
        exact ⟨_, rfl⟩
    · obtain ⟨c5, c6⟩ := c4 par rfl
      simp only at h
      rcases ha : assess nom par (.num (e.2 * f - e.2)) with x | q
      · rw [ha] at h
        simp only [Prod.mk.injEq] at h
        obtain ⟨rfl, rfl⟩ := h
        refine ⟨c1, c2, ⟨_, ?_, c5, fun rs hrs => by cases hrs⟩, fun rs hrs => by cases hrs⟩
        rw [List.map_cons]
        exact ⟨_, rfl⟩
      · rw [ha] at h
        simp only at h
        rcases hr : study ctor lib depth (numbers l) overrides f nom run1 (numbers rest) with ⟨rr, run2⟩
        obtain ⟨i1, i2, ⟨cs, i3, i4, i5⟩, i6⟩ := ih run1 run2 rr (fun e he => hs e (List.mem_cons_of_mem _ he)) hr
        rw [hr] at h
        rw [c1] at i1 i3 i5 i6
        rw [c2] at i2
        rcases rr with x | rs
        · simp only [Prod.mk.injEq] at h
          obtain ⟨rfl, rfl⟩ := h
          refine ⟨i1, i2, ⟨kwWith run.store (numbers l) overrides e.1 (e.2 * f) :: cs, ?_, by rw [i4, c5]; simp,
            fun rs hrs => by cases hrs⟩, fun rs hrs => by cases hrs⟩
          rw [List.map_cons]
          exact List.cons_prefix_cons.2 ⟨rfl, i3⟩
        · simp only [Prod.mk.injEq] at h
          obtain ⟨rfl, rfl⟩ := h
          have := i5 rs rfl
          subst this
          refine ⟨i1, i2, ⟨_, List.prefix_refl _, by rw [i4, c5]; simp, fun _ _ => rfl⟩, fun rs' hrs => ?_⟩
          cases hrs
          exact .cons ⟨rfl, par, c6, ha⟩ (i6 rs rfl)

theorem writeNominal_spec (write : Bool) (pre : Option String) (nom : Inst) (run run' : Run) (r : Res Inst)
    (h : writeNominal write pre nom run = (r, run')) :
    run'.store = run.store ∧ run'.calls = run.calls ∧ ∀ i, r = .ok i → i.meshes = nom.meshes ∧ i.st.veh = nom.st.veh := by
  unfold writeNominal at h
  cases write
  · simp only [Bool.false_eq_true, if_false, Prod.mk.injEq] at h
    obtain ⟨rfl, rfl⟩ := h
    exact ⟨rfl, rfl, fun i hi => by cases hi; exact ⟨rfl, rfl⟩⟩
  · simp only [if_true] at h
    rcases ht : Veh.toStl nom.st pre (.bool false) with ⟨x | _, ev, st⟩
    · rw [ht] at h
      simp only [Prod.mk.injEq] at h
      obtain ⟨rfl, rfl⟩ := h
      exact ⟨rfl, rfl, fun i hi => by cases hi⟩
    · rw [ht] at h
      simp only [Prod.mk.injEq] at h
      obtain ⟨rfl, rfl⟩ := h
      refine ⟨rfl, rfl, fun i hi => ?_⟩
      cases hi
      refine ⟨rfl, ?_⟩
      unfold Veh.toStl at ht
      rcases hw : Veh.writeAll pre nom.st.veh.name [] nom.st.heap nom.st.veh.components with ⟨_ | _, ev', g⟩
      · rw [hw] at ht; simp at ht
      · rw [hw] at ht
        simp only [Prod.mk.injEq] at ht
        rw [← ht.2.2]

/-- What a study of numeric parameters does. -/
theorem dvdp_spec (self self' : Study) (ctor : Ctor) (lib : Lib) (depth : ℕ) (run run' : Run) (l : List (String × ℝ))
    (overrides : Dict String ParamVal) (hn : (l.map Prod.fst).Nodup) (p : ℝ) (write : Bool) (pre : Option String) (r : Res Tables)
    (h : dvdp self ctor lib depth run (numbers l) overrides p write pre = (r, self', run')) :
    run'.store = run.store ∧
    (∃ cs, cs <+: studyCalls run.store l overrides p ∧ run'.calls = run.calls ++ cs ∧
      ∀ T, r = .ok T → cs = studyCalls run.store l overrides p) ∧
    ∀ T, r = .ok T → ∃ nom st rs c, Built ctor lib depth (kwGiven run.store (numbers l) overrides) nom ∧ st.veh = nom.st.veh ∧
      List.Forall₂ (fun e q => q.1 = e.1 ∧
        ∃ par, Built ctor lib depth (kwWith run.store (numbers l) overrides e.1 (e.2 * (1 + p / 100))) par ∧
          assess ⟨st, nom.meshes⟩ par (.num (e.2 * (1 + p / 100) - e.2)) = .ok q.2) l rs ∧
      T = rs.map (fun e => (e.1, e.2.tables)) ∧ combine st.veh.named.keys T = .ok c ∧
      self' = { self.withResults rs with componentSens := some c, nominal := some st } := by
  unfold dvdp at h
  rcases hc : construct ctor lib depth run (numbers l) overrides with ⟨rc, run1⟩
  obtain ⟨c1, c2, c3, c4⟩ := construct_spec _ _ _ _ _ _ _ _ hc
  rw [hc] at h
  rcases rc with x | nom
  · simp only [Prod.mk.injEq] at h
    obtain ⟨rfl, rfl, rfl⟩ := h
    refine ⟨c1, ?_, fun T hT => by cases hT⟩
    rcases c3 with ⟨c3, -⟩ | c3
    · exact ⟨[], List.nil_prefix, by simp [c3], fun rs hrs => by cases hrs⟩
    · exact ⟨_, ⟨_, rfl⟩, c3, fun rs hrs => by cases hrs⟩
  · obtain ⟨c5, c6⟩ := c4 nom rfl
    simp only at h
    rcases hw : writeNominal write pre nom run1 with ⟨rw', run2⟩
    obtain ⟨w1, w2, w3⟩ := writeNominal_spec _ _ _ _ _ _ hw
    rw [hw] at h
    rcases rw' with x | nom2
    · simp only [Prod.mk.injEq] at h
      obtain ⟨rfl, rfl, rfl⟩ := h
      exact ⟨w1.trans c1, ⟨_, ⟨_, rfl⟩, w2.trans c5, fun rs hrs => by cases hrs⟩, fun T hT => by cases hT⟩
    · obtain ⟨w4, w5⟩ := w3 nom2 rfl
      simp only at h
      rcases hs : study ctor lib depth (numbers l) overrides (1 + p / 100) nom2 run2 (numbers l) with ⟨rs, run3⟩
      obtain ⟨s1, s2, ⟨cs, s3, s4, s5⟩, s6⟩ := study_spec ctor lib depth l overrides hn _ nom2 l run2 run3 rs (fun _ h => h) hs
      rw [hs] at h
      rw [w1, c1] at s1 s3 s5 s6
      have hcalls : run3.calls = run.calls ++ (kwGiven run.store (numbers l) overrides :: cs) := by rw [s4, w2, c5]; simp
      rcases rs with x | rs
      · simp only [Prod.mk.injEq] at h
        obtain ⟨rfl, rfl, rfl⟩ := h
        exact ⟨s1, ⟨_, List.cons_prefix_cons.2 ⟨rfl, s3⟩, hcalls, fun rs hrs => by cases hrs⟩, fun T hT => by cases hT⟩
      · simp only [Prod.mk.injEq] at h
        obtain ⟨h1, h2, rfl⟩ := h
        have := s5 rs rfl
        subst this
        refine ⟨s1, ⟨_, List.prefix_refl _, hcalls, fun _ _ => rfl⟩, fun T hT => ?_⟩
        subst hT
        unfold Study.finish at h1 h2
        simp only at h1 h2
        rcases hcb : combine nom2.st.veh.named.keys (rs.map fun e => (e.1, e.2.tables)) with x | c
        · rw [hcb] at h1; simp at h1
        · rw [hcb] at h1 h2
          simp only [Except.ok.injEq] at h1
          have hnom : (⟨nom2.st, nom.meshes⟩ : Inst) = nom2 := by rw [← w4]
          refine ⟨nom, nom2.st, rs, c, c6, w5, ?_, h1.symm, by rw [← h1]; exact hcb, h2.symm⟩
          rw [hnom]
          exact s6 rs rfl

/-! ## C81 -/

/-- C81 for parameters that are numbers: the constructor is called with the parameters given, then once per parameter, in
order, with only this parameter scaled; when the study fails, with an initial part of this list.  Arrays of the caller keep
their contents.  Missing: parameters that are arrays, see `C81_violated`. -/
theorem C81_partial (self : Study) (ctor : Ctor) (lib : Lib) (depth : ℕ) (run : Run) (l : List (String × ℝ))
    (overrides : Dict String ParamVal) (hn : (l.map Prod.fst).Nodup) (p : ℝ) (write : Bool) (pre : Option String) :
    let r := dvdp self ctor lib depth run (numbers l) overrides p write pre
    r.2.2.store = run.store ∧ ∃ cs, cs <+: studyCalls run.store l overrides p ∧ r.2.2.calls = run.calls ++ cs ∧
      ∀ T, r.1 = .ok T → cs = studyCalls run.store l overrides p := by
  intro r
  obtain ⟨h1, h2, -⟩ := dvdp_spec self r.2.1 ctor lib depth run r.2.2 l overrides hn p write pre r.1 rfl
  exact ⟨h1, h2⟩

/-- A constructor of vehicles without components. -/
noncomputable def bareCtor : Ctor := fun _ => .ok ⟨fun _ => demoPoint, {}⟩

/-- C81 fails for a parameter that is an array: the caller's array is scaled, and the vehicle constructed as the perturbed one
differs from the nominal arguments the caller now holds in nothing. -/
theorem C81_violated : ∃ (run : Run) (params : Dict String ParamVal), ∀ lib,
    let r := dvdp {} bareCtor lib 1 run params [] 5 false none
    (∃ T, r.1 = .ok T) ∧ r.2.2.store ≠ run.store ∧ r.2.2.store 0 = [1 * (1 + 5 / 100)] := by
  refine ⟨{ store := fun _ => [1] }, [("p", .ref 0)], fun lib => ?_⟩
  have hc : ∀ run : Run, ∃ i, construct bareCtor lib 1 run [("p", .ref 0)] [] =
      (.ok i, { run with calls := run.calls ++ [[("p", .arr (run.store 0))]] }) ∧ i.meshes = [] ∧ i.st.veh.named = [] ∧
        i.st.veh.properties = [] ∧ i.st.veh.analysisResults = none := by
    intro run
    have hp : ∃ i, prepare lib 1 ⟨fun _ => demoPoint, {}⟩ = .ok i ∧ i.meshes = [] ∧ i.st.veh.named = [] ∧
        i.st.veh.properties = [] ∧ i.st.veh.analysisResults = none := by
      refine ⟨⟨⟨fun _ => demoPoint, { verbosity := 0, generated := true }⟩, []⟩, ?_, rfl, rfl, rfl, rfl⟩
      simp [prepare, Veh.generate, Veh.generateWith, Veh.genAll, Veh.genTransform, Veh.genAnalyse, readMeshes]
    obtain ⟨i, hp, hi⟩ := hp
    refine ⟨i, ?_, hi⟩
    unfold construct
    simp [kwargs, Dict.keys, ParamVal.val, bareCtor, Except.bind, hp]
  obtain ⟨i, h1, i1, i2, i3, i4⟩ := hc { store := fun _ => [1] }
  obtain ⟨j, h2, j1, j2, j3, j4⟩ := hc
    ⟨Function.update (fun _ => [1]) 0 ([1].map (· * (1 + 5 / 100))), [[("p", .arr [1])]], []⟩
  have ha : assess i j (.arr ([1].map (· * (1 + 5 / 100 : ℝ)) |>.zipWith (· - ·) ([1].map (· * (1 + 5 / 100 : ℝ))))) = .ok ⟨[], none, none⟩ := by
    simp [assess, analysisStep, i4, propertyStep, i3, compareAll, i1, bind, Except.bind, pure, Except.pure]
  have hd : dvdp {} bareCtor lib 1 { store := fun _ => [1] } [("p", .ref 0)] [] 5 false none =
      (.ok [("p", [])], (Study.finish {} i.st [("p", ⟨[], none, none⟩)]).2,
        ⟨Function.update (fun _ => [1]) 0 ([1].map (· * (1 + 5 / 100))),
          [[("p", .arr [1])], [("p", .arr ([1].map (· * (1 + 5 / 100))))]], []⟩) := by
    unfold dvdp
    rw [h1]
    simp only [writeNominal, Bool.false_eq_true, if_false, study, scale, List.nil_append]
    rw [h2]
    simp only [ha]
    simp [Study.finish, combine, i2, Dict.keys, pure, Except.pure]
  intro r
  have hr : r = _ := hd
  rw [hr]
  refine ⟨⟨_, rfl⟩, fun h => ?_, ?_⟩
  · have := congrFun h 0
    norm_num at this
  · simp

end HV
