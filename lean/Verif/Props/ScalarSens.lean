import Verif.Props.Studies

/-!
# C82: sensitivities of analysis results and properties
-/

namespace HV
open Spec Sens

namespace Spec

/-- The quantity `Q` of the generated vehicle depends affinely on the parameter, with slope `β`. -/
def AffineQty (ctor : Ctor) (lib : Lib) (depth : ℕ) (kw : ℝ → Dict String Val) (Q : Veh → Option ℝ) (β : ℝ) : Prop :=
  ∃ α, ∀ q i, Built ctor lib depth (kw q) i → Q i.st.veh = some (α + β * q)

/-- Mass, volume or area of a component in the analysis kept with the vehicle. -/
def compQty (f : CompProps → ℝ) (c : String) (v : Veh) : Option ℝ :=
  v.analysis.bind fun a => (Dict.get? a.components c).map f

end Spec

theorem quot_affine (α β v w : ℝ) (h : w - v ≠ 0) : quot (α + β * w - (α + β * v)) (.num (w - v)) = some β := by
  have : α + β * w - (α + β * v) = β * (w - v) := by ring
  simp only [quot, h, if_false, this, mul_div_assoc, div_self h, mul_one]

/-- The nominal and the perturbed vehicle of a parameter, and what is reported about them. -/
theorem study_scalars {self self' : Study} {ctor : Ctor} {lib : Lib} {depth : ℕ} {run run' : Run} {l : List (String × ℝ)}
    {overrides : Dict String ParamVal} (hn : (l.map Prod.fst).Nodup) {p : ℝ} {write : Bool} {pre : Option String} {T : Tables}
    (h : dvdp self ctor lib depth run (numbers l) overrides p write pre = (.ok T, self', run'))
    (name : String) (v : ℝ) (he : (name, v) ∈ l) :
    ∃ nom par ds dc dp', Built ctor lib depth (kwWith run.store (numbers l) overrides name v) nom ∧
      Built ctor lib depth (kwWith run.store (numbers l) overrides name (v * (1 + p / 100))) par ∧
      self'.scalarSens = some ds ∧ self'.componentScalarSens = some dc ∧ self'.propertySens = some dp' ∧
      analysisStep par.st.veh nom.st.veh (.num (v * (1 + p / 100) - v)) =
        .ok ((Dict.get? ds name).bind fun a => (Dict.get? dc name).map fun t => (a, t)) ∧
      propertyStep par.st.veh nom.st.veh (.num (v * (1 + p / 100) - v)) = .ok (Dict.get? dp' name) := by
  obtain ⟨-, -, h3⟩ := dvdp_spec self self' ctor lib depth run run' l overrides hn p write pre (.ok T) h
  obtain ⟨nom, st, rs, cc, b1, hv, b2, rfl, -, rfl⟩ := h3 T rfl
  obtain ⟨q, hq, par, hp, ha⟩ := (forall₂_get (P := fun n x q =>
        ∃ par, Built ctor lib depth (kwWith run.store (numbers l) overrides n (x * (1 + p / 100))) par ∧
          assess ⟨st, nom.meshes⟩ par (.num (x * (1 + p / 100) - x)) = .ok q) b2 name).2 v (Dict.get?_of_mem (d := l) hn he)
  obtain ⟨a1, a2, -⟩ := assess_ok _ _ _ _ ha
  have hrn : (rs.map Prod.fst).Nodup := by rw [forall₂_keys b2]; exact hn
  simp only [hv] at a1 a2
  refine ⟨nom, par, _, _, _, ?_, hp, rfl, rfl, rfl, ?_, ?_⟩
  · rw [kwWith_given _ _ _ hn (name, v) he]; exact b1
  · rw [a1, present_get _ name rs hrn q hq, present_get _ name rs hrn q hq]
    rcases q.analysis with _ | ⟨x, y⟩ <;> rfl
  · rw [a2, present_get _ name rs hrn q hq]

theorem perturbed_ne {v p : ℝ} (hv : v ≠ 0) (hp : p ≠ 0) : v * (1 + p / 100) - v ≠ 0 := by
  have : v * (1 + p / 100) - v = v * p / 100 := by ring
  rw [this]
  exact div_ne_zero (mul_ne_zero hv hp) (by norm_num)

section
variable {self self' : Study} {ctor : Ctor} {lib : Lib} {depth : ℕ} {run run' : Run} {l : List (String × ℝ)}
  {overrides : Dict String ParamVal} (hn : (l.map Prod.fst).Nodup) {p : ℝ} {write : Bool} {pre : Option String} {T : Tables}
  (h : dvdp self ctor lib depth run (numbers l) overrides p write pre = (.ok T, self', run'))
  (name : String) (v : ℝ) (he : (name, v) ∈ l) (hv : v ≠ 0) (hp : p ≠ 0)
include hn h he hv hp

/-- C82 for the analysis results of the vehicle: volume, mass, coordinates of the centre of gravity and entries of the inertia
matrix that depend affinely on the parameter get exactly their slope. -/
theorem C82_analysis :
    (∀ β, AffineQty ctor lib depth (kwWith run.store (numbers l) overrides name) (fun w => w.analysisResults.map Analysis.volume) β →
      ∃ d a, self'.scalarSens = some d ∧ Dict.get? d name = some a ∧ a.volume = some β) ∧
    (∀ β, AffineQty ctor lib depth (kwWith run.store (numbers l) overrides name) (fun w => w.analysisResults.map Analysis.mass) β →
      ∃ d a, self'.scalarSens = some d ∧ Dict.get? d name = some a ∧ a.mass = some β) ∧
    (∀ β, AffineQty ctor lib depth (kwWith run.store (numbers l) overrides name)
        (fun w => w.analysisResults.bind fun a => a.cog.map Vec.x) β →
      ∃ d a, self'.scalarSens = some d ∧ Dict.get? d name = some a ∧ a.cog.x = some β) ∧
    (∀ β, AffineQty ctor lib depth (kwWith run.store (numbers l) overrides name)
        (fun w => w.analysisResults.bind fun a => a.cog.map Vec.y) β →
      ∃ d a, self'.scalarSens = some d ∧ Dict.get? d name = some a ∧ a.cog.y = some β) ∧
    (∀ β, AffineQty ctor lib depth (kwWith run.store (numbers l) overrides name)
        (fun w => w.analysisResults.bind fun a => a.cog.map Vec.z) β →
      ∃ d a, self'.scalarSens = some d ∧ Dict.get? d name = some a ∧ a.cog.z = some β) ∧
    ∀ i j β, AffineQty ctor lib depth (kwWith run.store (numbers l) overrides name)
        (fun w => w.analysisResults.bind fun a => a.moi.map fun m => m i j) β →
      ∃ d a, self'.scalarSens = some d ∧ Dict.get? d name = some a ∧ a.moi i j = some β := by
  obtain ⟨nom, par, ds, dc, dp', b1, b2, e1, e2, -, a1, -⟩ := study_scalars hn h name v he
  have hd := perturbed_ne hv hp
  rw [e1]
  have key : ∀ (Q : Analysis → Option ℝ) (R : AnalysisSens → Option ℝ)
      (_ : ∀ y x dp, R (analysisDiff y x dp) = quotO (Q y) (Q x) dp) (β : ℝ),
      AffineQty ctor lib depth (kwWith run.store (numbers l) overrides name) (fun w => w.analysisResults.bind Q) β →
      ∃ d a, some ds = some d ∧ Dict.get? d name = some a ∧ R a = some β := by
    rintro Q R hQR β ⟨α, hα⟩
    have n1 := hα _ _ b1
    have n2 := hα _ _ b2
    unfold analysisStep at a1
    rcases hx : nom.st.veh.analysisResults with _ | x
    · simp [hx] at n1
    rcases hy : par.st.veh.analysisResults with _ | y
    · simp [hy] at n2
    simp only [hx, hy, Option.bind_some] at n1 n2 a1
    simp only [Except.ok.injEq] at a1
    rcases hds : Dict.get? ds name with _ | s
    · rw [hds] at a1; simp at a1
    rcases hdc : Dict.get? dc name with _ | t
    · rw [hds, hdc] at a1; simp at a1
    rw [hds, hdc] at a1
    simp only [Option.bind_some, Option.map_some, Option.some.injEq, Prod.mk.injEq] at a1
    refine ⟨ds, s, rfl, hds, ?_⟩
    rw [← a1.1, hQR, n1, n2]
    exact quot_affine α β v _ hd
  refine ⟨fun β hβ => key (fun a => some a.volume) AnalysisSens.volume (fun _ _ _ => rfl) β ?_,
    fun β hβ => key (fun a => some a.mass) AnalysisSens.mass (fun _ _ _ => rfl) β ?_,
    fun β hβ => key (fun a => a.cog.map Vec.x) (fun s => s.cog.x) (fun _ _ _ => rfl) β hβ,
    fun β hβ => key (fun a => a.cog.map Vec.y) (fun s => s.cog.y) (fun _ _ _ => rfl) β hβ,
    fun β hβ => key (fun a => a.cog.map Vec.z) (fun s => s.cog.z) (fun _ _ _ => rfl) β hβ,
    fun i j β hβ => key (fun a => a.moi.map fun m => m i j) (fun s => s.moi i j) (fun _ _ _ => rfl) β hβ⟩
  · obtain ⟨α, hα⟩ := hβ
    exact ⟨α, fun q i hi => by rw [← hα q i hi]; beta_reduce; cases i.st.veh.analysisResults <;> rfl⟩
  · obtain ⟨α, hα⟩ := hβ
    exact ⟨α, fun q i hi => by rw [← hα q i hi]; beta_reduce; cases i.st.veh.analysisResults <;> rfl⟩

/-- C82 for the table of components: the row of a component has the slopes of its mass, volume and area, in this order. -/
theorem C82_components (c : String) (βm βv βa : ℝ)
    (hres : ∀ q i, Built ctor lib depth (kwWith run.store (numbers l) overrides name q) i → i.st.veh.analysisResults ≠ none)
    (hm : AffineQty ctor lib depth (kwWith run.store (numbers l) overrides name) (compQty (fun q => q.props.mass) c) βm)
    (hvol : AffineQty ctor lib depth (kwWith run.store (numbers l) overrides name) (compQty (fun q => q.props.volume) c) βv)
    (ha : AffineQty ctor lib depth (kwWith run.store (numbers l) overrides name) (compQty CompProps.area c) βa) :
    ∃ d t, self'.componentScalarSens = some d ∧ Dict.get? d name = some t ∧
      Dict.get? t c = some ⟨some βm, some βv, some βa⟩ := by
  obtain ⟨nom, par, ds, dc, dp', b1, b2, e1, e2, -, a1, -⟩ := study_scalars hn h name v he
  have hd := perturbed_ne hv hp
  obtain ⟨α1, h1⟩ := hm
  obtain ⟨α2, h2⟩ := hvol
  obtain ⟨α3, h3⟩ := ha
  unfold analysisStep at a1
  rcases hx : nom.st.veh.analysisResults with _ | x
  · exact absurd hx (hres _ _ b1)
  rcases hy : par.st.veh.analysisResults with _ | y
  · exact absurd hy (hres _ _ b2)
  simp only [hx, hy] at a1
  simp only [Except.ok.injEq] at a1
  rcases hds : Dict.get? ds name with _ | s
  · rw [hds] at a1; simp at a1
  rcases hdc : Dict.get? dc name with _ | t
  · rw [hds, hdc] at a1; simp at a1
  rw [hds, hdc] at a1
  simp only [Option.bind_some, Option.map_some, Option.some.injEq, Prod.mk.injEq] at a1
  refine ⟨dc, t, e2, hdc, ?_⟩
  rw [← a1.2]
  have row : ∀ w : Veh, ∀ q m u r, compQty (fun q => q.props.mass) c w = some m → compQty (fun q => q.props.volume) c w = some u →
      compQty CompProps.area c w = some r → Dict.get? (volmass (w.analysis.getD q)) c = some ⟨m, u, r⟩ := by
    intro w q m u r k1 k2 k3
    unfold compQty at k1 k2 k3
    rcases hw : w.analysis with _ | a
    · simp [hw] at k1
    simp only [hw, Option.bind_some] at k1 k2 k3
    rcases hc : Dict.get? a.components c with _ | e
    · simp [hc] at k1
    simp only [hc, Option.map_some, Option.some.injEq] at k1 k2 k3
    subst k1 k2 k3
    simp only [Option.getD_some, volmass]
    have : ∀ (L : List (String × CompProps)) (R : List (String × Vec ℝ)), Dict.get? L c = some e →
        Dict.get? (L.map (fun q => (q.1, (⟨q.2.props.mass, q.2.props.volume, q.2.area⟩ : Vec ℝ))) ++ R) c =
          some ⟨e.props.mass, e.props.volume, e.area⟩ := by
      intro L R
      induction L with
      | nil => intro hL; simp [Dict.get?] at hL
      | cons k L ih =>
        intro hL
        simp only [Dict.get?, List.map_cons, List.cons_append] at hL ⊢
        split_ifs at hL ⊢ with hk
        · cases hL; rfl
        · exact ih hL
    exact this _ _ hc
  have r1 := row nom.st.veh x _ _ _ (h1 _ _ b1) (h2 _ _ b1) (h3 _ _ b1)
  have r2 := row par.st.veh y _ _ _ (h1 _ _ b2) (h2 _ _ b2) (h3 _ _ b2)
  unfold volmassDiff
  have := Dict.get?_mapVals (fun k (e : Vec ℝ) => match Dict.get? (volmass (par.st.veh.analysis.getD y)) k with
    | some v' => quotV (v' - e) (.num (v * (1 + p / 100) - v))
    | none => nan3) (volmass (nom.st.veh.analysis.getD x)) c
  rw [r1, Option.map_some] at this
  refine Eq.trans this ?_
  simp only [r2, quotV, Vec.sub_x, Vec.sub_y, Vec.sub_z, quot_affine _ _ _ _ hd]

/-- C82 for the properties of the vehicle. -/
theorem C82_properties (k : String) (β : ℝ)
    (ha : AffineQty ctor lib depth (kwWith run.store (numbers l) overrides name) (fun w => w.properties.get? k) β) :
    ∃ d t, self'.propertySens = some d ∧ Dict.get? d name = some t ∧ Dict.get? t k = some (some β) := by
  obtain ⟨nom, par, ds, dc, dp', b1, b2, -, -, e3, -, a2⟩ := study_scalars hn h name v he
  have hd := perturbed_ne hv hp
  obtain ⟨α, hα⟩ := ha
  have n1 : nom.st.veh.properties.get? k = _ := hα _ _ b1
  have n2 : par.st.veh.properties.get? k = _ := hα _ _ b2
  unfold propertyStep at a2
  have hne : nom.st.veh.properties ≠ [] := fun hh => by rw [hh] at n1; simp [Dict.get?] at n1
  rw [if_neg hne] at a2
  obtain ⟨t, a3, a4⟩ := bind_ok.1 a2
  rw [pure_ok] at a4
  refine ⟨dp', t, e3, a4.symm, ?_⟩
  have a5 : List.Forall₂ (fun (e : String × ℝ) (t : String × Option ℝ) => t.1 = e.1 ∧ ∃ w, par.st.veh.properties.get? e.1 = some w ∧
      quotPy (w - e.2) (.num (v * (1 + p / 100) - v)) = .ok t.2) nom.st.veh.properties t := by
    refine (mapM_ok_iff.1 a3).imp fun e t ht => ?_
    obtain ⟨w, g1, ht⟩ := bind_ok.1 ht
    obtain ⟨r, g2, ht⟩ := bind_ok.1 ht
    rw [pure_ok] at ht
    subst ht
    exact ⟨rfl, w, (dict_get_ok _ _ _).1 g1, g2⟩
  obtain ⟨r, r1, w, r2, r3⟩ := (forall₂_get (P := fun n (u : ℝ) r => ∃ w, par.st.veh.properties.get? n = some w ∧
      quotPy (w - u) (.num (v * (1 + p / 100) - v)) = .ok r) a5 k).2 _ n1
  rw [n2] at r2
  cases r2
  rw [r1]
  have := quot_affine α β v _ hd
  simp only [quot, hd, if_false, Option.some.injEq] at this
  simp only [quotPy, hd, if_false, this, Except.ok.injEq] at r3
  rw [← r3]

end

/-! ## Non-vacuity -/

/-- The value of the parameter `p`. -/
def lenArg (kw : Dict String Val) : ℝ := match Dict.get? kw "p" with
  | some (.num x) => x
  | _ => 0

/-- The analysis results of the example: mass `2 q`, volume `3 q`, one component. -/
noncomputable def lenAnalysis (q : ℝ) : Analysis :=
  ⟨3 * q, 2 * q, 5 * q, some ⟨q / 2, 0, 0⟩, none, [("body", ⟨⟨3 * q, 2 * q, ⟨q / 2, 0, 0⟩, fun _ _ => 0⟩, 5 * q⟩)]⟩

/-- A vehicle with results and a property affine in the parameter. -/
noncomputable def lenCtor : Ctor := fun kw => .ok ⟨fun _ => demoPoint,
  { analysisResults := some (lenAnalysis (lenArg kw)), analysis := some (lenAnalysis (lenArg kw)),
    properties := [("span", 1 + 4 * lenArg kw)] }⟩

theorem len_prepare (lib : Lib) (A B : Option Analysis) (P : Dict String ℝ) :
    prepare lib 1 ⟨fun _ => demoPoint, { analysisResults := A, analysis := B, properties := P }⟩ =
      .ok ⟨⟨fun _ => demoPoint, { verbosity := 0, generated := true, analysisResults := A, analysis := B, properties := P }⟩, []⟩ := by
  simp [prepare, Veh.generate, Veh.generateWith, Veh.genAll, Veh.genTransform, Veh.genAnalyse, readMeshes]

theorem len_built (lib : Lib) (kw : Dict String Val) (i : Inst) (h : Built lenCtor lib 1 kw i) :
    i.st.veh.analysisResults = some (lenAnalysis (lenArg kw)) ∧ i.st.veh.analysis = some (lenAnalysis (lenArg kw)) ∧
      i.st.veh.properties = [("span", 1 + 4 * lenArg kw)] := by
  obtain ⟨st, h1, h2⟩ := h
  simp only [lenCtor, Except.ok.injEq] at h1
  subst h1
  rw [len_prepare] at h2
  cases h2
  exact ⟨rfl, rfl, rfl⟩

/-- A study of this vehicle succeeds and all quantities are affine. -/
example (lib : Lib) : (∃ T self' run', dvdp {} lenCtor lib 1 { store := fun _ => [] } (numbers [("p", 2)]) [] 5 false none =
      (.ok T, self', run')) ∧
    AffineQty lenCtor lib 1 (kwWith (fun _ => []) (numbers [("p", 2)]) [] "p") (fun w => w.analysisResults.map Analysis.volume) 3 ∧
    AffineQty lenCtor lib 1 (kwWith (fun _ => []) (numbers [("p", 2)]) [] "p") (compQty (fun q => q.props.mass) "body") 2 ∧
    AffineQty lenCtor lib 1 (kwWith (fun _ => []) (numbers [("p", 2)]) [] "p") (fun w => w.properties.get? "span") 4 := by
  refine ⟨?_, ⟨0, fun q i hi => ?_⟩, ⟨0, fun q i hi => ?_⟩, ⟨1, fun q i hi => ?_⟩⟩
  · simp only [dvdp, construct, kwargs, numbers, List.map_cons, List.map_nil, Dict.keys, ParamVal.val, lenCtor, Except.bind, len_prepare,
      writeNominal, study, scale, Dict.set, assess, analysisStep, propertyStep, compareAll, Study.finish, combine, bind, pure, Except.pure,
      List.mapM_nil, List.mapM_cons, Dict.get, Dict.get?, quotPy, lenArg]
    norm_num [Dict.get?, Functor.map, Except.map, pure, Except.pure]
    exact ⟨_, _, _, rfl⟩
  · beta_reduce
    rw [(len_built lib _ i hi).1]
    simp [kwWith, numbers, lenArg, Dict.get?, lenAnalysis]
  · unfold compQty
    rw [(len_built lib _ i hi).2.1]
    simp [kwWith, numbers, lenArg, Dict.get?, lenAnalysis]
  · show Dict.get? i.st.veh.properties "span" = _
    rw [(len_built lib _ i hi).2.2]
    simp [kwWith, numbers, lenArg, Dict.get?]

end HV
