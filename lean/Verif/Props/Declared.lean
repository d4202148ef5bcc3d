import Verif.Props.Wedge
import Verif.Model.Hangar2
import Verif.Model.Hangar3
import Verif.Model.Hangar4
import Verif.Model.Hangar5
import Verif.Model.Hangar6
import Verif.Model.Hangar7

/-!
# C172: which keyword arguments of the hangar generators have an effect

`Generator.__init__` (`generator.py:20-24`) sets every keyword argument as an attribute, whatever its name.
-/

namespace HV

namespace Spec

/-- Two sets of keyword arguments agree on the given names: both give the same value or neither gives one. -/
def AgreeOn (names : List String) (kwargs kwargs' : Dict String ℝ) : Prop :=
  ∀ s ∈ names, ∀ v, (s, v) ∈ kwargs ↔ (s, v) ∈ kwargs'

/-- The vehicle depends only on the keyword arguments with these names.  Keyword arguments have distinct names. -/
def DependsOnlyOn (names : List String) (make : Dict String ℝ → Res VState) : Prop :=
  ∀ kwargs kwargs' : Dict String ℝ, kwargs.keys.Nodup → kwargs'.keys.Nodup → AgreeOn names kwargs kwargs' → make kwargs = make kwargs'

end Spec

open Spec

/-- Attributes with these names are the same after initialisation. -/
theorem init_agree {dflts kwargs kwargs' : Dict String ℝ} {names : List String} (hk : kwargs.keys.Nodup) (hk' : kwargs'.keys.Nodup)
    (h : AgreeOn names kwargs kwargs') (s : String) (hs : s ∈ names) :
    (Generator.init dflts kwargs).get? s = (Generator.init dflts kwargs').get? s := by
  by_cases he : ∃ v, (s, v) ∈ kwargs
  · obtain ⟨v, hv⟩ := he
    rw [(C89_override dflts kwargs hk s).1 v hv, (C89_override dflts kwargs' hk' s).1 v ((h s hs v).1 hv)]
  · push Not at he
    rw [(C89_override dflts kwargs hk s).2 he, (C89_override dflts kwargs' hk' s).2 fun v hv => he v ((h s hs v).2 hv)]

theorem attrOf_agree {dflts kwargs kwargs' : Dict String ℝ} {names : List String} (hk : kwargs.keys.Nodup) (hk' : kwargs'.keys.Nodup)
    (h : AgreeOn names kwargs kwargs') (s : String) (hs : s ∈ names) :
    attrOf (Generator.init dflts kwargs) s = attrOf (Generator.init dflts kwargs') s := by
  unfold attrOf
  rw [init_agree hk hk' h s hs]

/-- C172 for the wedge: only the three declared parameters have an effect. -/
theorem C172_wedge_partial (h : Heap) (id : ℕ) : DependsOnlyOn ["wingspan", "chord", "thickness"] (Wedge.instanceOf h id) := by
  intro kw kw' hk hk' ha
  have k := init_agree (dflts := Wedge.defaults) hk hk' ha
  unfold Wedge.instanceOf
  generalize Generator.init Wedge.defaults kw = A at k ⊢
  generalize Generator.init Wedge.defaults kw' = B at k ⊢
  simp only [List.forall_mem_cons] at k
  simp only [Wedge.createInstance, k]

/-- C172 for the Falcon 9. -/
theorem C172_falcon9_partial (h : Heap) (id1 id2 : ℕ) :
    DependsOnlyOn ["r_o", "r_n", "h", "f_L", "D", "L_b"] (Falcon9.instanceOf h id1 id2) := by
  intro kw kw' hk hk' ha
  have k := attrOf_agree (dflts := Falcon9.defaults) hk hk' ha
  unfold Falcon9.instanceOf
  generalize Generator.init Falcon9.defaults kw = A at k ⊢
  generalize Generator.init Falcon9.defaults kw' = B at k ⊢
  simp only [List.forall_mem_cons] at k
  simp only [Falcon9.createInstance, k]

/-- C172 for the Finner. -/
theorem C172_finner_partial (h : Heap) (ids : ℕ → ℕ) :
    DependsOnlyOn ["nose_length", "diameter", "total_length", "fin_length", "max_fin_thickness", "fin_height"] (Finner.instanceOf h ids) := by
  intro kw kw' hk hk' ha
  have k := attrOf_agree (dflts := Finner.defaults) hk hk' ha
  unfold Finner.instanceOf
  generalize Generator.init Finner.defaults kw = A at k ⊢
  generalize Generator.init Finner.defaults kw' = B at k ⊢
  simp only [List.forall_mem_cons] at k
  simp only [Finner.createInstance, Finner.Params.of, k]

/-- C172 for the X-43. -/
theorem C172_x43_partial (bis : (ℝ → Res ℝ) → Res ℝ) (ptan : ℝ → ℝ) (h : Heap) (ids : ℕ → ℕ) :
    DependsOnlyOn ["body_length", "body_angle", "body_width", "flap_length", "wing_length", "wing_TE_back", "wing_span", "flap_angle",
      "engine_h", "fin_length", "rudder_length", "fin_height", "rudder_angle"] (X43.instanceOf bis ptan h ids) := by
  intro kw kw' hk hk' ha
  have k := attrOf_agree (dflts := X43.defaults) hk hk' ha
  unfold X43.instanceOf
  generalize Generator.init X43.defaults kw = A at k ⊢
  generalize Generator.init X43.defaults kw' = B at k ⊢
  simp only [List.forall_mem_cons] at k
  simp only [X43.createInstance, X43.Params.of, k]

/-- C172 for the HTV: only seven of the nine declared parameters have an effect; see `C172_violated`. -/
theorem C172_htv_partial (bis : (ℝ → Res ℝ) → Res ℝ) (ptan : ℝ → ℝ) (h : Heap) (ids : ℕ → ℕ) :
    DependsOnlyOn ["L", "body_width", "L_nom", "body_width_nom", "t_LE", "flap_angle", "h"] (HTV.instanceOf bis ptan h ids) := by
  intro kw kw' hk hk' ha
  have k := attrOf_agree (dflts := HTV.defaults) hk hk' ha
  unfold HTV.instanceOf
  generalize Generator.init HTV.defaults kw = A at k ⊢
  generalize Generator.init HTV.defaults kw' = B at k ⊢
  simp only [List.forall_mem_cons] at k
  simp only [HTV.createInstance, HTV.Params.of, k]

/-- C172 for the HIFiRE 8. -/
theorem C172_hifire8_partial (bis : (ℝ → Res ℝ) → Res ℝ) (ptan : ℝ → ℝ) (h : Heap) (ids : ℕ → ℕ) :
    DependsOnlyOn ["L", "R_base", "R_nose", "nozzle_length"] (HIFiRE8.instanceOf bis ptan h ids) := by
  intro kw kw' hk hk' ha
  have k := attrOf_agree (dflts := HIFiRE8.defaults) hk hk' ha
  unfold HIFiRE8.instanceOf
  generalize Generator.init HIFiRE8.defaults kw = A at k ⊢
  generalize Generator.init HIFiRE8.defaults kw' = B at k ⊢
  simp only [List.forall_mem_cons] at k
  simp only [HIFiRE8.createInstance, HIFiRE8.Params.of, k]

/-- C172 for the HIFiRE 4. -/
theorem C172_hifire4_partial (bis : (ℝ → Res ℝ) → Res ℝ) (ptan : ℝ → ℝ) (h : Heap) (ids : ℕ → ℕ) :
    DependsOnlyOn ["x_curve_mult", "y_curve_mult", "R", "L_n", "L_b"] (HIFiRE4.instanceOf bis ptan h ids) := by
  intro kw kw' hk hk' ha
  have k := attrOf_agree (dflts := HIFiRE4.defaults) hk hk' ha
  unfold HIFiRE4.instanceOf
  generalize Generator.init HIFiRE4.defaults kw = A at k ⊢
  generalize Generator.init HIFiRE4.defaults kw' = B at k ⊢
  simp only [List.forall_mem_cons] at k
  simp only [HIFiRE4.createInstance, HIFiRE4.Params.of, k]

/-- C172 for the waverider, apart from its resolutions, which are not numbers of the model. -/
theorem C172_waverider_partial (bis : (ℝ → Res ℝ) → Res ℝ) (ptan : ℝ → ℝ) (h : Heap) (ids : ℕ → ℕ) (nf nw nt : ℕ) :
    DependsOnlyOn ["zero_offset", "curve_zero", "length", "width", "le_width", "LE_thickness", "aoa", "f1x", "f1y", "f2y", "p2x", "p2y",
      "p3x", "p3y", "u1y", "u2x", "u3x", "u3y", "flap_angle", "flap_height", "a0_t", "tt_t", "w1x", "w1y", "w2x", "w2y", "x_curve_mult",
      "y_curve_mult"] (Waverider.instanceOf bis ptan h ids nf nw nt) := by
  intro kw kw' hk hk' ha
  have k := attrOf_agree (dflts := Waverider.defaults) hk hk' ha
  unfold Waverider.instanceOf
  generalize Generator.init Waverider.defaults kw = A at k ⊢
  generalize Generator.init Waverider.defaults kw' = B at k ⊢
  simp only [List.forall_mem_cons] at k
  simp only [Waverider.createInstance, Waverider.Params.of, k]

/-- C172 for the ReFEX, apart from its shift, which is not a number. -/
theorem C172_refex_partial (bis : (ℝ → Res ℝ) → Res ℝ) (ptan : ℝ → ℝ) (h : Heap) (ids : ℕ → ℕ) (shift : V) :
    DependsOnlyOn ["generate_fuselage", "generate_wings", "generate_canards", "generate_tail", "h", "r_n", "r_o", "L_o", "L_b",
      "fin_thickness", "wing_length", "wing_span", "tail_height", "tail_thickness", "canard_angle"] (ReFEX.instanceOf bis ptan h ids shift) := by
  intro kw kw' hk hk' ha
  have k := attrOf_agree (dflts := ReFEX.defaults) hk hk' ha
  unfold ReFEX.instanceOf
  generalize Generator.init ReFEX.defaults kw = A at k ⊢
  generalize Generator.init ReFEX.defaults kw' = B at k ⊢
  simp only [List.forall_mem_cons] at k
  simp only [ReFEX.createInstance, ReFEX.Params.of, k]

/-- C172 for the D-21, apart from its resolutions. -/
theorem C172_d21_partial (bis : (ℝ → Res ℝ) → Res ℝ) (ptan : ℝ → ℝ) (h : Heap) (ids : ℕ → ℕ) (nw nt : ℕ) :
    DependsOnlyOn ["R_b", "L_b", "L_w", "W_w", "flap_angle"] (D21.instanceOf bis ptan h ids nw nt) := by
  intro kw kw' hk hk' ha
  have k := attrOf_agree (dflts := D21.defaults) hk hk' ha
  unfold D21.instanceOf
  generalize Generator.init D21.defaults kw = A at k ⊢
  generalize Generator.init D21.defaults kw' = B at k ⊢
  simp only [List.forall_mem_cons] at k
  simp only [D21.createInstance, D21.Params.of, k]

/-- C172 is violated by the HTV: it declares the parameters `h_nom` and `t_LE_nom`, but whatever is passed for them, alone or together with
other arguments, the vehicle is the same. -/
theorem C172_violated (bis : (ℝ → Res ℝ) → Res ℝ) (ptan : ℝ → ℝ) (h : Heap) (ids : ℕ → ℕ) (kwargs : Dict String ℝ) (hk : kwargs.keys.Nodup)
    (u v : ℝ) (h1 : "h_nom" ∉ kwargs.keys) (h2 : "t_LE_nom" ∉ kwargs.keys) :
    "h_nom" ∈ HTV.defaults.keys ∧ "t_LE_nom" ∈ HTV.defaults.keys ∧
      HTV.instanceOf bis ptan h ids (kwargs ++ [("h_nom", u), ("t_LE_nom", v)]) = HTV.instanceOf bis ptan h ids kwargs := by
  refine ⟨by simp [HTV.defaults, Dict.keys], by simp [HTV.defaults, Dict.keys], C172_htv_partial bis ptan h ids _ _ ?_ hk ?_⟩
  · have e : (kwargs ++ [("h_nom", u), ("t_LE_nom", v)]).keys = kwargs.keys ++ ["h_nom", "t_LE_nom"] := by simp [Dict.keys]
    rw [e, List.nodup_append]
    refine ⟨hk, by decide, fun a ha b hb => ?_⟩
    simp only [List.mem_cons, List.not_mem_nil, or_false] at hb
    rintro rfl
    rcases hb with rfl | rfl
    · exact h1 ha
    · exact h2 ha
  · intro s hs x
    simp only [List.mem_append, List.mem_cons, Prod.mk.injEq, List.not_mem_nil, or_false]
    constructor
    · rintro (h | ⟨rfl, -⟩ | ⟨rfl, -⟩)
      · exact h
      · exact absurd hs (by decide)
      · exact absurd hs (by decide)
    · exact .inl

/-- A misspelt keyword argument: `ParametricHIFiRE8(R_Nose=0.05)` is the vehicle without arguments. -/
example (h : Heap) (ids : ℕ → ℕ) (bis : (ℝ → Res ℝ) → Res ℝ) (ptan : ℝ → ℝ) :
    HIFiRE8.instanceOf bis ptan h ids [("R_Nose", 0.05)] = HIFiRE8.instanceOf bis ptan h ids [] := by
  refine C172_hifire8_partial bis ptan h ids _ _ (by decide) (by decide) fun s hs v => ?_
  simp only [List.mem_cons, Prod.mk.injEq, List.not_mem_nil, or_false, iff_false]
  rintro ⟨rfl, -⟩
  exact absurd hs (by decide)

/-- A spelling that is declared is not ignored: the hypothesis `AgreeOn` fails for it. -/
example : ¬ AgreeOn ["L", "R_base", "R_nose", "nozzle_length"] [("R_nose", 0.05)] [] := by
  intro h
  simpa using (h "R_nose" (by decide) 0.05).1 (by simp)

example (h : Heap) (ids : ℕ → ℕ) (bis : (ℝ → Res ℝ) → Res ℝ) (ptan : ℝ → ℝ) :
    HTV.instanceOf bis ptan h ids ([("L", 2)] ++ [("h_nom", 5), ("t_LE_nom", 7)]) = HTV.instanceOf bis ptan h ids [("L", 2)] :=
  (C172_violated bis ptan h ids [("L", 2)] (by decide) 5 7 (by decide) (by decide)).2.2

end HV
