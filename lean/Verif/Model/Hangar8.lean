import Verif.Model.Hangar5

/-!
# The densities of the waverider

`hangar/waverider.py:161-162` and `191-195`.
-/

namespace HV.Waverider

/-- `waverider.py:191-193`: `None` and an empty dictionary are false. -/
def request (v : Veh) : Option (Dict String ℝ) → Veh
  | none => v
  | some [] => v
  | some d => v.analyseAfterGenerating d

/-- `ParametricWaverider(densities=dens, **kwargs).create_instance()`, with lines 191-195; the attribute `densities`, which is not a number, is
given separately from the others. -/
noncomputable def instanceWith (bis : (ℝ → Res ℝ) → Res ℝ) (ptan : ℝ → ℝ) (h : Heap) (ids : ℕ → ℕ) (nf nw nt : ℕ) (kwargs : Dict String ℝ)
    (dens : Option (Dict String ℝ)) : Res VState := do
  let st ← instanceOf bis ptan h ids nf nw nt kwargs
  return ⟨st.heap, request st.veh dens⟩

end HV.Waverider
