import Verif.Props.FinSizes
import Verif.Props.Waverider
import Verif.Props.Roberts

/-!
# C109, C139: default position of the ReFEX canards, clustering of the waverider's fuselage
-/

namespace HV

open Spec

/-- C139: the canards of a ReFEX made without arguments lie flat, stand from 0.219 to 0.506 to the side, reach back to -0.28 (its sharp rear edge
0.02 further) and do not reach further forward than 0.13, 0.1 being the foot of the leading edge. -/
theorem C139_refex_default {ptan : ℝ → ℝ} (hT : FloatTan ptan) (i : ℕ) (s : ℝ) (hs : i = 0 ∧ s = 1 ∨ i = 1 ∧ s = -1) (n : ℕ) (hn : 1 ≤ n)
    (name : Option String) (H : Heap) (id : ℕ)
    (hid : H id = Fin.comp (rounded bisect01) ptan (ReFEX.canardArgs refexDefault ReFEX.defaultShift i) n name) :
    ∃ h' M c', generatePatches H id = (.ok (), h') ∧ (h' id).mesh = (.ok M, c') ∧
      StandsOver M.tris (sideways s) 0.02 [(-0.28025, 0.21915), (-0.28025, 0.5058), (-0.166175, 0.49995), (0.1, 0.21915)] ∧
      BoxedBy M.tris (sideways s) (-0.33025) 0.13 0.18915 0.5358 (0.01 + 1e-12) ∧
      IsVertex (sideways s ⟨-0.28025, 0.5158, 0⟩) M.tris ∧ IsVertex (sideways s ⟨-0.30025, 0.5058, 0⟩) M.tris := by
  obtain ⟨h', M, c', k1, k2, k3, k4, k5, k6⟩ := C139_refex_canard refexDefault _ refexDefault_ok.2 hT i s hs n hn name H id hid
  have e : (fun u => sideways s (pitched (s * refexDefault.canard_angle) (ReFEX.defaultShift.x - refexDefault.L_o - 0.845 * refexDefault.h) u)) =
      sideways s := by
    funext u
    congr 1
    simp [pitched, refexDefault]
  have e' : ∀ u, sideways s (pitched (s * refexDefault.canard_angle) (ReFEX.defaultShift.x - refexDefault.L_o - 0.845 * refexDefault.h) u) =
      sideways s u := fun u => congrFun e u
  simp only [e'] at k3 k4 k5 k6
  refine ⟨h', M, c', k1, k2, ?_, ?_, ?_, ?_⟩
  · convert k3 using 1 <;> norm_num [refexDefault, ReFEX.defaultShift]
  · convert k4 using 1 <;> norm_num [refexDefault, ReFEX.defaultShift]
  · convert k5 using 2
    ext <;> norm_num [refexDefault, ReFEX.defaultShift]
  · convert k6 using 2
    ext <;> norm_num [refexDefault, ReFEX.defaultShift]

example (n : ℕ) (hn : 1 ≤ n) : ∃ h' M c',
    generatePatches (fun _ => Fin.comp (rounded bisect01) ieeeTan (ReFEX.canardArgs refexDefault ReFEX.defaultShift 0) n none) 0 = (.ok (), h') ∧
      (h' 0).mesh = (.ok M, c') ∧ IsVertex (sideways 1 ⟨-0.28025, 0.5158, 0⟩) M.tris := by
  obtain ⟨h', M, c', k1, k2, -, -, k5, -⟩ := C139_refex_default ieeeTan_float 0 1 (.inl ⟨rfl, rfl⟩) n hn none
    (fun _ => Fin.comp (rounded bisect01) ieeeTan (ReFEX.canardArgs refexDefault ReFEX.defaultShift 0) n none) 0 rfl
  exact ⟨h', M, c', k1, k2, k5⟩

/-- The function crowds the parameters towards both ends alike. -/
def Spec.ClustersBothEnds (g : ℝ → Res ℝ) : Prop :=
  ∀ η, 0 < η → η < 1 / 2 → ∃ a, g η = .ok a ∧ 0 < a ∧ a < η ∧ g (1 - η) = .ok (1 - a)

/-- C109: along its length the mesh of the waverider's fuselage is refined towards the nose and the base alike, and not refined around it. -/
theorem C109_fuselage_clustering (ptan : ℝ → ℝ) (hT : FloatTan ptan) (h : Heap) (ids : ℕ → ℕ) (hi : Function.Injective ids) (nf nw nt : ℕ)
    (hf : 1 ≤ nf) (hw : 1 ≤ nw) (ht : 1 ≤ nt) (kwargs : Dict String ℝ) (p : Waverider.Params) (ha : WaveriderArgs kwargs p) (hp : WaveriderOk p) :
    ∃ st g, Waverider.instanceOf bisect01 ptan h ids nf nw nt kwargs = .ok st ∧ (st.heap (ids 0)).clustering = { i_clustering := some g } ∧
      ClustersBothEnds g := by
  obtain ⟨st, b1, -, -, -, -, -, b2, -, -⟩ := waverider_meshes ptan hT h ids hi nf nw nt hf hw ht kwargs p ha hp
  refine ⟨st, Waverider.cf, b1, ?_, ?_⟩
  · rw [b2]; rfl
  · intro η h0 h1
    obtain ⟨-, -, a, ha, hl, -, hs⟩ := C18_direction 1.025 (by norm_num) η h0 (by linarith)
    refine ⟨a, ha, ?_, hl h1, hs⟩
    obtain ⟨g, hg, g0, -, hm, -⟩ := C18_roberts 1.025 (by norm_num) true true
    have : a = g η := by rw [hg] at ha; exact (Except.ok.inj ha).symm
    rw [this, ← g0]
    exact hm h0

example (h : Heap) : ∃ st g, Waverider.instanceOf bisect01 ieeeTan h id 30 30 4 [] = .ok st ∧
    (st.heap 0).clustering = { i_clustering := some g } ∧ ClustersBothEnds g :=
  C109_fuselage_clustering ieeeTan ieeeTan_float h id Function.injective_id 30 30 4 (by norm_num) (by norm_num) (by norm_num) [] _
    waveriderDefault_ok.1 waveriderDefault_ok.2

end HV
