import Verif.Props.Hifire8Size
import Verif.Props.HtvSize
import Verif.Props.X43Size
import Verif.Props.RefexSize
import Verif.Props.Hifire4Fins

/-!
# C127: the HIFiRE 8, the HTV, the X-43, the ReFEX and the HIFiRE 4 with all lengths multiplied are not the same vehicles at another size

Constants of their generators are lengths in metres: the nose of the HIFiRE 8, the widths of the leading edges, and the coefficients of the parabolas into
which the HIFiRE 4 is bent.
-/

namespace HV
open Spec Veh

namespace Spec

/-- The points of the mesh `m'` are those of `m` multiplied by `k`. -/
def Enlarged (k : ℝ) (m m' : TriMesh ℝ) : Prop := ∀ v, IsVertex v m' ↔ ∃ u, IsVertex u m ∧ v = u * k

/-- Part number `i` of the second vehicle is not that of the first multiplied by `k`, however finely either is meshed. -/
def PartDiffers (k : ℝ) (id : ℕ) (st st' : VState) : Prop :=
  ∀ st0 st0' lib depth, Rescaled st st0 → Rescaled st' st0' → ∃ s s' M M' c c', generate lib depth st0 = (.ok (), s) ∧
    generate lib depth st0' = (.ok (), s') ∧ (s.heap id).mesh = (.ok M, c) ∧ (s'.heap id).mesh = (.ok M', c') ∧ ¬ Enlarged k M.tris M'.tris

end Spec

variable {k : ℝ} {m m' : TriMesh ℝ}

/-- A rounded edge of a width that does not scale with the rest. -/
theorem not_enlarged {f : V → ℝ} (hf : ∀ u, f (u * k) = f u * k) {a w W : ℝ} (h1 : ∃ v, IsVertex v m ∧ f v = a + w) (h2 : ∀ v, IsVertex v m → f v ≤ a + W)
    (h1' : ∃ v, IsVertex v m' ∧ f v = a * k + w) (h2' : ∀ v, IsVertex v m' → f v ≤ a * k + W) (hk : 0 < k) (h : W < w * k ∨ W * k < w) : ¬ Enlarged k m m' := by
  intro he
  rcases h with h | h
  · obtain ⟨v, hv, e⟩ := h1
    have := h2' (v * k) ((he _).2 ⟨v, hv, rfl⟩)
    rw [hf, e] at this
    nlinarith
  · obtain ⟨v, hv, e⟩ := h1'
    obtain ⟨u, hu, rfl⟩ := (he v).1 hv
    have := h2 u hu
    rw [hf] at e
    nlinarith

theorem not_enlarged_exact {f : V → ℝ} (hf : ∀ u, f (u * k) = f u * k) {a w : ℝ} (hw : 0 < w) (h1 : ∃ v, IsVertex v m ∧ f v = a + w)
    (h2 : ∀ v, IsVertex v m → f v ≤ a + w) (h1' : ∃ v, IsVertex v m' ∧ f v = a * k + w) (h2' : ∀ v, IsVertex v m' → f v ≤ a * k + w) (hk : 0 < k)
    (h : k ≠ 1) : ¬ Enlarged k m m' := by
  refine not_enlarged hf h1 h2 h1' h2' hk ?_
  rcases lt_or_gt_of_ne h with h | h
  · exact .inr (by nlinarith)
  · exact .inl (by nlinarith)

/-- C127 is violated by the HIFiRE 8: its nose is 0.5 long whatever its size, so that a vehicle with all four lengths multiplied by `k ≠ 1` is not the
vehicle multiplied by `k`, at any mesh resolution. -/
theorem C127_hifire8_violated (ptan : ℝ → ℝ) (hT : FloatTan ptan) (h h' : Heap) (ids : ℕ → ℕ) (hi : Function.Injective ids) (kwargs kwargs' : Dict String ℝ)
    (p p' : HIFiRE8.Params) (ha : HIFiRE8Args kwargs p) (ha' : HIFiRE8Args kwargs' p') (hp : HIFiRE8Ok p) (hp' : HIFiRE8Ok p')
    (hb : p.R_nose ≤ p.R_base) (hL : 0.4 ≤ p.L) (hL' : 0.4 ≤ p'.L) (hk : 0 < k) (hk1 : k ≠ 1)
    (e : p' = ⟨p.L * k, p.R_base * k, p.R_nose * k, p.nozzle_length * k⟩) :
    ∃ st st', HIFiRE8.instanceOf bisect01 ptan h ids kwargs = .ok st ∧ HIFiRE8.instanceOf bisect01 ptan h' ids kwargs' = .ok st' ∧
      ("nose", ids 2) ∈ st.veh.named ∧ ("nose", ids 2) ∈ st'.veh.named ∧ PartDiffers k (ids 2) st st' := by
  subst e
  obtain ⟨st, N, a1, a2, a3⟩ := C148_hifire8_partial ptan hT h ids hi kwargs p ha hp hb hL
  obtain ⟨st', N', b1, b2, b3⟩ := C148_hifire8_partial ptan hT h' ids hi kwargs' _ ha' hp' (by simp only; gcongr) hL'
  refine ⟨st, st', a1, b1, by rw [a2]; simp, by rw [b2]; simp, fun st0 st0' lib depth r r' => ?_⟩
  obtain ⟨s, a4, -, -, ⟨M, c, a5, a6⟩, -⟩ := a3 st0 lib depth r
  obtain ⟨s', b4, -, -, ⟨M', c', b5, b6⟩, -⟩ := b3 st0' lib depth r'
  exact ⟨s, s', M, M', c, c', a4, b4, a5, b5, not_enlarged_exact (f := (·.x)) (fun u => rfl) (by norm_num) a6.length.2.2 (fun v hv => (a6.length.1 v hv).2)
    b6.length.2.2 (fun v hv => (b6.length.1 v hv).2) hk hk1⟩

/-- C127 is violated by the HTV: the rounded edge of its body is 0.01 wide whatever its size, so that no vehicle whose length is multiplied by `k ≠ 1`,
whatever the other dimensions, is the vehicle multiplied by `k`, at any mesh resolution. -/
theorem C127_htv_violated (ptan : ℝ → ℝ) (hT : FloatTan ptan) (h h' : Heap) (ids : ℕ → ℕ) (hi : Function.Injective ids) (kwargs kwargs' : Dict String ℝ)
    (p p' : HTV.Params) (ha : HTVArgs kwargs p) (ha' : HTVArgs kwargs' p') (hp : HTVOk p) (hp' : HTVOk p') (hn : 0 < p.L_nom) (hn' : 0 < p'.L_nom)
    (hw : 0.0125 ≤ p.body_width_nom) (hw' : 0.0125 ≤ p'.body_width_nom) (hk : 0 < k) (hk1 : k ≠ 1) (e : p'.L = p.L * k) :
    ∃ st st', HTV.instanceOf bisect01 ptan h ids kwargs = .ok st ∧ HTV.instanceOf bisect01 ptan h' ids kwargs' = .ok st' ∧
      ids 0 ∈ st.veh.components ∧ ids 0 ∈ st'.veh.components ∧ PartDiffers k (ids 0) st st' := by
  obtain ⟨st, a1, a2, a3⟩ := C146_partial ptan hT h ids hi kwargs p ha hp hn hw
  obtain ⟨st', b1, b2, b3⟩ := C146_partial ptan hT h' ids hi kwargs' p' ha' hp' hn' hw'
  refine ⟨st, st', a1, b1, by rw [a2]; simp, by rw [b2]; simp, fun st0 st0' lib depth r r' => ?_⟩
  obtain ⟨s, a4, ⟨M, c, a5, a6⟩, -⟩ := a3 st0 lib depth r
  obtain ⟨s', b4, ⟨M', c', b5, b6⟩, -⟩ := b3 st0' lib depth r'
  obtain ⟨z, hz⟩ := a6.nose
  obtain ⟨z', hz'⟩ := b6.nose
  exact ⟨s, s', M, M', c, c', a4, b4, a5, b5, not_enlarged_exact (f := (·.x)) (a := p.L) (w := 0.01) (fun u => rfl) (by norm_num) ⟨_, hz, rfl⟩
    (fun v hv => (a6.within v hv).2.1) ⟨_, hz', by rw [← e]⟩ (fun v hv => by rw [← e]; exact (b6.within v hv).2.1) hk hk1⟩

/-- C127 is violated by the X-43: the rounded edge of its nose is 0.05 wide whatever its size, so that no vehicle whose length is multiplied by `k ≠ 1`,
whatever the other dimensions, is the vehicle multiplied by `k`, at any mesh resolution. -/
theorem C127_x43_violated (ptan : ℝ → ℝ) (hT : FloatTan ptan) (h h' : Heap) (ids : ℕ → ℕ) (hi : Function.Injective ids) (kwargs kwargs' : Dict String ℝ)
    (p p' : X43.Params) (ha : X43Args kwargs p) (ha' : X43Args kwargs' p') (hp : X43Sized p) (hp' : X43Sized p') (hk : 0 < k) (hk1 : k ≠ 1)
    (e : p'.body_length = p.body_length * k) :
    ∃ st st', X43.instanceOf bisect01 ptan h ids kwargs = .ok st ∧ X43.instanceOf bisect01 ptan h' ids kwargs' = .ok st' ∧
      ids 0 ∈ st.veh.components ∧ ids 0 ∈ st'.veh.components ∧ PartDiffers k (ids 0) st st' := by
  obtain ⟨st, a1, a2, -, a3⟩ := C147_x43 ptan hT h ids hi kwargs p ha hp
  obtain ⟨st', b1, b2, -, b3⟩ := C147_x43 ptan hT h' ids hi kwargs' p' ha' hp'
  refine ⟨st, st', a1, b1, by rw [a2]; simp, by rw [b2]; simp, fun st0 st0' lib depth r r' => ?_⟩
  obtain ⟨s, a4, ⟨M, c, a5, a6⟩, -⟩ := a3 st0 lib depth r
  obtain ⟨s', b4, ⟨M', c', b5, b6⟩, -⟩ := b3 st0' lib depth r'
  exact ⟨s, s', M, M', c, c', a4, b4, a5, b5, not_enlarged_exact (f := (·.x)) (a := p.body_length) (w := 0.05) (fun u => rfl) (by norm_num)
    ⟨_, a6.nose, rfl⟩ (fun v hv => (a6.within v hv).2.1) ⟨_, b6.nose, by rw [← e]⟩ (fun v hv => by rw [← e]; exact (b6.within v hv).2.1) hk hk1⟩

/-- C127 is violated by the ReFEX: the rounded edge of its wing is 0.01 wide at the tip and at most 0.03 anywhere, whatever its size, so that a vehicle
three times as large or a third as large is not the vehicle multiplied by `k`. -/
theorem C127_refex_violated (ptan : ℝ → ℝ) (hT : FloatTan ptan) (h h' : Heap) (ids : ℕ → ℕ) (hi : Function.Injective ids) (shift shift' : V)
    (kwargs kwargs' : Dict String ℝ) (p p' : ReFEX.Params) (ha : ReFEXArgs kwargs p) (ha' : ReFEXArgs kwargs' p') (hp : ReFEXOk p shift)
    (hp' : ReFEXOk p' shift') (on : p.generate_wings ≠ 0) (on' : p'.generate_wings ≠ 0) (hk : 0 < k) (hk1 : 3 < k ∨ k < 1 / 3)
    (eh : p'.h = p.h * k) (ew : p'.wing_span = p.wing_span * k) (lib : Lib) (depth : ℕ) :
    ∃ st st' s s' M M' c c', ReFEX.instanceOf bisect01 ptan h ids shift kwargs = .ok st ∧ ReFEX.instanceOf bisect01 ptan h' ids shift' kwargs' = .ok st' ∧
      generate lib depth st = (.ok (), s) ∧ generate lib depth st' = (.ok (), s') ∧ (s.heap (ids 4)).mesh = (.ok M, c) ∧
      (s'.heap (ids 4)).mesh = (.ok M', c') ∧ ¬ Enlarged k M.tris M'.tris := by
  obtain ⟨st, s, a1, a2, a3, a4⟩ := C142_refex ptan hT h ids hi shift kwargs p ha hp lib depth
  obtain ⟨st', s', b1, b2, b3, b4⟩ := C142_refex ptan hT h' ids hi shift' kwargs' p' ha' hp' lib depth
  obtain ⟨M, c, m, a5, a6, a7, a8⟩ := a4 4 (by norm_num) (by simp [refexOn, on])
  obtain ⟨M', c', m', b5, b6, b7, b8⟩ := b4 4 (by norm_num) (by simp [refexOn, on'])
  refine ⟨st, st', s, s', M, M', c, c', a1, b1, a2, b2, a5, b5, ?_⟩
  rw [a6, b6]
  have a9 := (a8 (-1) (.inr rfl)).2.2.1
  have b9 := (b8 (-1) (.inr rfl)).2.2.1
  refine not_enlarged (f := (·.z)) (a := p.wing_span + p.h) (w := 0.01) (W := 0.03) (fun u => rfl) ⟨_, isVertex_mapVerts.2 ⟨_, a9, rfl⟩, by simp [cart3d]⟩ ?_
    ⟨_, isVertex_mapVerts.2 ⟨_, b9, rfl⟩, by simp [cart3d, eh, ew]; ring⟩ ?_ hk ?_
  · intro v hv
    obtain ⟨u, hu, rfl⟩ := isVertex_mapVerts.1 hv
    have := (abs_le.1 (a7 u hu).2.2.1).1
    simp only [cart3d]
    linarith
  · intro v hv
    obtain ⟨u, hu, rfl⟩ := isVertex_mapVerts.1 hv
    have := (abs_le.1 (b7 u hu).2.2.1).1
    simp only [cart3d]
    rw [eh, ew] at this
    linarith
  · rcases hk1 with h | h
    · left; norm_num at *; linarith
    · right; norm_num at *; linarith

/-- C127 is violated by the HIFiRE 4: the coefficients of the parabolas into which it is bent are those of metres.  With the three lengths of the default
vehicle multiplied by three, the fins at the tips of the wing are not where the enlarged fins would be, at any mesh resolution. -/
theorem C127_hifire4_violated (ptan : ℝ → ℝ) (hT : FloatTan ptan) (h h' : Heap) (ids : ℕ → ℕ) (hi : Function.Injective ids) :
    ∃ st st', HIFiRE4.instanceOf bisect01 ptan h ids [("R", 0.2), ("L_n", 2), ("L_b", 4)] = .ok st ∧
      HIFiRE4.instanceOf bisect01 ptan h' ids [("R", 0.2 * 3), ("L_n", 2 * 3), ("L_b", 4 * 3)] = .ok st' ∧
      ("fin_1", ids 2) ∈ st.veh.named ∧ ("fin_1", ids 2) ∈ st'.veh.named ∧ PartDiffers 3 (ids 2) st st' := by
  have hr : round6 (0.6 : ℝ) = 0.6 := by
    unfold round6
    rw [show (0.6 : ℝ) * 10 ^ 6 = ((600000 : ℤ) : ℝ) by norm_num, round_intCast]
    norm_num
  have ha : HIFiRE4Args [("R", 0.2), ("L_n", 2), ("L_b", 4)] hifire4Default :=
    ⟨by decide, .inr ⟨by simp, rfl⟩, .inr ⟨by simp, rfl⟩, .inl (by simp [hifire4Default]), .inl (by simp [hifire4Default]), .inl (by simp [hifire4Default])⟩
  have ha' : HIFiRE4Args [("R", 0.2 * 3), ("L_n", 2 * 3), ("L_b", 4 * 3)] ⟨0.3, 0.5, 0.6, 6, 12⟩ :=
    ⟨by decide, .inr ⟨by simp, rfl⟩, .inr ⟨by simp, rfl⟩, .inl (by norm_num), .inl (by norm_num), .inl (by norm_num)⟩
  have hp' : HIFiRE4Ok ⟨0.3, 0.5, 0.6, 6, 12⟩ := by
    have hb : hifire4Factor ⟨0.3, 0.5, 0.6, 6, 12⟩ ≤ 1000 := by
      unfold hifire4Factor parabolaFactor
      norm_num [abs_of_pos, max_def]
    have hl : HIFiRE4.lost ⟨0.3, 0.5, 0.6, 6, 12⟩ = 0 := by
      unfold HIFiRE4.lost
      rw [hr, sub_self, abs_zero]
    constructor <;> first | exact hb.trans (by norm_num) | (rw [hl, mul_zero]; exact zero_le_one) | norm_num
  obtain ⟨st, a1, a2, a3⟩ := C155_hifire4_partial ptan hT h ids hi _ _ ha hifire4Default_ok.2
  obtain ⟨st', b1, b2, b3⟩ := C155_hifire4_partial ptan hT h' ids hi _ _ ha' hp'
  refine ⟨st, st', a1, b1, by rw [a2]; simp, by rw [b2]; simp, fun st0 st0' lib depth r r' => ?_⟩
  obtain ⟨s, a4, a5, -⟩ := a3 st0 lib depth r
  obtain ⟨s', b4, b5, -⟩ := b3 st0' lib depth r'
  obtain ⟨M, c, a6, a7⟩ := a5.right
  obtain ⟨M', c', b6, b7⟩ := b5.right
  refine ⟨s, s', M, M', c, c', a4, b4, a6, b6, fun he => ?_⟩
  have v := a7.feet 1 (.inl rfl) 0.9 (.inl rfl)
  have := (b7.height (by norm_num) _ ((he _).2 ⟨_, v, rfl⟩)).1
  simp only [hifire4Default, Vec.mul_z] at this
  norm_num at this

/-! ## The hypotheses hold -/

/-- The default HIFiRE 8 and one twice as large. -/
example (h : Heap) : ∃ st st', HIFiRE8.instanceOf bisect01 ieeeTan h id [] = .ok st ∧
    HIFiRE8.instanceOf bisect01 ieeeTan h id [("L", 2.4), ("R_base", 0.35), ("R_nose", 0.2), ("nozzle_length", 0.2)] = .ok st' ∧ PartDiffers 2 2 st st' := by
  obtain ⟨st, st', h1, h2, -, -, h3⟩ := C127_hifire8_violated (k := 2) ieeeTan ieeeTan_float h h id Function.injective_id []
    [("L", 2.4), ("R_base", 0.35), ("R_nose", 0.2), ("nozzle_length", 0.2)] hifire8Default ⟨2.4, 0.35, 0.2, 0.2⟩ hifire8Default_ok.1
    ⟨by decide, .inl (by simp), .inl (by simp), .inl (by simp), .inl (by simp)⟩ hifire8Default_ok.2 (by constructor <;> norm_num)
    (by norm_num [hifire8Default]) (by norm_num [hifire8Default]) (by norm_num) (by norm_num) (by norm_num) (by norm_num [hifire8Default])
  exact ⟨st, st', h1, h2, h3⟩

/-- The default HTV and one half as large. -/
example (h : Heap) : ∃ st st', HTV.instanceOf bisect01 ieeeTan h id [] = .ok st ∧
    HTV.instanceOf bisect01 ieeeTan h id [("L", 0.5), ("body_width", 0.25), ("h", 0.05), ("t_LE", 0.005), ("L_nom", 0.5), ("body_width_nom", 0.4)] = .ok st' ∧
    PartDiffers 0.5 0 st st' := by
  obtain ⟨st, st', h1, h2, -, -, h3⟩ := C127_htv_violated (k := 0.5) ieeeTan ieeeTan_float h h id Function.injective_id []
    [("L", 0.5), ("body_width", 0.25), ("h", 0.05), ("t_LE", 0.005), ("L_nom", 0.5), ("body_width_nom", 0.4)] htvDefault
    ⟨0.5, 0.25, 0.05, 0.005, 15, 0.5, 0.4⟩ htvDefault_ok.1
    ⟨by decide, .inl (by simp), .inl (by simp), .inl (by simp), .inl (by simp), .inr ⟨by simp, rfl⟩, .inl (by simp), .inl (by simp)⟩ htvDefault_ok.2
    (by constructor <;> norm_num) (by norm_num [htvDefault]) (by norm_num) (by norm_num [htvDefault]) (by norm_num) (by norm_num) (by norm_num)
    (by norm_num [htvDefault])
  exact ⟨st, st', h1, h2, h3⟩

/-- The default X-43 and one twice as large. -/
example : ∃ kwargs, X43Args kwargs ⟨7.4, 2, 0, 0.8, 2, 0.5, 0.6, 0.2, 0.6, 2, 0.4, 0, 0⟩ ∧ X43Sized ⟨7.4, 2, 0, 0.8, 2, 0.5, 0.6, 0.2, 0.6, 2, 0.4, 0, 0⟩ ∧
    X43Sized x43Default ∧ (7.4 : ℝ) = x43Default.body_length * 2 := by
  refine ⟨[("body_length", 7.4), ("body_width", 2), ("wing_span", 0.8), ("wing_length", 2), ("wing_TE_back", 0.5), ("flap_length", 0.6), ("engine_h", 0.2),
    ("fin_height", 0.6), ("fin_length", 2), ("rudder_length", 0.4)], ?_, ?_, ?_, by norm_num [x43Default]⟩
  · exact ⟨by decide, .inl (by simp), .inl (by simp), .inr ⟨by simp, rfl⟩, .inl (by simp), .inl (by simp), .inl (by simp), .inl (by simp), .inl (by simp),
      .inl (by simp), .inl (by simp), .inl (by simp), .inr ⟨by simp, rfl⟩, .inr ⟨by simp, rfl⟩⟩
  · exact ⟨by constructor <;> norm_num, by norm_num, by norm_num, by norm_num, by norm_num, by norm_num, by norm_num, by norm_num, by norm_num⟩
  · exact ⟨x43Default_ok.2, by norm_num [x43Default], by norm_num [x43Default], by norm_num [x43Default],
      by norm_num [x43Default], by norm_num [x43Default], by norm_num [x43Default], by norm_num [x43Default], by norm_num [x43Default]⟩

/-- The default ReFEX and one four times as large. -/
example : ∃ kwargs, ReFEXArgs kwargs ⟨1, 1, 1, 1, 0.9, 0.3, 6, 0.2, 10, 0.08, 3.6, 1.4, 1.4, 0.08, 0⟩ ∧
    ReFEXOk ⟨1, 1, 1, 1, 0.9, 0.3, 6, 0.2, 10, 0.08, 3.6, 1.4, 1.4, 0.08, 0⟩ (ReFEX.defaultShift * (4 : ℝ)) ∧ (0.9 : ℝ) = refexDefault.h * 4 ∧
    (1.4 : ℝ) = refexDefault.wing_span * 4 := by
  refine ⟨[("h", 0.9), ("r_n", 0.3), ("r_o", 6), ("L_o", 0.2), ("L_b", 10), ("fin_thickness", 0.08), ("wing_length", 3.6), ("wing_span", 1.4),
    ("tail_height", 1.4), ("tail_thickness", 0.08)], ?_, ?_, by norm_num [refexDefault], by norm_num [refexDefault]⟩
  · exact ⟨by decide, .inr ⟨by simp, rfl⟩, .inr ⟨by simp, rfl⟩, .inr ⟨by simp, rfl⟩, .inr ⟨by simp, rfl⟩, .inl (by simp), .inl (by simp), .inl (by simp),
      .inl (by simp), .inl (by simp), .inl (by simp), .inl (by simp), .inl (by simp), .inl (by simp), .inl (by simp), .inr ⟨by simp, rfl⟩⟩
  · constructor <;> norm_num [ReFEX.defaultShift, Vec.mul_z]

end HV
