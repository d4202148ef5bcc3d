import Verif.Props.Degenerate
import Verif.Props.FlatSize

/-! C149 for wings with a flat leading edge. -/

namespace HV
open Spec

/-- All corners on one vertical line. -/
theorem degenerate_of_vertical {t : Tri ℝ} (x y : ℝ) (h0 : t.v0.x = x ∧ t.v0.y = y) (h1 : t.v1.x = x ∧ t.v1.y = y)
    (h2 : t.v2.x = x ∧ t.v2.y = y) : Degenerate t := by
  refine ⟨⟨x, y, 0⟩, ⟨0, 0, 1⟩, ⟨t.v0.z, ?_⟩, ⟨t.v1.z, ?_⟩, t.v2.z, ?_⟩ <;> ext <;> simp [h0.1, h0.2, h1.1, h1.2, h2.1, h2.2]

/-- C149 fails for every wing with a flat leading edge and no flap: the patch `TELE_patch` that closes the end of the flap
collapses to a line. -/
theorem C149_flat_wing_violated (find : (ℝ → Res ℝ) → Res ℝ) (ptan : ℝ → ℝ) (D : ℝ → ℝ → Prop) (a : Wing.Args) (w : Wing.State) (L : ℝ → V)
    (ht hb : ℝ → ℝ → ℝ) (y0 : ℝ) (hw : Wing.init find a = .ok w) (h : FlatWing D a L ht hb y0) (hbr : a.t_B2 = none ∨ a.t_B1.isSome)
    (h1 : w.t_B1 ∈ Set.Icc (0 : ℝ) 1) (zA : a.A0.z = 0) (zA1 : a.A1.z = 0) (zL : ∀ t ∈ Set.Icc (0 : ℝ) 1, (L t).z = 0)
    (hflap : a.flap_length = 0) (n : ℕ) (hn : 1 ≤ n)
    (name : Option String) (H : Heap) (id : ℕ) (hid : H id = Wing.comp ptan w n name) :
    ∃ h' M c', generatePatches H id = (.ok (), h') ∧ (h' id).mesh = (.ok M, c') ∧ ∃ t ∈ M.tris, Degenerate t := by
  obtain ⟨ha, hF, t2, hb', -, -⟩ := flatWing_base hw h hbr h1
  obtain ⟨h', M, c', g1, g2, g3, -⟩ := flat_size_closing hb' hF (by rw [ha]; exact h.opened) n hn (by rw [ha]; exact zA) (by rw [ha]; exact zA1)
    zL ptan name H id hid
  have e0 : L 0 = a.B0 := by have := hb'.L0; rwa [ha] at this
  generalize hs : (⟨L, ht, hb, fun _ => 0⟩ : WingShape) = s at g3
  have eL : s.L = L := by rw [← hs]
  have key : ∀ i j : ℕ, ((quad n (s.T 0) (flapTip w s w.args.B0) (s.B 0) (s.M 0)).P i j).x = a.B0.x ∧
      ((quad n (s.T 0) (flapTip w s w.args.B0) (s.B 0) (s.M 0)).P i j).y = a.B0.y := by
    intro i j
    constructor <;>
    · simp [quad, bil, lineAt, WingShape.T, WingShape.B, WingShape.M, liftBy, flapTip, ha, hflap, eL, e0]
      try ring
  refine ⟨h', M, c', g1, g2, ?_⟩
  have hm := fun t ht => g3 t ((mem_gridMesh _ _ _ _ _ _).2 ⟨0, hn, 0, hn, ht⟩)
  rw [cellTris_eq] at hm
  refine ⟨_, hm _ List.mem_cons_self, degenerate_of_vertical a.B0.x a.B0.y (key _ _) (key _ _) ?_⟩
  simp only [key]
  constructor <;> ring

/-- The delta wing with a flat leading edge, without its flap. -/
noncomputable def plainDelta : Wing.Args := { deltaWing "flat" (some 0.5) none with flap_length := 0 }

example (find : (ℝ → Res ℝ) → Res ℝ) (ptan : ℝ → ℝ) : ∃ w h' M c', Wing.init find plainDelta = .ok w ∧
    generatePatches (fun _ => Wing.comp ptan w 3 none) 0 = (.ok (), h') ∧ (h' 0).mesh = (.ok M, c') ∧ ∃ t ∈ M.tris, Degenerate t := by
  obtain ⟨w, hw⟩ : ∃ w, Wing.init find plainDelta = .ok w := ⟨_, rfl⟩
  have h1 := (Wing.init_ok hw).2.2.1 0.5 rfl
  have h := delta_flat (some 0.5) none
  have hF : FlatWing (fun _ _ => True) plainDelta (lineAt ⟨0, 1, 0⟩ ⟨2, 0, 0⟩) (fun _ _ => -0.05) (fun _ _ => 0.05) 0 :=
    { ty := h.ty, le := h.le, tail := h.tail, line := h.line, L0 := h.L0, L1 := h.L1, top := h.top, bot := h.bot, over := liesOver_univ _ _ _,
      opened := rfl, rootA0 := rfl, rootA1 := rfl, rootTT := rfl }
  obtain ⟨h', M, c', g1, g2, g3⟩ := C149_flat_wing_violated find ptan _ _ w _ _ _ 0 hw hF (.inl rfl) (by rw [h1]; constructor <;> norm_num) rfl rfl
    (fun t _ => by simp [lineAt]) rfl 3 (by norm_num) none (fun _ => Wing.comp ptan w 3 none) 0 rfl
  exact ⟨w, h', M, c', hw, g1, g2, g3⟩

end HV
