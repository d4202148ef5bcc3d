import Verif.Lemmas.FinBounds
import Verif.Props.FinRects

/-!
# C139: the dimensions of a fin
-/

namespace HV
open Spec

namespace Spec

/-- The corners of a fin: the four points of its outline, and the tips of a sharp rudder. -/
noncomputable def finCorners (a : Fin.Args) : List V := [a.p0, a.p1, a.p2, a.p3] ++
  if a.rudder_type = "sharp" then [⟨a.p0.x - a.rudder_length, a.p0.y, a.rudder_length * Real.sin a.rudder_angle⟩,
    ⟨a.p1.x - a.rudder_length, a.p1.y, a.rudder_length * Real.sin a.rudder_angle⟩] else []

/-- Half of the thickness, or the deflection of the tip of a sharp rudder if that is more. -/
noncomputable def finHalfHeight (a : Fin.Args) : ℝ :=
  if a.rudder_type = "sharp" then max (a.fin_thickness / 2) |a.rudder_length * Real.sin a.rudder_angle| else a.fin_thickness / 2

/-- Seen from above the point is no further than `W` outside of any straight line that has the corners on one side, and its height is at
most `M`. -/
def WithinFin (a : Fin.Args) (W M : ℝ) (u : V) : Prop := |u.z| ≤ M ∧
  ∀ α β γ : ℝ, α ^ 2 + β ^ 2 = 1 → (∀ p ∈ finCorners a, α * p.x + β * p.y ≤ γ) → α * u.x + β * u.y ≤ γ + W

/-- A fin laid out in the plane `z = 0` whose leading edge is at most `W` wide. -/
structure FlatOutline (a : Fin.Args) (W : ℝ) : Prop where
  z0 : a.p0.z = 0
  z1 : a.p1.z = 0
  z2 : a.p2.z = 0
  z3 : a.p3.z = 0
  width : ∀ t ∈ Set.Icc (0 : ℝ) 1, ∀ w, a.LE_wf t = .ok w → w ≤ W

/-- The leading edge width at `t`. -/
def HasWidth (a : Fin.Args) (t w : ℝ) : Prop := a.LE_wf t = .ok w

end Spec

theorem within_conv {a : Fin.Args} {W M : ℝ} (u v : V) (t : ℝ) (ht : t ∈ Set.Icc (0 : ℝ) 1) (hu : WithinFin a W M u) (hv : WithinFin a W M v) :
    WithinFin a W M (lineAt u v t) := by
  have t1 := sub_nonneg.2 ht.2
  refine ⟨?_, fun α β γ h1 h2 => ?_⟩
  · have a1 := abs_le.1 hu.1
    have a2 := abs_le.1 hv.1
    simp only [lineAt, Vec.add_z, Vec.mul_z]
    rw [abs_le]
    constructor
    · have := mul_le_mul_of_nonneg_left a1.1 t1
      have := mul_le_mul_of_nonneg_left a2.1 ht.1
      linarith
    · have := mul_le_mul_of_nonneg_left a1.2 t1
      have := mul_le_mul_of_nonneg_left a2.2 ht.1
      linarith
  · have a1 := mul_le_mul_of_nonneg_left (hu.2 α β γ h1 h2) t1
    have a2 := mul_le_mul_of_nonneg_left (hv.2 α β γ h1 h2) ht.1
    simp only [lineAt, Vec.add_x, Vec.add_y, Vec.mul_x, Vec.mul_y]
    linarith

theorem within_centre {a : Fin.Args} {W M : ℝ} (p q r s : V) (hp : WithinFin a W M p) (hq : WithinFin a W M q) (hr : WithinFin a W M r)
    (hs : WithinFin a W M s) : WithinFin a W M (cellCentre MeshArith.real p q r s) := by
  refine ⟨?_, fun α β γ h1 h2 => ?_⟩
  · have a1 := abs_le.1 hp.1
    have a2 := abs_le.1 hq.1
    have a3 := abs_le.1 hr.1
    have a4 := abs_le.1 hs.1
    have := aff_centre 0 0 1 0 p q r s
    simp only [aff] at this
    rw [abs_le]
    constructor <;> linarith [a1.1, a1.2, a2.1, a2.2, a3.1, a3.2, a4.1, a4.2]
  · have := aff_centre α β 0 0 p q r s
    simp only [aff] at this
    linarith [hp.2 α β γ h1 h2, hq.2 α β γ h1 h2, hr.2 α β γ h1 h2, hs.2 α β γ h1 h2]

theorem unit_le {α β : ℝ} (h : α ^ 2 + β ^ 2 = 1) : |α| ≤ 1 ∧ |β| ≤ 1 := by
  constructor <;> rw [← sq_le_one_iff_abs_le_one] <;> nlinarith [sq_nonneg α, sq_nonneg β]

theorem unit_swing {α β φ y : ℝ} (h : α ^ 2 + β ^ 2 = 1) : α * (y * Real.cos φ) + β * (y * Real.sin φ) ≤ |y| := by
  have hcs := Real.sin_sq_add_cos_sq φ
  have h1 : |α * Real.cos φ + β * Real.sin φ| ≤ 1 := by
    rw [← sq_le_one_iff_abs_le_one]
    have : (α * Real.cos φ + β * Real.sin φ) ^ 2 = 1 - (α * Real.sin φ - β * Real.cos φ) ^ 2 := by
      linear_combination (α ^ 2 + β ^ 2) * hcs + h
    rw [this]; nlinarith [sq_nonneg (α * Real.sin φ - β * Real.cos φ)]
  have e : α * (y * Real.cos φ) + β * (y * Real.sin φ) = y * (α * Real.cos φ + β * Real.sin φ) := by ring
  rw [e]
  refine (le_abs_self _).trans ?_
  rw [abs_mul]
  exact mul_le_of_le_one_right (abs_nonneg _) h1

/-- C139: every fin of uniform thickness laid out in the plane `z = 0` is as thick as the given thickness and covers the given outline: the four
corners are vertices on both sides at half the thickness, and so are the tips of a sharp rudder.  Nothing is further than half the thickness
(or than the tip of a deflected rudder) from the plane, up to the gap at the poles of the ellipses, and nothing reaches further beyond the
outline than the width of the leading edge; it does reach that far at `p1` and at `p3`. -/
theorem C139_fin (find : (ℝ → Res ℝ) → Res ℝ) (ptan : ℝ → ℝ) (a : Fin.Args) (wmin W η : ℝ) (o : V) (hη : FindsRoot η find)
    (h : UniformFin ptan a wmin o) (hf : FlatOutline a W) (hx : (a.p1.x - a.p2.x) * (a.p3.x - a.p2.x) ≤ 0) (n : ℕ) (hn : 1 ≤ n)
    (name : Option String) (H : Heap) (id : ℕ) (hid : H id = Fin.comp find ptan a n name) :
    ∃ h' M c', generatePatches H id = (.ok (), h') ∧ (h' id).mesh = (.ok M, c') ∧
      (∀ v, IsVertex v M.tris → ∃ u, v = finMove a o u ∧ WithinFin a W (finHalfHeight a + poleGap ptan (a.fin_thickness / 2) wmin) u) ∧
      (∀ p ∈ [a.p0, a.p1, a.p2, a.p3], IsVertex (finMove a o (p + ⟨0, 0, a.fin_thickness / 2⟩)) M.tris ∧
        IsVertex (finMove a o (p - ⟨0, 0, a.fin_thickness / 2⟩)) M.tris) ∧
      (a.rudder_type = "sharp" → ∀ p ∈ [a.p0, a.p1],
        IsVertex (finMove a o ⟨p.x - a.rudder_length, p.y, a.rudder_length * Real.sin a.rudder_angle⟩) M.tris) ∧
      (∀ w, HasWidth a 0 w → IsVertex (finMove a o (a.p1 + ⟨0, w, 0⟩)) M.tris) ∧
      ∀ w, HasWidth a 1 w → IsVertex (finMove a o (a.p3 + ⟨w, 0, 0⟩)) M.tris := by
  have z0 : (0 : ℝ) ∈ Set.Icc (0 : ℝ) 1 := ⟨le_rfl, zero_le_one⟩
  have z1 : (1 : ℝ) ∈ Set.Icc (0 : ℝ) 1 := ⟨zero_le_one, le_rfl⟩
  have hrim := h.rim
  have hgap := hrim.gap_nonneg
  have hb0 := hrim.bpos
  have hnn : n ≠ 0 := by omega
  have hn0 : (n : ℝ) ≠ 0 := by positivity
  have hmem : ∀ i ≤ n, (i : ℝ) / n ∈ Set.Icc (0 : ℝ) 1 := fun i hi => ⟨by positivity, (div_le_one (by positivity)).2 (by exact_mod_cast hi)⟩
  obtain ⟨line, PL, hl, hcall, hb⟩ := polyline_broken a.p1 a.p2 a.p3 h.n12 h.n23
  obtain ⟨tB, htB, hfind, -⟩ := hη (fun t => do let p ← line.call t; return p.x - a.p2.x) (fun t => (PL t).x - a.p2.x)
    (fun t _ => by simp only [hcall, ok_bind]; rfl)
    ((hb.continuous_x h.n12 h.n23).sub continuousOn_const) (by simp only [hb.at_zero, hb.at_one]; exact hx)
  obtain ⟨le, hle, fle⟩ := leading_patches find h n hn line PL hcall tB htB hfind
  obtain ⟨sk, hsk, fsk⟩ := fin_skins h n
  obtain ⟨bo, Pb, hbo, fbo, -⟩ := fin_bottom h n hn PL hb.at_one
  set K := WithinFin a W (finHalfHeight a + poleGap ptan (a.fin_thickness / 2) wmin) with hK
  have hwd : ∀ t ∈ Set.Icc (0 : ℝ) 1, 0 < widthAt a.LE_wf t ∧ widthAt a.LE_wf t ≤ W := fun t ht =>
    ⟨hrim.width_pos ht, hf.width t ht _ (hrim.width_ok ht)⟩
  have hW : 0 ≤ W := ((hwd 0 z0).1.trans_le (hwd 0 z0).2).le
  have hM : a.fin_thickness / 2 ≤ finHalfHeight a := by
    unfold finHalfHeight
    split_ifs
    · exact le_max_left _ _
    · exact le_rfl
  have mem4 : ∀ p ∈ [a.p0, a.p1, a.p2, a.p3], p ∈ finCorners a := fun p hp => by
    unfold finCorners
    exact List.mem_append_left _ hp
  -- points over the outline
  have over : ∀ p q : V, p ∈ finCorners a → q.x = p.x → q.y = p.y → |q.z| ≤ finHalfHeight a → K q := by
    intro p q hp hqx hqy hz
    refine ⟨by linarith, fun α β γ _ h2 => ?_⟩
    rw [hqx, hqy]
    linarith [h2 p hp]
  have habs : |a.fin_thickness / 2| = a.fin_thickness / 2 := abs_of_pos hb0
  have corner : ∀ p ∈ [a.p0, a.p1, a.p2, a.p3], p.z = 0 → K p ∧ K (p + Fin.half a) ∧ K (p - Fin.half a) := by
    intro p hp hz
    refine ⟨over p p (mem4 p hp) rfl rfl (by rw [hz, abs_zero]; linarith), over p _ (mem4 p hp) (by simp [Fin.half]) (by simp [Fin.half]) ?_,
      over p _ (mem4 p hp) (by simp [Fin.half]) (by simp [Fin.half]) ?_⟩
    · simp only [Vec.add_z, Fin.half, hz, zero_add, habs]; exact hM
    · simp only [Vec.sub_z, Fin.half, hz, zero_sub, abs_neg, habs]; exact hM
  have c0 := corner a.p0 (by simp) hf.z0
  have c1 := corner a.p1 (by simp) hf.z1
  have c2 := corner a.p2 (by simp) hf.z2
  have c3 := corner a.p3 (by simp) hf.z3
  have quadIn : ∀ p q r s : V, K p → K q → K r → K s → ∀ i ≤ n, ∀ j ≤ n, K ((quad n p q r s).P i j) := by
    intro p q r s hp hq hr hs i hi j hj
    simp only [quad, bil]
    exact within_conv _ _ _ (hmem j hj) (within_conv _ _ _ (hmem i hi) hp hq) (within_conv _ _ _ (hmem i hi) hs hr)
  -- the leading edge
  have lineIn : ∀ t ∈ Set.Icc (0 : ℝ) 1, (PL t).z = 0 ∧
      ∀ α β γ : ℝ, (∀ p ∈ finCorners a, α * p.x + β * p.y ≤ γ) → α * (PL t).x + β * (PL t).y ≤ γ := by
    intro t ht
    refine ⟨hb.within h.n12 h.n23 (R := fun v => v.z = 0) (fun u v t _ hu hv => by simp [lineAt, hu, hv]) hf.z1 hf.z2 hf.z3 ht, ?_⟩
    intro α β γ hg
    refine hb.within h.n12 h.n23 (R := fun v => α * v.x + β * v.y ≤ γ) (fun u v t ht hu hv => ?_) (hg _ (mem4 _ (by simp)))
      (hg _ (mem4 _ (by simp))) (hg _ (mem4 _ (by simp))) ht
    have a1 := mul_le_mul_of_nonneg_left hu (sub_nonneg.2 ht.2)
    have a2 := mul_le_mul_of_nonneg_left hv ht.1
    simp only [lineAt, Vec.add_x, Vec.add_y, Vec.mul_x, Vec.mul_y]
    linarith
  have rimIn : ∀ top, ∀ t ∈ Set.Icc (0 : ℝ) 1, ∀ r, K (rimAt ptan (a.fin_thickness / 2) a.LE_wf PL top t r) := by
    intro top t ht r
    obtain ⟨l1, l2⟩ := lineIn t ht
    obtain ⟨e1, e2⟩ := ellRaw_box ptan hb0 (hwd t ht).1 top
      (ArcLen.uMap (fun i : ℕ => ellRaw ptan (a.fin_thickness / 2) (widthAt a.LE_wf t) top ((i : ℝ) / (1000 : ℕ))) 1000 r)
    refine ⟨?_, fun α β γ h1 h2 => ?_⟩
    · simp only [rimAt, Vec.add_z, l1, zero_add, swing]
      exact e2.trans (by linarith)
    · simp only [rimAt, Vec.add_x, Vec.add_y, swing]
      have := unit_swing (φ := angAt PL t) (y := (ellArc ptan (a.fin_thickness / 2) (widthAt a.LE_wf t) top r).y) h1
      have e1' : |(ellArc ptan (a.fin_thickness / 2) (widthAt a.LE_wf t) top r).y| ≤ widthAt a.LE_wf t := e1
      linarith [l2 α β γ h2, (hwd t ht).2]
  have par : ∀ t0 ∈ Set.Icc (0 : ℝ) 1, ∀ t1 ∈ Set.Icc (0 : ℝ) 1, ∀ i ≤ n, t1 - (i : ℝ) / n * (t1 - t0) ∈ Set.Icc (0 : ℝ) 1 := by
    intro t0 m0 t1 m1 i hi
    have hm := param_mem hn m1 m0 hi
    rwa [show t1 + (i : ℝ) / n * (t0 - t1) = t1 - (i : ℝ) / n * (t1 - t0) by ring] at hm
  -- the bottom
  have botIn : ∀ i ≤ n, ∀ j ≤ n, K (Pb i j) := by
    intro i hi j hj
    cases fbo with
    | cons f1 _ =>
      obtain ⟨y, z, e1, e2, e3⟩ := bottom_bound h hbo (hmem i hi) (hmem j hj) (f1 i hi j hj)
      simp only at e1
      rw [e1]
      refine ⟨?_, fun α β γ h1 h2 => ?_⟩
      · simp only [Vec.add_z, hf.z3, zero_add]; linarith
      · simp only [Vec.add_x, Vec.add_y, add_zero]
        have : α * y ≤ W := (le_abs_self _).trans (by
          rw [abs_mul]
          exact (mul_le_of_le_one_left (abs_nonneg _) (unit_le h1).1).trans (e2.trans (hwd 1 z1).2))
        linarith [h2 _ (mem4 a.p3 (by simp))]
  -- the trailing edge
  have hte : ∃ te ps, Fin.trailingEdge ptan a = .ok te ∧
      List.Forall₂ (fun (e : String × Surf) (p : Panel) => ∀ i ≤ n, ∀ j ≤ n, e.2 ((i : ℝ) / n) ((j : ℝ) / n) = .ok (p.P i j)) te ps ∧
      (∀ p ∈ ps, ∀ i ≤ n, ∀ j ≤ n, K (p.P i j)) ∧ (a.rudder_type = "sharp" → ∀ p ∈ [a.p0, a.p1], ∃ q ∈ ps, ∃ i ≤ n, ∃ j ≤ n, q.P i j = rudderTip a p) := by
    unfold Fin.trailingEdge
    by_cases hs : a.rudder_type = "sharp"
    · obtain ⟨te, P, h1, h2, -⟩ := fin_sharp h (h.sharp hs) n hn PL hb.at_zero
      have hms : finHalfHeight a = max (a.fin_thickness / 2) |a.rudder_length * Real.sin a.rudder_angle| := by simp [finHalfHeight, hs]
      have tip : ∀ p ∈ [a.p0, a.p1], rudderTip a p ∈ finCorners a := by
        intro p hp
        unfold finCorners
        rw [if_pos hs]
        refine List.mem_append_right _ ?_
        simp only [List.mem_cons, List.not_mem_nil, or_false] at hp ⊢
        rcases hp with rfl | rfl
        · exact .inl rfl
        · exact .inr rfl
      have tipK : ∀ p ∈ [a.p0, a.p1], K (rudderTip a p) := fun p hp =>
        over _ _ (tip p hp) rfl rfl (by rw [hms]; exact le_max_right _ _)
      have t0 := tipK a.p0 (by simp)
      have t1 := tipK a.p1 (by simp)
      refine ⟨te, _, by rw [if_pos hs]; exact h1, h2, ?_, ?_⟩
      · intro p hp
        simp only [List.mem_cons, List.not_mem_nil, or_false] at hp
        rcases hp with rfl | rfl | rfl | rfl
        · exact quadIn _ _ _ _ t0 t1 c1.2.2 c0.2.2
        · exact quadIn _ _ _ _ c0.2.1 c1.2.1 t1 t0
        · intro i hi j hj
          cases h2 with
          | cons _ h2 => cases h2 with
            | cons _ h2 => cases h2 with
              | cons f1 _ =>
                obtain ⟨σ, hσ, y, z, e1, e2, e3⟩ := sharp_bound h (h.sharp hs) h1 (hmem i hi) (hmem j hj) (f1 i hi j hj)
                simp only at e1 ⊢
                rw [e1]
                refine ⟨by simp only; rw [hms]; exact e3, fun α β γ g1 g2 => ?_⟩
                have a1 := mul_le_mul_of_nonneg_left (g2 _ (mem4 a.p1 (by simp))) (sub_nonneg.2 hσ.2)
                have a2 := mul_le_mul_of_nonneg_left (g2 _ (tip a.p1 (by simp))) hσ.1
                simp only [rudderTip] at a2 ⊢
                have : β * y ≤ W := (le_abs_self _).trans (by
                  rw [abs_mul]
                  exact (mul_le_of_le_one_left (abs_nonneg _) (unit_le g1).2).trans (e2.trans (hwd 0 z0).2))
                linarith
        · exact quadIn _ _ _ _ c0.2.2 c0.1 c0.2.1 t0
      · intro _ p hp
        simp only [List.mem_cons, List.not_mem_nil, or_false] at hp
        rcases hp with rfl | rfl
        · exact ⟨_, List.mem_cons_self, 0, by omega, 0, by omega, by simp [quad, bil, lineAt_zero]⟩
        · exact ⟨_, List.mem_cons_self, n, le_rfl, 0, by omega, by simp [quad, bil, lineAt_zero, lineAt_one, div_self hn0]⟩
    · obtain ⟨te, P, h1, h2, -⟩ := fin_flat h n hn PL hb.at_zero
      refine ⟨te, _, by rw [if_neg hs]; exact h1, h2, ?_, fun h => absurd h hs⟩
      intro p hp
      simp only [List.mem_cons, List.not_mem_nil, or_false] at hp
      rcases hp with rfl | rfl | rfl
      · intro i hi j hj
        cases h2 with
        | cons f1 _ =>
          obtain ⟨y, z, e1, e2, e3⟩ := flat_bound h h1 (hmem i hi) (hmem j hj) (f1 i hi j hj)
          simp only at e1 ⊢
          rw [e1]
          refine ⟨?_, fun α β γ g1 g2 => ?_⟩
          · simp only [Vec.add_z, hf.z1, zero_add]; linarith
          · simp only [Vec.add_x, Vec.add_y, add_zero]
            have : β * y ≤ W := (le_abs_self _).trans (by
              rw [abs_mul]
              exact (mul_le_of_le_one_left (abs_nonneg _) (unit_le g1).2).trans (e2.trans (hwd 0 z0).2))
            linarith [g2 _ (mem4 a.p1 (by simp))]
      · exact quadIn _ _ _ _ c0.1 c1.1 c1.2.2 c0.2.2
      · exact quadIn _ _ _ _ c0.2.1 c1.2.1 c1.1 c0.1
  obtain ⟨te, pte, hte, fte, ite, tips⟩ := hte
  obtain ⟨h', M, c', k1, k2, k3⟩ := fin_assembled find h n hn name H id hid line hl sk le bo te _ _ _ _ hsk hle hbo hte fsk fle fbo fte
  refine ⟨h', M, c', k1, k2, ?_, ?_, ?_, ?_, ?_⟩
  · intro v hv
    rw [k3, isVertex_flatten] at hv
    obtain ⟨m, hm, hv⟩ := hv
    obtain ⟨P, hP, rfl⟩ := List.mem_map.1 hm
    have hin : ∀ i ≤ n, ∀ j ≤ n, K (P.P i j) := by
      rw [List.mem_append, List.mem_append, List.mem_append] at hP
      rcases hP with ((hp | hp) | hp) | hp
      · simp only [List.mem_cons, List.not_mem_nil, or_false] at hp
        rcases hp with rfl | rfl
        · exact quadIn _ _ _ _ c0.2.2 c1.2.2 c2.2.2 c3.2.2
        · exact quadIn _ _ _ _ c0.2.1 c3.2.1 c2.2.1 c1.2.1
      · simp only [List.mem_cons, List.not_mem_nil, or_false] at hp
        rcases hp with rfl | rfl | rfl | rfl
        · exact fun i hi j _ => rimIn _ _ (par _ z0 _ htB i hi) _
        · exact fun i hi j _ => rimIn _ _ (par _ htB _ z1 i hi) _
        · exact fun i hi j _ => rimIn _ _ (par _ z0 _ htB i hi) _
        · exact fun i hi j _ => rimIn _ _ (par _ htB _ z1 i hi) _
      · simp only [List.mem_cons, List.not_mem_nil, or_false] at hp
        rcases hp with rfl | rfl | rfl
        · exact botIn
        · exact quadIn _ _ _ _ c3.1 c0.1 c0.2.2 c3.2.2
        · exact quadIn _ _ _ _ c3.2.1 c0.2.1 c0.1 c3.1
      · exact ite P hp
    refine grid_keeps n _ (fun v => ∃ u, v = finMove a o u ∧ K u) ?_ (fun i hi j hj => ⟨_, rfl, hin i hi j hj⟩) v hv
    rintro _ _ _ _ ⟨p, rfl, hp⟩ ⟨q, rfl, hq⟩ ⟨r, rfl, hr⟩ ⟨s, rfl, hs⟩
    exact ⟨_, finMove_centre a o p q r s, within_centre p q r s hp hq hr hs⟩
  all_goals
    have mk : ∀ P : Panel, ∀ i ≤ n, ∀ j ≤ n, ∀ (l : List Panel) (q : V), P.P i j = q → P ∈ l →
        IsVertex (finMove a o q) (l.map fun p => gridMesh MeshArith.real false n n fun i j => finMove a o (p.P i j)).flatten := by
      rintro P i hi j hj l _ rfl hP
      rw [isVertex_flatten]
      exact ⟨_, List.mem_map.2 ⟨P, hP, rfl⟩, gridMesh_vertex n n (fun i j => finMove a o (P.P i j)) i j hn hn hi hj⟩
  · intro p hp
    have at0 : ∀ x y z w : V, (quad n x y z w).P 0 0 = x ∧ (quad n x y z w).P n 0 = y ∧ (quad n x y z w).P n n = z ∧ (quad n x y z w).P 0 n = w := by
      intro x y z w
      simp [quad, bil, lineAt_zero, lineAt_one, div_self hn0]
    have low := at0 (a.p0 - Fin.half a) (a.p1 - Fin.half a) (a.p2 - Fin.half a) (a.p3 - Fin.half a)
    have high := at0 (a.p0 + Fin.half a) (a.p3 + Fin.half a) (a.p2 + Fin.half a) (a.p1 + Fin.half a)
    have lm := fun i (hi : i ≤ n) j (hj : j ≤ n) => mk (quad n (a.p0 - Fin.half a) (a.p1 - Fin.half a) (a.p2 - Fin.half a) (a.p3 - Fin.half a)) i hi j hj
    have hm := fun i (hi : i ≤ n) j (hj : j ≤ n) => mk (quad n (a.p0 + Fin.half a) (a.p3 + Fin.half a) (a.p2 + Fin.half a) (a.p1 + Fin.half a)) i hi j hj
    rw [k3]
    show IsVertex (finMove a o (p + Fin.half a)) _ ∧ IsVertex (finMove a o (p - Fin.half a)) _
    simp only [List.mem_cons, List.not_mem_nil, or_false] at hp
    rcases hp with rfl | rfl | rfl | rfl
    · refine ⟨?_, ?_⟩
      · exact hm 0 (by omega) 0 (by omega) _ _ high.1 (List.mem_append_left pte (List.mem_append_left _ (List.mem_append_left _ (List.mem_cons_of_mem _ List.mem_cons_self))))
      · exact lm 0 (by omega) 0 (by omega) _ _ low.1 (List.mem_append_left pte (List.mem_append_left _ (List.mem_append_left _ List.mem_cons_self)))
    · refine ⟨?_, ?_⟩
      · exact hm 0 (by omega) n le_rfl _ _ high.2.2.2 (List.mem_append_left pte (List.mem_append_left _ (List.mem_append_left _ (List.mem_cons_of_mem _ List.mem_cons_self))))
      · exact lm n le_rfl 0 (by omega) _ _ low.2.1 (List.mem_append_left pte (List.mem_append_left _ (List.mem_append_left _ List.mem_cons_self)))
    · refine ⟨?_, ?_⟩
      · exact hm n le_rfl n le_rfl _ _ high.2.2.1 (List.mem_append_left pte (List.mem_append_left _ (List.mem_append_left _ (List.mem_cons_of_mem _ List.mem_cons_self))))
      · exact lm n le_rfl n le_rfl _ _ low.2.2.1 (List.mem_append_left pte (List.mem_append_left _ (List.mem_append_left _ List.mem_cons_self)))
    · refine ⟨?_, ?_⟩
      · exact hm n le_rfl 0 (by omega) _ _ high.2.1 (List.mem_append_left pte (List.mem_append_left _ (List.mem_append_left _ (List.mem_cons_of_mem _ List.mem_cons_self))))
      · exact lm 0 (by omega) n le_rfl _ _ low.2.2.2 (List.mem_append_left pte (List.mem_append_left _ (List.mem_append_left _ List.mem_cons_self)))
  · intro hs p hp
    obtain ⟨q, hq, i, hi, j, hj, e⟩ := tips hs p hp
    rw [k3]
    exact mk q i hi j hj _ _ e (List.mem_append_right _ hq)
  · intro w hw
    have hw' : widthAt a.LE_wf 0 = w := by
      have := hrim.width_ok z0
      unfold HasWidth at hw
      rw [hw] at this
      exact (Except.ok.inj this).symm
    rw [k3]
    have e : (leTop ptan (a.fin_thickness / 2) a.LE_wf PL n 0 tB a.p1 a.p2).P n n = a.p1 + ⟨0, w, 0⟩ := by
      simp only [leTop, div_self hn0, rimAt]
      rw [show tB - 1 * (tB - 0) = 0 by ring, hb.at_zero]
      have := hrim.nose true z0
      simp only [if_true] at this
      rw [this, hw', show angAt PL 0 = Real.pi / 2 by simp [angAt], swing_right _ rfl]
    exact mk (leTop ptan (a.fin_thickness / 2) a.LE_wf PL n 0 tB a.p1 a.p2) n le_rfl n le_rfl _ _ e
      (List.mem_append_left pte (List.mem_append_left _ (List.mem_append_right _ List.mem_cons_self)))
  · intro w hw
    have hw' : widthAt a.LE_wf 1 = w := by
      have := hrim.width_ok z1
      unfold HasWidth at hw
      rw [hw] at this
      exact (Except.ok.inj this).symm
    rw [k3]
    have e : (leTop ptan (a.fin_thickness / 2) a.LE_wf PL n tB 1 a.p2 a.p3).P 0 n = a.p3 + ⟨w, 0, 0⟩ := by
      simp only [leTop, div_self hn0, rimAt, Nat.cast_zero, zero_div]
      rw [show (1 : ℝ) - 0 * (1 - tB) = 1 by ring, hb.at_one]
      have := hrim.nose true z1
      simp only [if_true] at this
      rw [this, hw', show angAt PL 1 = 0 by simp [angAt], swing_zero]
    exact mk (leTop ptan (a.fin_thickness / 2) a.LE_wf PL n tB 1 a.p2 a.p3) 0 (by omega) n le_rfl _ _ e
      (List.mem_append_left pte (List.mem_append_left _ (List.mem_append_right _ (List.mem_cons_of_mem _ List.mem_cons_self))))

/-- A fin of the proportions of the trailing wings of the D-21 is 0.1 thick up to rounding at the poles of the tangent, and reaches to 2.01. -/
example (name : Option String) : ∃ h' M c',
    generatePatches (fun _ => Fin.comp roundedBisect ieeeTan plankFin 3 name) 0 = (.ok (), h') ∧ (h' 0).mesh = (.ok M, c') ∧
      IsVertex (finMove plankFin ⟨0, 0, 0⟩ ⟨0, 2.01, 0⟩) M.tris ∧
      ∀ v, IsVertex v M.tris → ∃ u, v = finMove plankFin ⟨0, 0, 0⟩ u ∧ |u.z| ≤ 0.05 + poleGap ieeeTan 0.05 (1 / 100) ∧ u.y ≤ 2.06 := by
  obtain ⟨h', M, c', k1, k2, k3, -, -, k6, -⟩ := C139_fin roundedBisect ieeeTan plankFin (1 / 100) 0.06 6e-7 ⟨0, 0, 0⟩ roundedBisect_finds
    { like := ieeeTan_like
      thick := by norm_num [plankFin]
      top := rfl
      bot := rfl
      n12 := by simp [plankFin]
      n23 := by simp [plankFin]
      wpos := by norm_num
      fits := ieeeTan_fits _ _ (by simp only [plankFin]; rw [abs_of_pos] <;> norm_num) (by norm_num)
      width := defaultWidth_mem
      sharp := fun h => by simp [plankFin] at h
      offset := rfl } ⟨rfl, rfl, rfl, rfl, defaultWidth_le⟩ (by simp [plankFin]) 3 (by norm_num) name (fun _ => Fin.comp roundedBisect ieeeTan plankFin 3 name) 0 rfl
  refine ⟨h', M, c', k1, k2, ?_, fun v hv => ?_⟩
  · have := k6 0.01 (by show leadingEdgeWidth 0 = _; rw [leadingEdgeWidth_eq]; norm_num)
    convert this using 2
    ext <;> simp [plankFin]
    norm_num
  · obtain ⟨u, e, h1, h2⟩ := k3 v hv
    refine ⟨u, e, ?_, ?_⟩
    · have e1 : finHalfHeight plankFin = 0.05 := by
        have : plankFin.rudder_type ≠ "sharp" := by simp [plankFin]
        rw [finHalfHeight, if_neg this]
        norm_num [plankFin]
      have e2 : plankFin.fin_thickness / 2 = 0.05 := by norm_num [plankFin]
      rw [e1, e2] at h1
      exact h1
    · have := h2 0 1 2 (by norm_num) (by
        intro p hp
        simp [finCorners, plankFin] at hp
        rcases hp with rfl | rfl | rfl | rfl <;> norm_num)
      linarith

end HV
