import Verif.Lemmas.Ellipse
import Verif.Lemmas.Panels

/-!
# The arc-length parameterised quarter ellipse as a function of its centre
-/

namespace HV
open Spec

/-- The quarter ellipse about the origin. -/
noncomputable def ellRaw (ptan : ℝ → ℝ) (b w : ℝ) (top : Bool) (r : ℝ) : V :=
  ⟨0, w * b / Real.sqrt (b ^ 2 + (w * ptan (Elipse.angle top r)) ^ 2),
    w * b / Real.sqrt (b ^ 2 + (w * ptan (Elipse.angle top r)) ^ 2) * ptan (Elipse.angle top r)⟩

/-- The same, reparameterised by sampled arc length. -/
noncomputable def ellArc (ptan : ℝ → ℝ) (b w : ℝ) (top : Bool) (r : ℝ) : V :=
  ellRaw ptan b w top (ArcLen.uMap (fun i : ℕ => ellRaw ptan b w top ((i : ℝ) / (1000 : ℕ))) 1000 r)

/-- The gap at the pole: the numerical tangent of a right angle is finite. -/
noncomputable def Spec.poleGap (ptan : ℝ → ℝ) (b w : ℝ) : ℝ :=
  b / ptan (Real.pi / 2) + b ^ 3 / (w * ptan (Real.pi / 2)) ^ 2

theorem uMap_translate (P : ℕ → V) (c : V) (n : ℕ) : ArcLen.uMap (fun i => c + P i) n = ArcLen.uMap P n := by
  have : chordSum (fun i => c + P i) = chordSum P := by
    funext i
    unfold chordSum
    simp only [vdist_add_left]
  funext t
  unfold ArcLen.uMap
  rw [this]

/-- The side name. -/
def sideName (top : Bool) : String := if top then "top" else "bot"

/-- The reparameterised ellipse of a leading edge, for every centre and sign of the thickness. -/
theorem ellArc_path (ptan : ℝ → ℝ) (c : V) (th b w : ℝ) (top : Bool) (hb : 0 < b) (hth : |th| = b) :
    ∃ q : PathObj, ArcLengthParameterizedPath (ElipsePath ptan c th w (sideName top)) = .ok q ∧
      ∀ r, q.call r = .ok (c + ellArc ptan b w top r) := by
  have hne : th ≠ 0 := by rintro rfl; simp at hth; linarith
  have hsq : th ^ 2 = b ^ 2 := by rw [← hth, sq_abs]
  have hcall : ∀ r, (ElipsePath ptan c th w (sideName top)).call r = .ok (c + ellRaw ptan b w top r) := by
    intro r
    have := Elipse.at_eq ptan c th w top r hne
    rw [hsq, hth] at this
    exact this
  refine ⟨_, ArcLengthParameterizedPath_eq (ElipsePath ptan c th w (sideName top))
    (fun i => c + ellRaw ptan b w top ((i : ℝ) / (1000 : ℕ))) 1000 (by norm_num) (fun i _ => hcall _), ?_⟩
  intro r
  show (ElipsePath ptan c th w (sideName top)).call _ = _
  rw [hcall, uMap_translate (fun i => ellRaw ptan b w top ((i : ℝ) / (1000 : ℕ))) c 1000]
  rfl

section
variable (ptan : ℝ → ℝ) (hT : TanLike ptan) (b w : ℝ) (hb : 0 < b) (hw : 0 < w) (hpos : 0 < ptan (Real.pi / 2))
  (hneg : ptan (-(Real.pi / 2)) = -ptan (Real.pi / 2))
include hT hb hw hpos hneg

theorem ellRaw_ends :
    ellRaw ptan b w false 0 = ⟨0, w, 0⟩ ∧ ellRaw ptan b w true 1 = ⟨0, w, 0⟩ ∧
    ellRaw ptan b w false 1 = ⟨0, w * b / Real.sqrt (b ^ 2 + (w * ptan (Real.pi / 2)) ^ 2),
      w * b / Real.sqrt (b ^ 2 + (w * ptan (Real.pi / 2)) ^ 2) * ptan (Real.pi / 2)⟩ ∧
    ellRaw ptan b w true 0 = ⟨0, w * b / Real.sqrt (b ^ 2 + (w * ptan (Real.pi / 2)) ^ 2),
      -(w * b / Real.sqrt (b ^ 2 + (w * ptan (Real.pi / 2)) ^ 2) * ptan (Real.pi / 2))⟩ := by
  have hpi := Real.pi_pos
  have t0 : ptan 0 = 0 := by rw [hT.exact 0 (by simpa using by positivity)]; simp
  have e2 : -Real.pi / 2 = -(Real.pi / 2) := by ring
  have hs : Real.sqrt (b ^ 2) = b := Real.sqrt_sq hb.le
  refine ⟨?_, ?_, ?_, ?_⟩
  · unfold ellRaw
    simp [Elipse.angle, t0, hs, hb.ne']
  · unfold ellRaw
    have : -Real.pi / 2 + 1 * Real.pi / 2 = 0 := by ring
    simp only [Elipse.angle, if_true, this, t0]
    simp [hs, hb.ne']
  · unfold ellRaw
    simp [Elipse.angle]
  · unfold ellRaw
    simp [Elipse.angle, e2, hneg]

theorem ellArc_ends (top : Bool) : ellArc ptan b w top 0 = ellRaw ptan b w top 0 ∧ ellArc ptan b w top 1 = ellRaw ptan b w top 1 := by
  set P : ℕ → V := fun i : ℕ => ellRaw ptan b w top ((i : ℝ) / (1000 : ℕ)) with hP
  obtain ⟨a1, a2, a3, a4⟩ := ellRaw_ends ptan hT b w hb hw hpos hneg
  have hS : 0 < Real.sqrt (b ^ 2 + (w * ptan (Real.pi / 2)) ^ 2) := Real.sqrt_pos.2 (by positivity)
  have hne : P 0 ≠ P 1000 := by
    have p0 : P 0 = ellRaw ptan b w top 0 := by simp [hP]
    have p1 : P 1000 = ellRaw ptan b w top 1 := by
      simp only [hP]
      rw [div_self (by norm_num)]
    rw [p0, p1]
    intro h
    have hpq : 0 < w * b / Real.sqrt (b ^ 2 + (w * ptan (Real.pi / 2)) ^ 2) * ptan (Real.pi / 2) := by positivity
    cases top
    · rw [a1, a3] at h
      have := congrArg Vec.z h
      simp only at this
      linarith
    · rw [a2, a4] at h
      have := congrArg Vec.z h
      simp only at this
      linarith
  have hch : 0 < chordSum P 1000 := by
    refine lt_of_le_of_ne (chordSum_zero P ▸ chordSum_mono _ (Nat.zero_le _)) ?_
    intro h
    exact hne (chordSum_eq_imp P (Nat.zero_le 1000) (by rw [chordSum_zero]; exact h))
  obtain ⟨q, u, h1, -, h2, -, -, h3, h4, -⟩ := C15_reparameterisation (ElipsePath ptan ⟨0, 0, 0⟩ b w (sideName top)) P 1000
    (by norm_num) (fun i _ => by
      have := Elipse.at_eq ptan ⟨0, 0, 0⟩ b w top ((i : ℝ) / (1000 : ℕ)) hb.ne'
      rw [Vec.zero_add', abs_of_pos hb] at this
      exact this) hch
  obtain ⟨q', g1, g2⟩ := ellArc_path ptan ⟨0, 0, 0⟩ b b w top hb (abs_of_pos hb)
  obtain rfl : q' = q := by
    have : ArcLengthParameterizedPath (ElipsePath ptan ⟨0, 0, 0⟩ b w (sideName top)) = .ok q := h1
    rw [g1] at this
    exact Except.ok.inj this
  have ev : ∀ r, (ElipsePath ptan ⟨0, 0, 0⟩ b w (sideName top)).call r = .ok (ellRaw ptan b w top r) := by
    intro r
    have := Elipse.at_eq ptan ⟨0, 0, 0⟩ b w top r hb.ne'
    rw [Vec.zero_add', abs_of_pos hb] at this
    exact this
  rw [g2, ev, Vec.zero_add'] at h3 h4
  exact ⟨Except.ok.inj h3, Except.ok.inj h4⟩

/-- The nose is exact on both sides. -/
theorem ellArc_nose : ellArc ptan b w false 0 = ⟨0, w, 0⟩ ∧ ellArc ptan b w true 1 = ⟨0, w, 0⟩ := by
  obtain ⟨a1, a2, -, -⟩ := ellRaw_ends ptan hT b w hb hw hpos hneg
  exact ⟨(ellArc_ends ptan hT b w hb hw hpos hneg false).1.trans a1, (ellArc_ends ptan hT b w hb hw hpos hneg true).2.trans a2⟩

/-- The other end is at the pole up to the gap: a horizontal offset `x` and a height `±z`. -/
theorem ellArc_pole : ∃ x z : ℝ, ellArc ptan b w false 1 = ⟨0, x, z⟩ ∧ ellArc ptan b w true 0 = ⟨0, x, -z⟩ ∧
    0 ≤ x ∧ x ≤ b / ptan (Real.pi / 2) ∧ |z - b| ≤ b ^ 3 / (w * ptan (Real.pi / 2)) ^ 2 := by
  obtain ⟨-, -, a3, a4⟩ := ellRaw_ends ptan hT b w hb hw hpos hneg
  obtain ⟨k0, k1, k2⟩ := ellipse_pole hb.ne' hw hpos
  rw [abs_of_pos hb] at k0 k1 k2
  rw [abs_sub_comm] at k2
  exact ⟨_, _, (ellArc_ends ptan hT b w hb hw hpos hneg false).2.trans a3,
    (ellArc_ends ptan hT b w hb hw hpos hneg true).1.trans a4, k0, k1, k2⟩

end

end HV
