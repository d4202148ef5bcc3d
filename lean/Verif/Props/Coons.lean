import Verif.Model.Surface
import Verif.Lemmas.Vec
import Verif.Props.Vec

/-!
# Properties C22, C23, C24: Coons patches
-/

namespace HV

open Spec

namespace Spec

/-- Two corner points agree within the relative tolerance 1e-2 and the absolute tolerance 1e-5,
coordinate by coordinate. -/
def CornerClose (u v : V) : Prop :=
  ∀ i : Fin 3, |toF u i - toF v i| ≤ 1 / 100000 + 1 / 100 * |toF v i|

/-- The eight edge end points exist and the four corner pairs agree within the tolerance. -/
def CornersMeet (north east south west : PathObj) : Prop :=
  ∃ s0 s1 n0 n1 w0 w1 e0 e1, south.call 0 = .ok s0 ∧ south.call 1 = .ok s1 ∧ north.call 0 = .ok n0 ∧
    north.call 1 = .ok n1 ∧ west.call 0 = .ok w0 ∧ west.call 1 = .ok w1 ∧ east.call 0 = .ok e0 ∧
    east.call 1 = .ok e1 ∧ CornerClose s0 w0 ∧ CornerClose s1 e0 ∧ CornerClose n0 w1 ∧ CornerClose n1 e1

end Spec

theorem approxEq_iff_cornerClose (u v : V) : u.approxEq v ↔ CornerClose u v := by
  unfold Vec.approxEq Vec.isclose CornerClose
  constructor
  · rintro ⟨h0, h1, h2⟩ i
    fin_cases i
    · exact h0
    · exact h1
    · exact h2
  · intro h
    exact ⟨h 0, h 1, h 2⟩

namespace Coons

/-- What a successful construction from edges gives. -/
theorem ofEdges_ok_iff (n e s w : PathObj) (off : V) (c : Coons) :
    ofEdges n e s w off = .ok c ↔ ∃ s0 s1 n0 n1 w0 w1 e0 e1, s.call 0 = .ok s0 ∧ s.call 1 = .ok s1 ∧
      n.call 0 = .ok n0 ∧ n.call 1 = .ok n1 ∧ w.call 0 = .ok w0 ∧ w.call 1 = .ok w1 ∧ e.call 0 = .ok e0 ∧
      e.call 1 = .ok e1 ∧ CornerClose s0 w0 ∧ CornerClose s1 e0 ∧ CornerClose n0 w1 ∧ CornerClose n1 e1 ∧
      c = ⟨n, e, s, w, s0, s1, n1, n0, false, off⟩ := by
  unfold ofEdges
  simp only [bind, Except.bind, pure, Except.pure, ← approxEq_iff_cornerClose, throw, throwThe,
    MonadExceptOf.throw]
  cases h1 : s.call 0 with
  | error x => simp
  | ok s0 =>
  cases h2 : s.call 1 with
  | error x => simp
  | ok s1 =>
  cases h3 : n.call 0 with
  | error x => simp
  | ok n0 =>
  cases h4 : n.call 1 with
  | error x => simp
  | ok n1 =>
  cases h5 : w.call 0 with
  | error x => simp
  | ok w0 =>
  cases h6 : e.call 0 with
  | error x => simp
  | ok e0 =>
  cases h7 : w.call 1 with
  | error x => simp
  | ok w1 =>
  cases h8 : e.call 1 with
  | error x => simp
  | ok e1 =>
    constructor
    · intro h
      by_cases a1 : s0.approxEq w0
      · by_cases a2 : s1.approxEq e0
        · by_cases a3 : n0.approxEq w1
          · by_cases a4 : n1.approxEq e1
            · simp only [a1, a2, a3, a4, not_true_eq_false, if_false, Except.ok.injEq] at h
              exact ⟨s0, s1, n0, n1, w0, w1, e0, e1, rfl, rfl, rfl, rfl, rfl, rfl, rfl, rfl, a1, a2, a3, a4,
                h.symm⟩
            · simp only [a1, a2, a3, a4, not_true_eq_false, not_false_eq_true, if_true, if_false,
                reduceCtorEq] at h
          · simp only [a1, a2, a3, not_true_eq_false, not_false_eq_true, if_true, if_false,
              reduceCtorEq] at h
        · simp only [a1, a2, not_true_eq_false, not_false_eq_true, if_true, if_false, reduceCtorEq] at h
      · simp only [a1, not_false_eq_true, if_true, reduceCtorEq] at h
    · rintro ⟨s0', s1', n0', n1', w0', w1', e0', e1', g1, g2, g3, g4, g5, g6, g7, g8, a1, a2, a3, a4, rfl⟩
      cases g1; cases g2; cases g3; cases g4; cases g5; cases g6; cases g7; cases g8
      simp only [a1, a2, a3, a4, not_true_eq_false, if_false]

end Coons

/-- C22: the patch reproduces its west and east edges exactly, always; along the south and north edges
it deviates exactly by the linearly blended mismatch of the corner points. -/
theorem C22_edges_general (n e s w : PathObj) (off : V) (c : Coons) (h : Coons.ofEdges n e s w off = .ok c)
    (r : ℝ) (sr nr wr er : V) (hs : s.call r = .ok sr) (hn : n.call r = .ok nr) (hw : w.call r = .ok wr)
    (he : e.call r = .ok er) :
    c.call 0 r = .ok (wr + off) ∧ c.call 1 r = .ok (er + off) ∧
    ∀ s0 s1 n0 n1 w0 w1 e0 e1, s.call 0 = .ok s0 → s.call 1 = .ok s1 → n.call 0 = .ok n0 →
      n.call 1 = .ok n1 → w.call 0 = .ok w0 → w.call 1 = .ok w1 → e.call 0 = .ok e0 → e.call 1 = .ok e1 →
      c.call r 0 = .ok (sr + off + ((w0 - s0) * (1 - r) + (e0 - s1) * r)) ∧
      c.call r 1 = .ok (nr + off + ((w1 - n0) * (1 - r) + (e1 - n1) * r)) := by
  obtain ⟨s0, s1, n0, n1, w0, w1, e0, e1, k1, k2, k3, k4, k5, k6, k7, k8, -, -, -, -, rfl⟩ :=
    (Coons.ofEdges_ok_iff n e s w off c).1 h
  refine ⟨?_, ?_, ?_⟩
  · simp only [Coons.call, k1, k3, hw, he, bind, Except.bind, pure, Except.pure, Except.ok.injEq,
      Coons.blend]
    ext <;> simp <;> ring
  · simp only [Coons.call, k2, k4, hw, he, bind, Except.bind, pure, Except.pure, Except.ok.injEq,
      Coons.blend]
    ext <;> simp <;> ring
  · intro s0' s1' n0' n1' w0' w1' e0' e1' g1 g2 g3 g4 g5 g6 g7 g8
    rw [k1] at g1; rw [k2] at g2; rw [k3] at g3; rw [k4] at g4
    rw [k5] at g5; rw [k6] at g6; rw [k7] at g7; rw [k8] at g8
    cases g1; cases g2; cases g3; cases g4; cases g5; cases g6; cases g7; cases g8
    constructor
    · simp only [Coons.call, k5, k7, hs, hn, bind, Except.bind, pure, Except.pure, Except.ok.injEq,
        Coons.blend]
      ext <;> simp <;> ring
    · simp only [Coons.call, k6, k8, hs, hn, bind, Except.bind, pure, Except.pure, Except.ok.injEq,
        Coons.blend]
      ext <;> simp <;> ring

/-- C22: if the four edges meet exactly in the corners, the patch reproduces all four edges. -/
theorem C22_edges (n e s w : PathObj) (c : Coons) (h : Coons.ofEdges n e s w = .ok c)
    (h00 : s.call 0 = w.call 0) (h10 : s.call 1 = e.call 0) (h01 : n.call 0 = w.call 1)
    (h11 : n.call 1 = e.call 1) (r : ℝ) (sr nr wr er : V) (hs : s.call r = .ok sr)
    (hn : n.call r = .ok nr) (hw : w.call r = .ok wr) (he : e.call r = .ok er) :
    c.call r 0 = s.call r ∧ c.call r 1 = n.call r ∧ c.call 0 r = w.call r ∧ c.call 1 r = e.call r := by
  obtain ⟨s0, s1, n0, n1, w0, w1, e0, e1, k1, k2, k3, k4, k5, k6, k7, k8, -⟩ :=
    (Coons.ofEdges_ok_iff n e s w _ c).1 h
  obtain ⟨a1, a2, a3⟩ := C22_edges_general n e s w _ c h r sr nr wr er hs hn hw he
  obtain ⟨a3, a4⟩ := a3 _ _ _ _ _ _ _ _ k1 k2 k3 k4 k5 k6 k7 k8
  rw [k1, k5] at h00; rw [k2, k7] at h10; rw [k3, k6] at h01; rw [k4, k8] at h11
  cases h00; cases h10; cases h01; cases h11
  rw [hs, hn, hw, he, a1, a2, a3, a4]
  refine ⟨?_, ?_, ?_, ?_⟩ <;> congr 1 <;> ext <;> simp

/-- C23: construction from edges succeeds exactly when the corners meet within the tolerance; then the
patch has the given edges and offset. -/
theorem C23_accepts_iff (n e s w : PathObj) (off : V) :
    (∃ c, Coons.ofEdges n e s w off = .ok c) ↔ CornersMeet n e s w := by
  constructor
  · rintro ⟨c, hc⟩
    obtain ⟨s0, s1, n0, n1, w0, w1, e0, e1, h⟩ := (Coons.ofEdges_ok_iff n e s w off c).1 hc
    exact ⟨s0, s1, n0, n1, w0, w1, e0, e1, by tauto⟩
  · rintro ⟨s0, s1, n0, n1, w0, w1, e0, e1, h⟩
    exact ⟨_, (Coons.ofEdges_ok_iff n e s w off _).2 ⟨s0, s1, n0, n1, w0, w1, e0, e1, by tauto⟩⟩

/-- C23: the constructor with optional arguments.  With four edges it behaves as above whatever corners
are given; otherwise it succeeds exactly when all four corners are given. -/
theorem C23_optional (n e s w : Option PathObj) (p00 p10 p11 p01 : Option V) (off : V) :
    (∀ n' e' s' w', n = some n' → e = some e' → s = some s' → w = some w' →
      Coons.init n e s w p00 p10 p11 p01 off = Coons.ofEdges n' e' s' w' off) ∧
    ((n = none ∨ e = none ∨ s = none ∨ w = none) →
      ((∃ c, Coons.init n e s w p00 p10 p11 p01 off = .ok c) ↔
        (p00 ≠ none ∧ p10 ≠ none ∧ p11 ≠ none ∧ p01 ≠ none)) ∧
      ((p00 = none ∨ p10 = none ∨ p11 = none ∨ p01 = none) →
        Coons.init n e s w p00 p10 p11 p01 off = .error .exc)) := by
  constructor
  · rintro n' e' s' w' rfl rfl rfl rfl; rfl
  · intro h
    constructor
    · cases n <;> cases e <;> cases s <;> cases w <;> simp at h <;>
        cases p00 <;> cases p10 <;> cases p11 <;> cases p01 <;> simp [Coons.init]
    · intro h2
      cases n <;> cases e <;> cases s <;> cases w <;> simp at h <;>
        cases p00 <;> cases p10 <;> cases p11 <;> cases p01 <;> simp at h2 <;> rfl

/-- Four lines around a square meet exactly; moving one edge by 0.5 makes construction fail. -/
example : CornersMeet (Line ⟨0, 1, 0⟩ ⟨1, 1, 0⟩) (Line ⟨1, 0, 0⟩ ⟨1, 1, 0⟩) (Line ⟨0, 0, 0⟩ ⟨1, 0, 0⟩)
    (Line ⟨0, 0, 0⟩ ⟨0, 1, 0⟩) ∧
    ¬ CornersMeet (Line ⟨0, 1, 0.5⟩ ⟨1, 1, 0⟩) (Line ⟨1, 0, 0⟩ ⟨1, 1, 0⟩) (Line ⟨0, 0, 0⟩ ⟨1, 0, 0⟩)
    (Line ⟨0, 0, 0⟩ ⟨0, 1, 0⟩) := by
  have hc : ∀ u : V, CornerClose u u := by
    intro u i; rw [sub_self, abs_zero]; positivity
  constructor
  · refine ⟨⟨0, 0, 0⟩, ⟨1, 0, 0⟩, ⟨0, 1, 0⟩, ⟨1, 1, 0⟩, ⟨0, 0, 0⟩, ⟨0, 1, 0⟩, ⟨1, 0, 0⟩, ⟨1, 1, 0⟩, ?_, ?_, ?_, ?_,
      ?_, ?_, ?_, ?_, hc _, hc _, hc _, hc _⟩ <;>
      simp only [Line, lineAt, Except.ok.injEq] <;> ext <;> simp
  · rintro ⟨s0, s1, n0, n1, w0, w1, e0, e1, h1, h2, h3, h4, h5, h6, h7, h8, a1, a2, a3, a4⟩
    simp only [Line, Except.ok.injEq] at h3 h6
    have := a3 2
    rw [← h3, ← h6] at this
    simp [toF, lineAt] at this
    norm_num at this

/-- C24: a patch defined by corners is the bilinear interpolant of them. -/
theorem C24_bilinear (p00 p10 p11 p01 off : V) (r s : ℝ) :
    (Coons.ofCorners p00 p10 p11 p01 off).call r s = .ok (
      (p00 * ((1 - r) * (1 - s)) + p10 * (r * (1 - s)) + p11 * (r * s) + p01 * ((1 - r) * s)) + off) := by
  simp only [Coons.call, Coons.ofCorners, Line, lineAt, bind, Except.bind, pure, Except.pure, Coons.blend,
    Except.ok.injEq]
  ext <;> simp <;> ring

/-- C24: adding a vector to a patch translates every point, subtracting it translates back; the
failing points are the same. -/
theorem C24_translate (c : Coons) (v : V) (r s : ℝ) :
    (c.add v).call r s = (c.call r s).map (· + v) ∧ (c.sub v).call r s = (c.call r s).map (· - v) ∧
    ((c.add v).sub v).call r s = c.call r s := by
  unfold Coons.call Coons.add Coons.sub
  simp only [bind, Except.bind, pure, Except.pure]
  cases c.south.call r with
  | error x => simp [Except.map]
  | ok a =>
  cases c.north.call r with
  | error x => simp [Except.map]
  | ok b =>
  cases c.west.call s with
  | error x => simp [Except.map]
  | ok d =>
  cases c.east.call s with
  | error x => simp [Except.map]
  | ok e =>
    simp only [Except.map, Except.ok.injEq, Coons.blend]
    refine ⟨?_, ?_, ?_⟩ <;> ext <;> simp <;> ring

/-- C22 applies to every patch given by corners: its edges are the straight lines between them. -/
example (p00 p10 p11 p01 : V) (t : ℝ) :
    (Coons.ofCorners p00 p10 p11 p01).call t 0 = (Line p00 p10).call t ∧
    (Coons.ofCorners p00 p10 p11 p01).call 1 t = (Line p10 p11).call t := by
  rw [C24_bilinear, C24_bilinear]
  simp only [Line, lineAt, Except.ok.injEq]
  constructor <;> ext <;> simp

end HV
