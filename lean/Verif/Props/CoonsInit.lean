import Verif.Props.Coons

/-!
# C24: the constructor of Coons patches with corners
-/

namespace HV
open Spec

/-- C24 for the constructor: with four corners, and at least one edge missing, it gives the patch that interpolates between the corners and is shifted
by the offset; the patch takes the value `p00 + offset` at `(0, 0)`, and likewise at the other corners. -/
theorem C24_constructor (n e s w : Option PathObj) (h : n = none ∨ e = none ∨ s = none ∨ w = none) (p00 p10 p11 p01 off : V) :
    ∃ c, Coons.init n e s w (some p00) (some p10) (some p11) (some p01) off = .ok c ∧
      (∀ u v, c.call u v = .ok (p00 * ((1 - u) * (1 - v)) + p10 * (u * (1 - v)) + p11 * (u * v) + p01 * ((1 - u) * v) + off)) ∧
      c.call 0 0 = .ok (p00 + off) ∧ c.call 1 0 = .ok (p10 + off) ∧ c.call 1 1 = .ok (p11 + off) ∧ c.call 0 1 = .ok (p01 + off) := by
  have hc : ∃ c, Coons.init n e s w (some p00) (some p10) (some p11) (some p01) off = .ok c ∧
      ∀ u v, c.call u v = .ok (p00 * ((1 - u) * (1 - v)) + p10 * (u * (1 - v)) + p11 * (u * v) + p01 * ((1 - u) * v) + off) := by
    refine ⟨Coons.ofCorners p00 p10 p11 p01 off, ?_, fun u v => C24_bilinear p00 p10 p11 p01 off u v⟩
    cases n <;> cases e <;> cases s <;> cases w <;> first | rfl | simp at h
  obtain ⟨c, c1, c2⟩ := hc
  refine ⟨c, c1, c2, ?_, ?_, ?_, ?_⟩ <;> rw [c2] <;> congr 1 <;> ext <;> simp

/-- A unit square above the plane, with one edge given that is ignored. -/
example : ∃ c, Coons.init (some (Line ⟨0, 5, 0⟩ ⟨1, 5, 0⟩)) none none none (some ⟨0, 0, 0⟩) (some ⟨1, 0, 0⟩) (some ⟨1, 1, 0⟩) (some ⟨0, 1, 0⟩) ⟨0, 0, 2⟩ = .ok c ∧
    c.call 0 1 = .ok ⟨0, 1, 2⟩ := by
  obtain ⟨c, h, -, -, -, -, k⟩ := C24_constructor (some (Line ⟨0, 5, 0⟩ ⟨1, 5, 0⟩)) none none none (.inr (.inl rfl)) ⟨0, 0, 0⟩ ⟨1, 0, 0⟩ ⟨1, 1, 0⟩ ⟨0, 1, 0⟩ ⟨0, 0, 2⟩
  refine ⟨c, h, ?_⟩
  rw [k]
  congr 1
  ext <;> simp

end HV
