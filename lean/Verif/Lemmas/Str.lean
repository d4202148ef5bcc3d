import Verif.Model.Geometry

/-!
# Lemmas about lower-casing axis names
-/

namespace HV
namespace Str

theorem toLower_eq_singleton_iff (s : String) (d : Char) :
    s.toLower = String.singleton d ↔ ∃ c, s = String.singleton c ∧ c.toLower = d := by
  unfold String.toLower
  rw [← String.toList_inj, String.toList_map]
  simp
  constructor
  · intro h
    rcases hl : s.toList with _ | ⟨c, l⟩
    · simp [hl] at h
    · simp [hl] at h
      refine ⟨c, ?_, h.2⟩
      rw [← String.toList_inj, hl]; simp [h.1]
  · rintro ⟨c, rfl, h⟩
    simp [h]

theorem char_toLower_eq (c lo up : Char) (hlo : 97 ≤ lo.toNat ∧ lo.toNat ≤ 122)
    (hup : up.toNat + 32 = lo.toNat) : c.toLower = lo ↔ c = lo ∨ c = up := by
  have key : ∀ a b : Char, a = b ↔ a.toNat = b.toNat := fun a b => ⟨fun h => by rw [h], Char.toNat_inj.1⟩
  have hA : ∀ x : Char, ('A'.val ≤ x.val ∧ x.val ≤ 'Z'.val) ↔ (65 ≤ x.toNat ∧ x.toNat ≤ 90) := by
    intro x
    rw [UInt32.le_iff_toNat_le, UInt32.le_iff_toNat_le]
    rfl
  unfold Char.toLower
  split
  · rename_i h
    have h' := (hA c).1 h
    have hval : (c.val + ('a'.val - 'A'.val)).toNat = c.toNat + 32 := by
      rw [UInt32.toNat_add]
      show (c.toNat + 32) % 2 ^ 32 = _
      omega
    rw [key, key c lo, key c up]
    show (c.val + ('a'.val - 'A'.val)).toNat = lo.toNat ↔ _
    rw [hval]
    omega
  · rename_i h
    have h' := fun x => h ((hA c).2 x)
    rw [key, key c up]
    constructor
    · intro h; exact .inl h
    · rintro (h | h)
      · exact h
      · exact absurd ⟨by omega, by omega⟩ h'

end Str

open Str in
/-- Axis names are matched case-insensitively and nothing else is accepted. -/
theorem axisOf_eq_some (s : String) (a : Ax) : axisOf s = some a ↔
    match a with
    | .x => s = "x" ∨ s = "X"
    | .y => s = "y" ∨ s = "Y"
    | .z => s = "z" ∨ s = "Z" := by
  have hs : ∀ (lo up : Char), 97 ≤ lo.toNat ∧ lo.toNat ≤ 122 → up.toNat + 32 = lo.toNat →
      (s.toLower = String.singleton lo ↔ s = String.singleton lo ∨ s = String.singleton up) := by
    intro lo up h1 h2
    rw [toLower_eq_singleton_iff]
    constructor
    · rintro ⟨c, rfl, hc⟩
      rcases (char_toLower_eq c lo up h1 h2).1 hc with rfl | rfl
      · exact .inl rfl
      · exact .inr rfl
    · rintro (rfl | rfl)
      · exact ⟨lo, rfl, (char_toLower_eq lo lo up h1 h2).2 (.inl rfl)⟩
      · exact ⟨up, rfl, (char_toLower_eq up lo up h1 h2).2 (.inr rfl)⟩
  have hx := hs 'x' 'X' (by decide) (by decide)
  have hy := hs 'y' 'Y' (by decide) (by decide)
  have hz := hs 'z' 'Z' (by decide) (by decide)
  rw [show String.singleton 'x' = "x" from rfl, show String.singleton 'X' = "X" from rfl] at hx
  rw [show String.singleton 'y' = "y" from rfl, show String.singleton 'Y' = "Y" from rfl] at hy
  rw [show String.singleton 'z' = "z" from rfl, show String.singleton 'Z' = "Z" from rfl] at hz
  have d : "x" ≠ "y" ∧ "x" ≠ "z" ∧ "y" ≠ "z" := by decide
  unfold axisOf
  by_cases h1 : s.toLower = "x"
  · rw [if_pos h1]
    cases a
    · simp [hx.1 h1]
    · simp only [Option.some.injEq, reduceCtorEq, false_iff]
      rw [← hy, h1]; exact d.1
    · simp only [Option.some.injEq, reduceCtorEq, false_iff]
      rw [← hz, h1]; exact d.2.1
  · rw [if_neg h1]
    by_cases h2 : s.toLower = "y"
    · rw [if_pos h2]
      cases a
      · simp only [Option.some.injEq, reduceCtorEq, false_iff]
        rw [← hx]; exact h1
      · simp [hy.1 h2]
      · simp only [Option.some.injEq, reduceCtorEq, false_iff]
        rw [← hz, h2]; exact d.2.2
    · rw [if_neg h2]
      by_cases h3 : s.toLower = "z"
      · rw [if_pos h3]
        cases a
        · simp only [Option.some.injEq, reduceCtorEq, false_iff]
          rw [← hx]; exact h1
        · simp only [Option.some.injEq, reduceCtorEq, false_iff]
          rw [← hy]; exact h2
        · simp [hz.1 h3]
      · rw [if_neg h3]
        cases a
        · simp only [reduceCtorEq, false_iff]
          rw [← hx]; exact h1
        · simp only [reduceCtorEq, false_iff]
          rw [← hy]; exact h2
        · simp only [reduceCtorEq, false_iff]
          rw [← hz]; exact h3

@[simp] theorem axisOf_x : axisOf "x" = some .x := (axisOf_eq_some "x" .x).2 (.inl rfl)
@[simp] theorem axisOf_y : axisOf "y" = some .y := (axisOf_eq_some "y" .y).2 (.inl rfl)
@[simp] theorem axisOf_z : axisOf "z" = some .z := (axisOf_eq_some "z" .z).2 (.inl rfl)

end HV
