import Verif.Model.Py

/-!
# Names built from a key and a number
-/

namespace HV

theorem toString_nat_toList (i : ℕ) : (toString i).toList = Nat.toDigits 10 i := by
  rw [Nat.toString_eq_ofList_toDigits, String.toList_ofList]

theorem toDigits_inj {i j : ℕ} (h : Nat.toDigits 10 i = Nat.toDigits 10 j) : i = j := by
  have hi := Nat.ofDigitChars_toDigits (b := 10) (n := i) (by norm_num) (by norm_num)
  have hj := Nat.ofDigitChars_toDigits (b := 10) (n := j) (by norm_num) (by norm_num)
  rw [← hi, h, hj]

theorem toString_nat_inj {i j : ℕ} (h : toString i = toString j) : i = j :=
  toDigits_inj (by rw [← toString_nat_toList, ← toString_nat_toList, h])

/-- A separator that occurs in neither tail can be cancelled. -/
theorem append_sep_inj {α : Type} {s : α} {a b c d : List α} (hc : s ∉ c) (hd : s ∉ d)
    (h : a ++ s :: c = b ++ s :: d) : a = b ∧ c = d := by
  rw [List.append_eq_append_iff] at h
  rcases h with ⟨x, hx, hx'⟩ | ⟨x, hx, hx'⟩
  · rcases x with _ | ⟨y, x⟩
    · simp at hx hx'; exact ⟨hx.symm, hx'⟩
    · simp only [List.cons_append, List.cons.injEq] at hx'
      exact absurd (hx'.2 ▸ by simp : s ∈ c) hc
  · rcases x with _ | ⟨y, x⟩
    · simp at hx hx'; exact ⟨hx, hx'.symm⟩
    · simp only [List.cons_append, List.cons.injEq] at hx'
      exact absurd (hx'.2 ▸ by simp : s ∈ d) hd

/-- `f"{key}_{ix}"` determines the key and the number. -/
theorem name_ix_inj {a b : String} {i j : ℕ} (h : a ++ "_" ++ toString i = b ++ "_" ++ toString j) : a = b ∧ i = j := by
  have h' := congrArg String.toList h
  simp only [String.toList_append, toString_nat_toList] at h'
  have e : ("_" : String).toList = ['_'] := rfl
  rw [e, List.append_assoc, List.append_assoc] at h'
  obtain ⟨h1, h2⟩ := append_sep_inj Nat.underscore_not_in_toDigits Nat.underscore_not_in_toDigits h'
  exact ⟨String.toList_inj.1 h1, toDigits_inj h2⟩

/-- Names made of a fixed prefix and a number are distinct for distinct numbers. -/
theorem prefix_ix_inj {p : String} {a b : ℕ} (h : p ++ toString a = p ++ toString b) : a = b := by
  apply toString_nat_inj
  have := congrArg String.toList h
  rw [String.toList_append, String.toList_append] at this
  exact String.toList_inj.1 (List.append_cancel_left this)

theorem prefix_ix_nodup (p : String) (n : ℕ) : ((List.range n).map fun i => p ++ toString i).Nodup :=
  List.nodup_range.map fun _ _ h => prefix_ix_inj h

end HV
