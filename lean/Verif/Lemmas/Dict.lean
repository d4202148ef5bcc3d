import Verif.Model.Py
import Mathlib.Data.List.Nodup

/-!
# Lemmas about insertion-ordered dictionaries
-/

namespace HV
namespace Dict

variable {κ ν μ : Type} [DecidableEq κ]

theorem get?_set (d : Dict κ ν) (k k' : κ) (v : ν) :
    (d.set k v).get? k' = if k = k' then some v else d.get? k' := by
  induction d with
  | nil => simp [set, get?]
  | cons e d ih =>
    obtain ⟨a, b⟩ := e
    by_cases h : a = k
    · subst h; by_cases h' : a = k' <;> simp [set, get?, h']
    · by_cases h' : a = k'
      · subst h'; simp [set, get?, h, Ne.symm h]
      · simp [set, get?, h, h', ih]

theorem keys_set (d : Dict κ ν) (k : κ) (v : ν) :
    (d.set k v).keys = if k ∈ d.keys then d.keys else d.keys ++ [k] := by
  induction d with
  | nil => simp [set, keys]
  | cons e d ih =>
    obtain ⟨a, b⟩ := e
    by_cases h : a = k
    · simp [set, keys, h]
    · have h' : k ≠ a := Ne.symm h
      simp only [set, if_neg h]
      simp only [keys, List.map_cons, List.mem_cons, h', false_or] at ih ⊢
      rw [ih]; by_cases hk : k ∈ List.map Prod.fst d <;> simp only [hk, if_true, if_false, List.cons_append]

theorem set_not_mem (d : Dict κ ν) (k : κ) (v : ν) (h : k ∉ d.keys) : d.set k v = d ++ [(k, v)] := by
  induction d with
  | nil => rfl
  | cons e d ih =>
    obtain ⟨a, b⟩ := e
    simp only [keys, List.map_cons, List.mem_cons, not_or] at h
    simp only [set, if_neg (Ne.symm h.1), List.cons_append]
    rw [ih h.2]

theorem nodup_set (d : Dict κ ν) (k : κ) (v : ν) (h : d.keys.Nodup) : (d.set k v).keys.Nodup := by
  rw [keys_set]; split
  · exact h
  · rename_i hk
    exact List.nodup_append.2 ⟨h, List.nodup_singleton _, fun a ha b hb => by
      rw [List.mem_singleton] at hb; subst hb; rintro rfl; exact hk ha⟩

omit [DecidableEq κ] in
theorem mem_keys {d : Dict κ ν} {k : κ} : k ∈ d.keys ↔ ∃ v, (k, v) ∈ d := by
  simp [keys]

theorem get?_eq_none {d : Dict κ ν} {k : κ} : d.get? k = none ↔ k ∉ d.keys := by
  induction d with
  | nil => simp [get?, keys]
  | cons e d ih =>
    obtain ⟨a, b⟩ := e
    by_cases h : a = k
    · simp [get?, keys, h]
    · have h' : k ≠ a := Ne.symm h
      simp only [keys, List.map_cons, List.mem_cons, not_or] at ih ⊢
      simp [get?, h, h', ih]

theorem mem_of_get? {d : Dict κ ν} {k : κ} {v : ν} (h : d.get? k = some v) : (k, v) ∈ d := by
  induction d with
  | nil => simp [get?] at h
  | cons e d ih =>
    obtain ⟨a, b⟩ := e
    by_cases h' : a = k
    · subst h'; simp [get?] at h; simp [h]
    · simp [get?, h'] at h; exact List.mem_cons_of_mem _ (ih h)

theorem get?_of_mem {d : Dict κ ν} {k : κ} {v : ν} (hn : d.keys.Nodup) (h : (k, v) ∈ d) : d.get? k = some v := by
  induction d with
  | nil => simp at h
  | cons e d ih =>
    obtain ⟨a, b⟩ := e
    simp only [keys, List.map_cons, List.nodup_cons] at hn
    rcases List.mem_cons.1 h with h | h
    · cases h; simp [get?]
    · have : a ≠ k := by
        rintro rfl
        exact hn.1 (mem_keys.2 ⟨v, h⟩)
      simp [get?, this, ih hn.2 h]

theorem get?_iff_mem {d : Dict κ ν} {k : κ} {v : ν} (hn : d.keys.Nodup) : d.get? k = some v ↔ (k, v) ∈ d :=
  ⟨mem_of_get?, get?_of_mem hn⟩

theorem get?_append (d d' : Dict κ ν) (k : κ) :
    (d ++ d' : Dict κ ν).get? k = (d.get? k).or (d'.get? k) := by
  induction d with
  | nil => simp [get?]
  | cons e d ih =>
    obtain ⟨a, b⟩ := e
    by_cases h : a = k <;> simp [get?, h, ih]

omit [DecidableEq κ] in
@[simp] theorem keys_mapVals (f : κ → ν → μ) (d : Dict κ ν) : (d.mapVals f).keys = d.keys := by
  simp [keys, mapVals]

theorem get?_mapVals (f : κ → ν → μ) (d : Dict κ ν) (k : κ) : (d.mapVals f).get? k = (d.get? k).map (f k) := by
  induction d with
  | nil => rfl
  | cons e d ih =>
    obtain ⟨a, b⟩ := e
    simp only [mapVals, List.map_cons, get?] at ih ⊢
    by_cases h : a = k
    · simp [h]
    · simp [h, ih]

@[simp] theorem setAll_nil (d : Dict κ ν) : d.setAll [] = d := rfl

theorem setAll_cons (d : Dict κ ν) (e : κ × ν) (l : List (κ × ν)) : d.setAll (e :: l) = (d.set e.1 e.2).setAll l := rfl

theorem setAll_append (d : Dict κ ν) (l l' : List (κ × ν)) : d.setAll (l ++ l') = (d.setAll l).setAll l' := by
  simp [setAll]

theorem nodup_setAll (d : Dict κ ν) (l : List (κ × ν)) (h : d.keys.Nodup) : (d.setAll l).keys.Nodup := by
  induction l generalizing d with
  | nil => exact h
  | cons e l ih => exact ih _ (nodup_set _ _ _ h)

theorem mem_keys_setAll (d : Dict κ ν) (l : List (κ × ν)) (k : κ) :
    k ∈ (d.setAll l).keys ↔ k ∈ d.keys ∨ k ∈ l.map Prod.fst := by
  induction l generalizing d with
  | nil => simp
  | cons e l ih =>
    rw [setAll_cons, ih, keys_set, List.map_cons, List.mem_cons]
    split
    · rename_i h
      constructor
      · rintro (h | h) <;> simp [h]
      · rintro (h' | rfl | h') <;> simp [*]
    · rw [List.mem_append, List.mem_singleton]; tauto

/-- Assigning new, distinct keys appends the items. -/
theorem setAll_disjoint (d : Dict κ ν) (l : List (κ × ν)) (hn : (l.map Prod.fst).Nodup)
    (hd : ∀ k ∈ l.map Prod.fst, k ∉ d.keys) : d.setAll l = d ++ l := by
  induction l generalizing d with
  | nil => simp
  | cons e l ih =>
    rw [List.map_cons, List.nodup_cons] at hn
    rw [setAll_cons, set_not_mem _ _ _ (hd e.1 (by simp)), ih _ hn.2]
    · simp
    · intro k hk
      simp only [keys, List.map_append, List.mem_append, not_or]
      refine ⟨hd k (by simp [hk]), ?_⟩
      simp only [List.map_cons, List.map_nil, List.mem_singleton]
      rintro rfl
      exact hn.1 hk

theorem setAll_nil_nodup (l : List (κ × ν)) (hn : (l.map Prod.fst).Nodup) : setAll [] l = l := by
  rw [setAll_disjoint [] l hn (by simp [keys])]; rfl

/-- Looking up after a list of assignments with distinct keys. -/
theorem get?_setAll (d : Dict κ ν) (l : List (κ × ν)) (hn : (l.map Prod.fst).Nodup) (k : κ) :
    (d.setAll l).get? k = (get? l k).or (d.get? k) := by
  induction l generalizing d with
  | nil => simp [get?]
  | cons e l ih =>
    obtain ⟨a, b⟩ := e
    rw [List.map_cons, List.nodup_cons] at hn
    rw [setAll_cons, ih _ hn.2, get?_set]
    by_cases h : a = k
    · subst h
      have : get? l a = none := get?_eq_none.2 hn.1
      simp [get?, this]
    · simp [get?, h]

/-- Assigning the same keys again, with other values, in the same order. -/
theorem setAll_same_keys (d l : Dict κ ν) (h : d.keys = l.keys) (hn : d.keys.Nodup) : d.setAll l = l := by
  have key : ∀ (p d l : Dict κ ν), d.keys = l.keys → (p ++ d : Dict κ ν).keys.Nodup →
      (p ++ d : Dict κ ν).setAll l = p ++ l := by
    intro p d
    induction d generalizing p with
    | nil =>
      intro l h _
      have : l = [] := by simpa [keys] using h.symm
      simp [this]
    | cons e d ih =>
      intro l h hn
      obtain ⟨a, b⟩ := e
      rcases l with _ | ⟨⟨a', b'⟩, l⟩
      · simp [keys] at h
      · simp only [keys, List.map_cons, List.cons.injEq] at h
        obtain ⟨rfl, h⟩ := h
        rw [setAll_cons]
        have hp : a ∉ p.keys := by
          intro hp
          rw [keys, List.map_append, List.nodup_append] at hn
          exact hn.2.2 a hp a (by simp) rfl
        have e1 : ∀ p : Dict κ ν, a ∉ p.keys → (p ++ (a, b) :: d : Dict κ ν).set a b' = p ++ (a, b') :: d := by
          intro p
          induction p with
          | nil => intro _; simp [set]
          | cons q p ihp =>
            intro hq
            simp only [keys, List.map_cons, List.mem_cons, not_or] at hq
            simp only [List.cons_append, set, if_neg (Ne.symm hq.1)]
            rw [ihp hq.2]
        show ((p ++ (a, b) :: d : Dict κ ν).set a b').setAll l = _
        rw [e1 p hp]
        have := ih (p ++ [(a, b')]) l h (by simpa [keys] using hn)
        simpa using this
  simpa using key [] d l h (by simpa using hn)

end Dict
end HV
