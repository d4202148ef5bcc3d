import Verif.Lemmas.Flux
import Verif.Lemmas.Res

/-!
# The meshing loops produce the mesh of the grid of surface points
-/

namespace HV

open Spec

theorem mapM_ok_iff {α β : Type} {g : α → Res β} {l : List α} {m : List β} :
    l.mapM g = .ok m ↔ List.Forall₂ (fun a b => g a = .ok b) l m := by
  induction l generalizing m with
  | nil => simp [pure, Except.pure]
  | cons a l ih =>
    rw [List.mapM_cons, bind_ok]
    constructor
    · rintro ⟨b, hb, h⟩
      obtain ⟨m', hm', h⟩ := bind_ok.1 h
      rw [pure_ok] at h
      subst h
      exact .cons hb (ih.1 hm')
    · intro h
      cases h with
      | cons hb ht => exact ⟨_, hb, bind_ok.2 ⟨_, ih.2 ht, rfl⟩⟩

theorem mapM_range_ok {β : Type} {g : ℕ → Res β} {n : ℕ} {f : ℕ → β} (h : ∀ i < n, g i = .ok (f i)) :
    (List.range n).mapM g = .ok ((List.range n).map f) := by
  rw [mapM_ok_iff, List.forall₂_map_right_iff, List.forall₂_same]
  intro i hi
  exact h i (List.mem_range.1 hi)

theorem mapM_range_inv {β : Type} {g : ℕ → Res β} {n : ℕ} {m : List β} (h : (List.range n).mapM g = .ok m) :
    m.length = n ∧ ∀ i (hi : i < m.length), g i = .ok m[i] := by
  rw [mapM_ok_iff, List.forall₂_iff_get] at h
  obtain ⟨h1, h2⟩ := h
  rw [List.length_range] at h1
  refine ⟨h1.symm, fun i hi => ?_⟩
  have := h2 i (by simpa using by omega) hi
  simpa using this

theorem getIdx_ok {α : Type} {l : List α} {i : ℕ} {a : α} : SweptPatch.getIdx l i = .ok a ↔ l[i]? = some a := by
  unfold SweptPatch.getIdx
  cases h : l[i]? <;> simp

theorem flatten_map_range_getElem? {β : Type} (f : ℕ → List β) (k : ℕ) (hk : ∀ i, (f i).length = k) (n i t : ℕ)
    (hi : i < n) (ht : t < k) : (((List.range n).map f).flatten)[k * i + t]? = (f i)[t]? := by
  have hlen : ∀ n, (((List.range n).map f).flatten).length = k * n := by
    intro n
    induction n with
    | zero => simp
    | succ n ih =>
      rw [List.range_succ, List.map_append, List.flatten_append, List.length_append, ih]
      simp [hk, Nat.mul_succ]
  induction n with
  | zero => omega
  | succ n ih =>
    rw [List.range_succ, List.map_append, List.flatten_append]
    rcases Nat.lt_or_ge i n with h | h
    · rw [List.getElem?_append_left]
      · exact ih h
      · rw [hlen]; nlinarith
    · obtain rfl : i = n := by omega
      rw [List.getElem?_append_right (by rw [hlen]; omega), hlen]
      simp

section
variable {α β : Type} (ar : MeshArith α β)

/-- The surface point at grid index `(i,j)`, as the loops evaluate it. -/
def pointAt (surf : α → α → Res (Vec α)) (rL sL : List α) (i j : ℕ) : Res (Vec α) := do
  let r ← SweptPatch.getIdx rL i
  let s ← SweptPatch.getIdx sL j
  surf r s

theorem pointAt_ok {surf : α → α → Res (Vec α)} {rL sL : List α} {i j : ℕ} {p : Vec α} :
    pointAt surf rL sL i j = .ok p ↔ ∃ r s, rL[i]? = some r ∧ sL[j]? = some s ∧ surf r s = .ok p := by
  simp only [pointAt, bind_ok, getIdx_ok]
  constructor
  · rintro ⟨r, h1, s, h2, h3⟩; exact ⟨r, s, h1, h2, h3⟩
  · rintro ⟨r, s, h1, h2, h3⟩; exact ⟨r, h1, s, h2, h3⟩

theorem cellAt_eq (mirror : Bool) (surf : α → α → Res (Vec α)) (rL sL : List α) (i j : ℕ) :
    cellAt ar mirror surf rL sL i j = (do
      let p00 ← pointAt surf rL sL i j
      let p10 ← pointAt surf rL sL (i + 1) j
      let p01 ← pointAt surf rL sL i (j + 1)
      let p11 ← pointAt surf rL sL (i + 1) (j + 1)
      return cellTris ar mirror p00 p10 p01 p11) := by
  simp only [cellAt, pointAt, bind_assoc]

theorem cellTris_length (mirror : Bool) (p00 p10 p01 p11 : Vec α) :
    (cellTris ar mirror p00 p10 p01 p11).length = 4 := rfl

/-- If all grid points evaluate, meshing succeeds and gives the mesh of the grid. -/
theorem meshFromLists_eq (mirror : Bool) (surf : α → α → Res (Vec α)) (ni nj : ℕ) (rL sL : List α)
    (P : ℕ → ℕ → Vec α) (h : ∀ i ≤ ni, ∀ j ≤ nj, pointAt surf rL sL i j = .ok (P i j)) :
    meshFromLists ar mirror surf ni nj rL sL = .ok (gridMesh ar mirror ni nj P) := by
  unfold meshFromLists
  have : ((List.range ni).mapM fun i => (List.range nj).mapM fun j => cellAt ar mirror surf rL sL i j) =
      .ok ((List.range ni).map fun i => (List.range nj).map fun j =>
        cellTris ar mirror (P i j) (P (i + 1) j) (P i (j + 1)) (P (i + 1) (j + 1))) := by
    apply mapM_range_ok
    intro i hi
    apply mapM_range_ok
    intro j hj
    rw [cellAt_eq, h i (by omega) j (by omega), h (i + 1) (by omega) j (by omega), h i (by omega) (j + 1) (by omega),
      h (i + 1) (by omega) (j + 1) (by omega)]
    rfl
  rw [this]
  simp only [bind, Except.bind, pure, Except.pure, gridMesh, List.map_map]
  rfl

/-- Conversely, if meshing succeeds then all grid points evaluate. -/
theorem meshFromLists_inv (mirror : Bool) (surf : α → α → Res (Vec α)) (ni nj : ℕ) (hi : 1 ≤ ni) (hj : 1 ≤ nj)
    (rL sL : List α) (m : TriMesh β) (h : meshFromLists ar mirror surf ni nj rL sL = .ok m) :
    ∃ P : ℕ → ℕ → Vec α, (∀ i ≤ ni, ∀ j ≤ nj, pointAt surf rL sL i j = .ok (P i j)) ∧
      m = gridMesh ar mirror ni nj P := by
  have key : ∀ i < ni, ∀ j < nj, (∃ p, pointAt surf rL sL i j = .ok p) ∧ (∃ p, pointAt surf rL sL (i + 1) j = .ok p) ∧
      (∃ p, pointAt surf rL sL i (j + 1) = .ok p) ∧ (∃ p, pointAt surf rL sL (i + 1) (j + 1) = .ok p) := by
    intro i hi j hj
    unfold meshFromLists at h
    obtain ⟨rows, hrows, -⟩ := bind_ok.1 h
    obtain ⟨hl, hrows⟩ := mapM_range_inv hrows
    have hrow := hrows i (by omega)
    obtain ⟨hl', hrow⟩ := mapM_range_inv hrow
    have hcell := hrow j (by omega)
    rw [cellAt_eq] at hcell
    obtain ⟨p1, h1, hcell⟩ := bind_ok.1 hcell
    obtain ⟨p2, h2, hcell⟩ := bind_ok.1 hcell
    obtain ⟨p3, h3, hcell⟩ := bind_ok.1 hcell
    obtain ⟨p4, h4, hcell⟩ := bind_ok.1 hcell
    exact ⟨⟨p1, h1⟩, ⟨p2, h2⟩, ⟨p3, h3⟩, ⟨p4, h4⟩⟩
  have all : ∀ i ≤ ni, ∀ j ≤ nj, ∃ p, pointAt surf rL sL i j = .ok p := by
    intro i hi' j hj'
    rcases Nat.lt_or_ge i ni with h1 | h1
    · rcases Nat.lt_or_ge j nj with h2 | h2
      · exact (key i h1 j h2).1
      · obtain ⟨j', rfl⟩ : ∃ j', j = j' + 1 := ⟨j - 1, by omega⟩
        exact (key i h1 j' (by omega)).2.2.1
    · obtain ⟨i', rfl⟩ : ∃ i', i = i' + 1 := ⟨i - 1, by omega⟩
      rcases Nat.lt_or_ge j nj with h2 | h2
      · exact (key i' (by omega) j h2).2.1
      · obtain ⟨j', rfl⟩ : ∃ j', j = j' + 1 := ⟨j - 1, by omega⟩
        exact (key i' (by omega) j' (by omega)).2.2.2
  obtain ⟨p0, -⟩ := all 0 (by omega) 0 (by omega)
  let P : ℕ → ℕ → Vec α := fun i j => match pointAt surf rL sL i j with | .ok p => p | .error _ => p0
  have hP : ∀ i ≤ ni, ∀ j ≤ nj, pointAt surf rL sL i j = .ok (P i j) := by
    intro i hi' j hj'
    obtain ⟨p, hp⟩ := all i hi' j hj'
    simp only [P, hp]
  refine ⟨P, hP, ?_⟩
  have := meshFromLists_eq ar mirror surf ni nj rL sL P hP
  rw [h] at this
  injection this

theorem gridMesh_length (mirror : Bool) (ni nj : ℕ) (P : ℕ → ℕ → Vec α) :
    (gridMesh ar mirror ni nj P).length = 4 * ni * nj := by
  simp only [gridMesh, List.length_flatten, List.map_map]
  have : (List.length ∘ fun i => ((List.range nj).map fun j =>
      cellTris ar mirror (P i j) (P (i + 1) j) (P i (j + 1)) (P (i + 1) (j + 1))).flatten) = fun _ => 4 * nj := by
    funext i
    simp only [Function.comp_apply, List.length_flatten, List.map_map]
    have : (List.length ∘ fun j => cellTris ar mirror (P i j) (P (i + 1) j) (P i (j + 1)) (P (i + 1) (j + 1)))
        = fun _ => 4 := rfl
    rw [this]
    simp [mul_comm]
  rw [this]
  simp
  ring

theorem gridMesh_get (mirror : Bool) (ni nj : ℕ) (P : ℕ → ℕ → Vec α) (i j k : ℕ) (hi : i < ni) (hj : j < nj)
    (hk : k < 4) :
    (gridMesh ar mirror ni nj P)[4 * (i * nj + j) + k]? =
      (cellTris ar mirror (P i j) (P (i + 1) j) (P i (j + 1)) (P (i + 1) (j + 1)))[k]? := by
  have h2 : ∀ i, (((List.range nj).map fun j =>
      cellTris ar mirror (P i j) (P (i + 1) j) (P i (j + 1)) (P (i + 1) (j + 1))).flatten).length = 4 * nj := by
    intro i
    simp only [List.length_flatten, List.map_map]
    have : (List.length ∘ fun j => cellTris ar mirror (P i j) (P (i + 1) j) (P i (j + 1)) (P (i + 1) (j + 1)))
        = fun _ => 4 := rfl
    rw [this]
    simp [mul_comm]
  have e : 4 * (i * nj + j) + k = (4 * nj) * i + (4 * j + k) := by ring
  unfold gridMesh
  rw [e, flatten_map_range_getElem? _ (4 * nj) h2 ni i (4 * j + k) hi (by omega),
    flatten_map_range_getElem? _ 4 (fun _ => rfl) nj j k hj hk]

theorem mem_gridMesh (mirror : Bool) (ni nj : ℕ) (P : ℕ → ℕ → Vec α) (t : Tri β) :
    t ∈ gridMesh ar mirror ni nj P ↔ ∃ i < ni, ∃ j < nj,
      t ∈ cellTris ar mirror (P i j) (P (i + 1) j) (P i (j + 1)) (P (i + 1) (j + 1)) := by
  simp [gridMesh]

end

end HV
