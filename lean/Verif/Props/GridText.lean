import Verif.Model.GridText
import Verif.Props.PatchText

/-!
# C168: the texts of clustering functions and structured grids
-/

namespace HV
open Spec

theorem repr_linear (txt : ℝ → String) : PrintedCluster.repr txt .linear = "LinearFunction()" := by
  delta PrintedCluster.repr
  dsimp only

theorem repr_roberts (txt : ℝ → String) (e0 e1 : Bool) (β : ℝ) : PrintedCluster.repr txt (.roberts e0 e1 β) =
    "RobertsFunction(end0=" ++ boolText e0 ++ ", end1=" ++ boolText e1 ++ ", beta=" ++ txt β ++ ")" := by
  delta PrintedCluster.repr
  dsimp only

theorem repr_grid (g : PrintedGrid) : g.repr = "StructuredGrid(" ++ ("dimensions=" ++ toString g.dimensions ++ ", niv=" ++ toString g.niv ++ ", njv=" ++
    toString g.njv ++ ", nkv=" ++ toString g.nkv) ++ (", vertices=" ++ g.vertices) ++ (", tags=" ++ g.tags) ++ ")" := by
  delta PrintedGrid.repr
  dsimp only

/-- C168 for clustering functions: two of them have the same text if and only if they are of the same class, cluster at the same ends, and their
parameters have the same text. -/
theorem C168_clusters (txt : ℝ → String) (c d : PrintedCluster) :
    c.repr txt = d.repr txt ↔ (c = .linear ∧ d = .linear) ∨ ∃ e0 e1 β γ, c = .roberts e0 e1 β ∧ d = .roberts e0 e1 γ ∧ txt β = txt γ := by
  constructor
  · intro h
    cases c with
    | linear =>
      cases d with
      | linear => exact .inl ⟨rfl, rfl⟩
      | roberts f0 f1 γ =>
        rw [repr_linear, repr_roberts] at h
        replace h := congrArg String.toList h
        simp at h
    | roberts e0 e1 β =>
      cases d with
      | linear =>
        rw [repr_linear, repr_roberts] at h
        replace h := congrArg String.toList h
        simp at h
      | roberts f0 f1 γ =>
        right
        rw [repr_roberts, repr_roberts] at h
        replace h := congrArg String.toList h
        simp only [String.toList_append, List.append_assoc] at h
        have ends : ∀ (a b : Bool) (r r' : List Char), (boolText a).toList ++ r = (boolText b).toList ++ r' → a = b ∧ r = r' := by
          intro a b r r' h
          cases a <;> cases b <;> simp [boolText] at h ⊢ <;> exact h
        have h1 := List.append_cancel_left h
        obtain ⟨k1, h2⟩ := ends _ _ _ _ h1
        have h3 := List.append_cancel_left h2
        obtain ⟨k2, h4⟩ := ends _ _ _ _ h3
        have h5 := List.append_cancel_left h4
        exact ⟨e0, e1, β, γ, rfl, by rw [k1, k2], String.toList_inj.1 (List.append_cancel_right h5)⟩
  · rintro (⟨rfl, rfl⟩ | ⟨e0, e1, β, γ, rfl, rfl, h⟩)
    · rfl
    · rw [repr_roberts, repr_roberts, h]

/-- C168 for structured grids, in part: two grids with the same text have the same dimensions and numbers of vertices.  Missing: the label
(`C168_grid_violated`). -/
theorem C168_grid_partial (g g' : PrintedGrid) (h : g.repr = g'.repr) :
    g.dimensions = g'.dimensions ∧ g.niv = g'.niv ∧ g.njv = g'.njv ∧ g.nkv = g'.nkv ∧
      ", vertices=" ++ g.vertices ++ (", tags=" ++ g.tags) = ", vertices=" ++ g'.vertices ++ (", tags=" ++ g'.tags) := by
  rw [repr_grid, repr_grid] at h
  replace h := congrArg String.toList h
  have e1 : ", niv=".toList = ',' :: " niv=".toList := by decide
  have e2 : ", njv=".toList = ',' :: " njv=".toList := by decide
  have e3 : ", nkv=".toList = ',' :: " nkv=".toList := by decide
  have e4 : ", vertices=".toList = ',' :: " vertices=".toList := by decide
  simp only [String.toList_append, List.append_assoc, e1, e2, e3, e4, List.cons_append] at h
  have hc : ¬ (fun c : Char => c ≠ ',' ∧ c ≠ '(' ∧ c ≠ ')' ∧ c ≠ '[' ∧ c ≠ ']') ',' := by decide
  have inj : ∀ a b : ℕ, (toString a).toList = (toString b).toList → a = b := fun a b h => toString_nat_inj (String.toList_inj.1 h)
  obtain ⟨a1, -, h⟩ := cut _ (nat_plain _) (nat_plain _) hc hc (List.append_cancel_left (List.append_cancel_left h))
  obtain ⟨a2, -, h⟩ := cut _ (nat_plain _) (nat_plain _) hc hc (List.append_cancel_left h)
  obtain ⟨a3, -, h⟩ := cut _ (nat_plain _) (nat_plain _) hc hc (List.append_cancel_left h)
  obtain ⟨a4, -, h⟩ := cut _ (nat_plain _) (nat_plain _) hc hc (List.append_cancel_left h)
  refine ⟨inj _ _ a1, inj _ _ a2, inj _ _ a3, inj _ _ a4, String.toList_inj.1 ?_⟩
  simp only [← List.append_assoc] at h
  have h := List.append_cancel_right h
  simp only [List.append_assoc] at h
  simp only [String.toList_append, e4, List.cons_append, List.append_assoc, h]

/-- C168 is violated by structured grids: grids that differ in their label have the same text. -/
theorem C168_grid_violated (g : PrintedGrid) (label : String) : ({ g with label := label } : PrintedGrid).repr = g.repr := by
  rw [repr_grid, repr_grid]

/-- Two grids with the same text and different labels. -/
example (g : PrintedGrid) : ({ g with label := "a" } : PrintedGrid).repr = ({ g with label := "b" } : PrintedGrid).repr ∧ "a" ≠ "b" :=
  ⟨(C168_grid_violated g "a").trans (C168_grid_violated g "b").symm, by decide⟩

end HV
