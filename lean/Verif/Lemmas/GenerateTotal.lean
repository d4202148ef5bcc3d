import Verif.Lemmas.VehicleFrame
import Verif.Props.Wedge

/-!
# When `generate` succeeds
-/

namespace HV
open Spec Veh

theorem genAll_total (angle : ℝ) (h : Heap) (ks : List ℕ) (hu : Unshared h ks)
    (hg : ∀ k ∈ ks, ∃ g c, generatePatches h k = (.ok (), g) ∧ pipeline angle (g k) = (.ok (), c)) :
    ∃ h', genAll angle h ks = (.ok (), h') := by
  induction ks generalizing h with
  | nil => exact ⟨h, rfl⟩
  | cons k0 ks ih =>
    have hgen := genOne_gen angle h k0
    have hfr := fun j => genOne_frame angle h k0 j
    obtain ⟨g, c, h1, h2⟩ := hg k0 (by simp)
    have he : genOne angle h k0 = (.ok (), g.upd k0 c) := by
      rw [genOne_eq, h1]
      simp only [h2]
    rw [he] at hgen hfr
    simp only at hgen hfr
    unfold genAll
    rw [he]
    have hnd := List.nodup_cons.1 hu.nodup
    refine ih _ (unshared_congr hgen (unshared_tail hu)) ?_
    intro k hk
    have hne : k ≠ k0 := fun e => hnd.1 (e ▸ hk)
    obtain ⟨g', c', g1, g2⟩ := hg k (by simp [hk])
    have e0 : (g.upd k0 c) k = h k := hfr k hne (hu.notChild k (by simp [hk]) k0 (by simp))
    obtain ⟨l1, l2⟩ := generatePatches_local h (g.upd k0 c) k e0 (fun j hj => hfr j
      (fun e => hu.notChild k0 (by simp) k (by simp [hk]) (e ▸ hj))
      (fun hj' => hu.disjoint k (by simp [hk]) k0 (by simp) hne j hj hj'))
    rw [g1] at l1 l2
    simp only at l1 l2
    refine ⟨(generatePatches (g.upd k0 c) k).2, c', Prod.ext l1 rfl, ?_⟩
    rw [l2]; exact g2

/-- A vehicle without angle offset, vehicle transformations and analysis generates when all components do. -/
theorem generate_plain (lib : Lib) (depth : ℕ) (st : VState) (hang : st.veh.angleOffset = 0) (htr : st.veh.transformations = [])
    (han : st.veh.analyseOn = none) (hu : Unshared st.heap st.veh.components)
    (hg : ∀ k ∈ st.veh.components, ∃ g c, generatePatches st.heap k = (.ok (), g) ∧ pipeline 0 (g k) = (.ok (), c)) :
    ∃ st', generate lib depth st = (.ok (), st') ∧ st'.veh = { st.veh with generated := true } ∧
      ∀ k ∈ st.veh.components, ∃ g, generatePatches st.heap k = (.ok (), g) ∧ pipeline 0 (g k) = (.ok (), st'.heap k) := by
  obtain ⟨h', hh⟩ := genAll_total 0 st.heap _ hu hg
  refine ⟨⟨h', { st.veh with generated := true }⟩, ?_, rfl, genAll_spec 0 _ _ hu h' hh⟩
  unfold generate generateWith
  rw [hang, hh]
  simp only [genTransform, htr, if_true, genAnalyse, han]

/-- Components that are not composites do not share children. -/
theorem unshared_leaves (h : Heap) (ks : List ℕ) (hn : ks.Nodup) (hc : ∀ k ∈ ks, (h k).children = []) : Unshared h ks :=
  ⟨hn, fun k _ k' hk' => by rw [hc k' hk']; simp, fun k hk k' hk' _ => by rw [hc k hk]; simp⟩

/-- Adding distinct components of allowed types one after the other. -/
theorem addAll_spec (st : VState) (l : List (ℕ × AddOpts)) (hn : (l.map Prod.fst).Nodup)
    (ht : ∀ e ∈ l, (st.heap e.1).componenttype ∈ Veh.allowable) :
    ∃ st', addAll st l = .ok st' ∧ st'.veh = l.foldl (fun v e => v.record e.1 (st.heap e.1) e.2) st.veh ∧
      (∀ e ∈ l, st'.heap e.1 = withName (withOpts (st.heap e.1) st.veh.verbosity e.2) e.2) ∧
      ∀ k, k ∉ l.map Prod.fst → st'.heap k = st.heap k := by
  induction l generalizing st with
  | nil => exact ⟨st, rfl, rfl, by simp, fun _ _ => rfl⟩
  | cons e l ih =>
    obtain ⟨id, o⟩ := e
    have hnd := List.nodup_cons.1 hn
    have ht0 : (st.heap id).componenttype ∈ Veh.allowable := ht (id, o) (by simp)
    set st1 : VState := ⟨st.heap.upd id (withName (withOpts (st.heap id) st.veh.verbosity o) o), st.veh.record id (st.heap id) o⟩ with h1
    have hadd : Veh.addComponent st id o = (.ok (), st1) := by
      unfold Veh.addComponent; rw [if_pos ht0]
    have hne : ∀ e ∈ l, e.1 ≠ id := fun e he h => hnd.1 (List.mem_map.2 ⟨e, he, h⟩)
    have hst : ∀ e ∈ l, st1.heap e.1 = st.heap e.1 := fun e he => upd_ne _ _ _ _ (hne e he)
    obtain ⟨st', a1, a2, a3, a4⟩ := ih st1 hnd.2 (fun e he => by rw [hst e he]; exact ht e (by simp [he]))
    refine ⟨st', by unfold addAll; rw [hadd]; exact a1, ?_, ?_, ?_⟩
    · rw [a2, List.foldl_cons]
      have : ∀ (m : List (ℕ × AddOpts)) (v : Veh), (∀ e ∈ m, st1.heap e.1 = st.heap e.1) →
          m.foldl (fun v e => v.record e.1 (st1.heap e.1) e.2) v = m.foldl (fun v e => v.record e.1 (st.heap e.1) e.2) v := by
        intro m
        induction m with
        | nil => intros; rfl
        | cons e m ihm =>
          intro v hm
          rw [List.foldl_cons, List.foldl_cons, hm e (by simp), ihm _ (fun e he => hm e (by simp [he]))]
      exact this l _ hst
    · intro e he
      rw [List.mem_cons] at he
      rcases he with rfl | he
      · rw [a4 _ hnd.1]; exact upd_self _ _ _
      · rw [a3 e he, hst e he]; rfl
    · intro k hk
      rw [List.map_cons, List.mem_cons, not_or] at hk
      rw [a4 k hk.2]
      exact upd_ne _ _ _ _ hk.1

end HV
