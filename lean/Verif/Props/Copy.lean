import Verif.Model.Copy
import Mathlib.Data.Finset.Card
import Mathlib.Data.Finset.Range
import Mathlib.Logic.Relation
import Mathlib.Tactic.Linarith

/-!
# C55: deep copies are independent
-/

namespace HV

/-- The addresses a value refers to directly. -/
def Spec.refs : PVal → List ℕ
  | .imm _ => []
  | .ref a => [a]

/-- The addresses an object refers to directly. -/
def Spec.objRefs (o : PObj) : List ℕ := o.fields.flatMap fun f => refs f.2

/-- No dangling references. -/
def Spec.WF (h : PHeap) : Prop := ∀ a < h.next, ∀ x ∈ objRefs (h.obj a), x < h.next

/-- `v'` is `v` with addresses renamed by `μ`. -/
inductive Spec.Renamed (μ : ℕ → Option ℕ) : PVal → PVal → Prop
  | imm (t : ℕ) : Renamed μ (.imm t) (.imm t)
  | ref {a b : ℕ} : μ a = some b → Renamed μ (.ref a) (.ref b)

/-- What a program holding the addresses `S` can do: follow a reference, allocate an object, or assign the fields of an
object it holds, the new fields referring only to addresses it holds. -/
inductive Spec.ProgStep : Set ℕ × PHeap → Set ℕ × PHeap → Prop
  | follow {S h a x} : a ∈ S → x ∈ objRefs (h.obj a) → ProgStep (S, h) (insert x S, h)
  | alloc {S h} (o : PObj) : (∀ x ∈ objRefs o, x ∈ S) → ProgStep (S, h) (insert h.next S, h.alloc o)
  | write {S h a} (fields : List (String × PVal)) : a ∈ S → (∀ x ∈ objRefs ⟨"", fields⟩, x ∈ S) →
      ProgStep (S, h) (S, h.write a fields)

open Spec

theorem Spec.Renamed.mono {μ μ' : ℕ → Option ℕ} (h : ∀ a b, μ a = some b → μ' a = some b) {v v' : PVal} (hr : Renamed μ v v') :
    Renamed μ' v v' := by
  cases hr with
  | imm t => exact .imm t
  | ref h' => exact .ref (h _ _ h')

theorem renamed_refs {μ : ℕ → Option ℕ} {v v' : PVal} (h : Renamed μ v v') {x : ℕ} (hx : x ∈ refs v') :
    ∃ a, a ∈ refs v ∧ μ a = some x := by
  cases h with
  | imm t => simp [refs] at hx
  | ref h' =>
    simp only [refs, List.mem_singleton] at hx
    subst hx
    exact ⟨_, by simp [refs], h'⟩

/-- The state of a copy of a part of the memory `h0`. -/
structure CopyInv (h0 : PHeap) (st : CopySt) : Prop where
  next_le : h0.next ≤ st.heap.next
  old : ∀ a < h0.next, st.heap.obj a = h0.obj a
  memo : ∀ a b, st.memo a = some b → a < h0.next ∧ h0.next ≤ b ∧ b < st.heap.next
  inj : ∀ a a' b, st.memo a = some b → st.memo a' = some b → a = a'
  new : ∀ o, h0.next ≤ o → o < st.heap.next → ∀ x ∈ objRefs (st.heap.obj o), h0.next ≤ x ∧ x < st.heap.next

/-- `b` is a complete copy of `a`. -/
def CopyOf (h0 : PHeap) (st : CopySt) (a b : ℕ) : Prop :=
  (st.heap.obj b).cls = (h0.obj a).cls ∧
  List.Forall₂ (fun f f' => f'.1 = f.1 ∧ Renamed st.memo f.2 f'.2) (h0.obj a).fields (st.heap.obj b).fields

/-- One call of `deepcopy` only adds objects and memo entries. -/
structure CopyExt (st st' : CopySt) : Prop where
  next_le : st.heap.next ≤ st'.heap.next
  obj : ∀ o < st.heap.next, st'.heap.obj o = st.heap.obj o
  memo : ∀ a b, st.memo a = some b → st'.memo a = some b

def Post (h0 : PHeap) (st : CopySt) (v v' : PVal) (st' : CopySt) : Prop :=
  CopyInv h0 st' ∧ CopyExt st st' ∧ Renamed st'.memo v v' ∧
  ∀ a b, st'.memo a = some b → st.memo a = none → st.heap.next ≤ b ∧ CopyOf h0 st' a b

theorem objRefs_append (c : String) (l l' : List (String × PVal)) (x : ℕ) :
    x ∈ objRefs ⟨c, l ++ l'⟩ ↔ x ∈ objRefs ⟨c, l⟩ ∨ x ∈ objRefs ⟨c, l'⟩ := by
  simp only [objRefs, List.flatMap_append, List.mem_append]

theorem objRefs_cls (o : PObj) (c : String) : objRefs ⟨c, o.fields⟩ = objRefs o := rfl

theorem deepcopy_post (h0 : PHeap) (hw : WF h0) (fuel : ℕ) : ∀ (st : CopySt) (v v' : PVal) (st' : CopySt),
    CopyInv h0 st → (∀ x ∈ refs v, x < h0.next) → deepcopy fuel st v = some (v', st') → Post h0 st v v' st' := by
  induction fuel with
  | zero =>
    intro st v v' st' hi hv h
    cases v with
    | imm t =>
      simp only [deepcopy, Option.some.injEq, Prod.mk.injEq] at h
      obtain ⟨rfl, rfl⟩ := h
      exact ⟨hi, ⟨le_refl _, fun _ _ => rfl, fun _ _ h => h⟩, .imm t, fun a b h1 h2 => by rw [h1] at h2; cases h2⟩
    | ref a =>
      simp only [deepcopy, Option.map_eq_some_iff, Prod.mk.injEq] at h
      obtain ⟨b, hb, rfl, rfl⟩ := h
      exact ⟨hi, ⟨le_refl _, fun _ _ => rfl, fun _ _ h => h⟩, .ref hb, fun a b h1 h2 => by rw [h1] at h2; cases h2⟩
  | succ fuel ih =>
    intro st v v' st' hi hv h
    cases v with
    | imm t =>
      simp only [deepcopy, Option.some.injEq, Prod.mk.injEq] at h
      obtain ⟨rfl, rfl⟩ := h
      exact ⟨hi, ⟨le_refl _, fun _ _ => rfl, fun _ _ h => h⟩, .imm t, fun a b h1 h2 => by rw [h1] at h2; cases h2⟩
    | ref a =>
      have ha : a < h0.next := hv a (by simp [refs])
      rw [deepcopy] at h
      cases hm : st.memo a with
      | some b =>
        rw [hm] at h
        simp only [Option.some.injEq, Prod.mk.injEq] at h
        obtain ⟨rfl, rfl⟩ := h
        exact ⟨hi, ⟨le_refl _, fun _ _ => rfl, fun _ _ h => h⟩, .ref hm, fun a b h1 h2 => by rw [h1] at h2; cases h2⟩
      | none =>
        rw [hm] at h
        simp only [Option.map_eq_some_iff, Prod.mk.injEq] at h
        obtain ⟨s2, hfold, rfl, rfl⟩ := h
        set b := st.heap.next with hb
        have hba : a ≠ b := by have := hi.next_le; omega
        -- loop invariant: `done` fields have been copied
        have loop : ∀ (todo don : List (String × PVal)) (s : CopySt), (h0.obj a).fields = don ++ todo →
            CopyInv h0 s → b < s.heap.next → (∀ o < b, s.heap.obj o = st.heap.obj o) →
            (∀ x y, st.memo x = some y → s.memo x = some y) → s.memo a = some b →
            (s.heap.obj b).cls = (h0.obj a).cls →
            List.Forall₂ (fun f f' => f'.1 = f.1 ∧ Renamed s.memo f.2 f'.2) don (s.heap.obj b).fields →
            (∀ x y, s.memo x = some y → st.memo x = none → b ≤ y ∧ (x ≠ a → CopyOf h0 s x y)) →
            ∀ s', todo.foldlM (fun (s : CopySt) (f : String × PVal) =>
              match deepcopy fuel s f.2 with
              | none => none
              | some (v', s') => some { s' with heap := s'.heap.write b ((s'.heap.obj b).fields ++ [(f.1, v')]) }) s = some s' →
            Post h0 st (.ref a) (.ref b) s' := by
          intro todo
          induction todo with
          | nil =>
            intro don s hdon hs hbs hobj hmemo hab hcls hf hnew s' h
            simp only [List.foldlM_nil, Option.pure_def, Option.some.injEq] at h
            subst h
            rw [List.append_nil] at hdon
            refine ⟨hs, ⟨le_of_lt hbs, hobj, hmemo⟩, .ref hab, ?_⟩
            intro x y hxy hx
            refine ⟨(hnew x y hxy hx).1, ?_⟩
            by_cases hxa : x = a
            · subst hxa
              rw [hab] at hxy
              cases hxy
              exact ⟨hcls, by rw [hdon]; exact hf⟩
            · exact (hnew x y hxy hx).2 hxa
          | cons f todo iht =>
            intro don s hdon hs hbs hobj hmemo hab hcls hf hnew s' h
            rw [List.foldlM_cons] at h
            cases hd : deepcopy fuel s f.2 with
            | none => simp [hd] at h
            | some r =>
              obtain ⟨w, s1⟩ := r
              simp only [hd, Option.bind_eq_bind, Option.bind_some] at h
              have hfref : ∀ x ∈ refs f.2, x < h0.next := by
                intro x hx
                apply hw a ha x
                simp only [objRefs, hdon, List.flatMap_append, List.flatMap_cons, List.mem_append]
                exact .inr (.inl hx)
              obtain ⟨hi1, he1, hr1, hn1⟩ := ih s f.2 w s1 hs hfref hd
              set s2 : CopySt := { s1 with heap := s1.heap.write b ((s1.heap.obj b).fields ++ [(f.1, w)]) } with hs2
              have hobjb : s1.heap.obj b = s.heap.obj b := he1.obj b hbs
              have hwb : s2.heap.obj b = ⟨(s1.heap.obj b).cls, (s1.heap.obj b).fields ++ [(f.1, w)]⟩ := by
                simp [hs2, PHeap.write]
              have hwo : ∀ o, o ≠ b → s2.heap.obj o = s1.heap.obj o := by
                intro o ho
                simp [hs2, PHeap.write, ho]
              have hbn : h0.next ≤ b := hi.next_le
              have hmem : s2.memo = s1.memo := rfl
              have hnx : s2.heap.next = s1.heap.next := rfl
              have hbm : ∀ x y, s1.memo x = some y → y = b → x = a := by
                intro x y hxy hyb
                subst hyb
                exact hi1.inj x a _ hxy (he1.memo _ _ hab)
              refine iht (don ++ [f]) s2 (by rw [hdon]; simp) ?_ ?_ ?_ ?_ ?_ ?_ ?_ ?_ s' h
              · refine ⟨by rw [hnx]; exact hi1.next_le, ?_, ?_, ?_, ?_⟩
                · intro o ho
                  rw [hwo o (by omega)]
                  exact hi1.old o ho
                · intro x y hxy; rw [hmem] at hxy; rw [hnx]; exact hi1.memo x y hxy
                · intro x x' y hxy hxy'; exact hi1.inj x x' y hxy hxy'
                · intro o ho1 ho2 x hx
                  rw [hnx] at ho2 ⊢
                  by_cases hob : o = b
                  · subst hob
                    rw [hwb, objRefs_append] at hx
                    rcases hx with hx | hx
                    · exact hi1.new b ho1 ho2 x hx
                    · simp only [objRefs, List.flatMap_cons, List.flatMap_nil, List.append_nil] at hx
                      obtain ⟨y, _, hy⟩ := renamed_refs hr1 hx
                      exact (hi1.memo _ _ hy).2
                  · rw [hwo o hob] at hx
                    exact hi1.new o ho1 ho2 x hx
              · rw [hnx]; exact lt_of_lt_of_le hbs he1.next_le
              · intro o ho
                rw [hwo o (by omega), he1.obj o (by omega)]
                exact hobj o ho
              · intro x y hxy; exact he1.memo _ _ (hmemo x y hxy)
              · exact he1.memo _ _ hab
              · rw [hwb]; show (s1.heap.obj b).cls = _; rw [hobjb]; exact hcls
              · rw [hwb]
                refine List.rel_append ?_ (.cons ⟨rfl, hr1⟩ .nil)
                rw [hobjb]
                exact hf.imp fun f f' h => ⟨h.1, h.2.mono he1.memo⟩
              · intro x y hxy hx
                rw [hmem] at hxy
                by_cases hsx : s.memo x = none
                · obtain ⟨hle, hc1, hc2⟩ := hn1 x y hxy hsx
                  have hyb : y ≠ b := by omega
                  refine ⟨by omega, fun _ => ?_⟩
                  unfold CopyOf
                  rw [hwo y hyb]
                  exact ⟨hc1, hc2⟩
                · obtain ⟨y', hy'⟩ := Option.ne_none_iff_exists'.1 hsx
                  have := he1.memo x y' hy'
                  rw [hxy] at this
                  cases this
                  obtain ⟨hle, hc⟩ := hnew x y hy' hx
                  refine ⟨hle, fun hxa => ?_⟩
                  obtain ⟨hc1, hc2⟩ := hc hxa
                  have hyb : y ≠ b := fun hyb => hxa (hbm x y hxy hyb)
                  have hys : y < s.heap.next := (hs.memo x y hy').2.2
                  unfold CopyOf
                  rw [hwo y hyb, he1.obj y hys]
                  exact ⟨hc1, hc2.imp fun f f' h => ⟨h.1, h.2.mono he1.memo⟩⟩
        have hbn : h0.next ≤ b := hi.next_le
        have hold : st.heap.obj a = h0.obj a := hi.old a ha
        rw [hold] at hfold
        refine loop (h0.obj a).fields [] _ rfl ?_ ?_ ?_ ?_ ?_ ?_ ?_ ?_ _ hfold
        · refine ⟨?_, ?_, ?_, ?_, ?_⟩
          · show h0.next ≤ st.heap.next + 1; omega
          · intro o ho
            have : o ≠ b := by omega
            simp only [PHeap.alloc, ← hb, if_neg this]
            exact hi.old o ho
          · intro x y hxy
            simp only at hxy
            show x < h0.next ∧ h0.next ≤ y ∧ y < st.heap.next + 1
            split at hxy
            · cases hxy; subst_vars; exact ⟨ha, hbn, by omega⟩
            · obtain ⟨h1, h2, h3⟩ := hi.memo x y hxy
              exact ⟨h1, h2, by omega⟩
          · intro x x' y hxy hxy'
            simp only at hxy hxy'
            split at hxy <;> split at hxy'
            · subst_vars; rfl
            · cases hxy
              have := (hi.memo _ _ hxy').2.2
              omega
            · cases hxy'
              have := (hi.memo _ _ hxy).2.2
              omega
            · exact hi.inj x x' y hxy hxy'
          · intro o ho1 ho2 x hx
            by_cases hob : o = b
            · simp only [PHeap.alloc, ← hb, if_pos hob, objRefs, List.flatMap_nil, List.not_mem_nil] at hx
            · simp only [PHeap.alloc, ← hb, if_neg hob] at hx
              have ho3 : o < st.heap.next := by
                have : o < st.heap.next + 1 := ho2
                omega
              obtain ⟨h1, h2⟩ := hi.new o ho1 ho3 x hx
              refine ⟨h1, ?_⟩
              show x < st.heap.next + 1
              omega
        · show st.heap.next < st.heap.next + 1; omega
        · intro o ho
          have : o ≠ b := by omega
          simp only [PHeap.alloc, ← hb, if_neg this]
        · intro x y hxy
          have : x ≠ a := by rintro rfl; rw [hm] at hxy; cases hxy
          simp only [if_neg this]; exact hxy
        · simp
        · simp [PHeap.alloc, ← hb, hold]
        · simp [PHeap.alloc, ← hb]
        · intro x y hxy hx
          by_cases hxa : x = a
          · simp only [hxa, if_true, Option.some.injEq] at hxy
            exact ⟨by omega, fun h => absurd hxa h⟩
          · simp only [if_neg hxa] at hxy
            rw [hx] at hxy
            cases hxy

open Classical in
/-- The old addresses not yet copied. -/
noncomputable def uncopied (n : ℕ) (memo : ℕ → Option ℕ) : Finset ℕ := (Finset.range n).filter fun a => memo a = none

theorem deepcopy_total (h0 : PHeap) (hw : WF h0) (fuel : ℕ) : ∀ (st : CopySt) (v : PVal), CopyInv h0 st →
    (∀ x ∈ refs v, x < h0.next) → (uncopied h0.next st.memo).card ≤ fuel → ∃ r, deepcopy fuel st v = some r := by
  induction fuel with
  | zero =>
    intro st v hi hv hc
    cases v with
    | imm t => exact ⟨_, rfl⟩
    | ref a =>
      have ha : a < h0.next := hv a (by simp [refs])
      cases hm : st.memo a with
      | some b => exact ⟨_, by rw [deepcopy, hm]; rfl⟩
      | none =>
        exfalso
        have : a ∈ uncopied h0.next st.memo := by simp [uncopied, ha, hm]
        have := Finset.card_pos.2 ⟨a, this⟩
        omega
  | succ fuel ih =>
    intro st v hi hv hc
    cases v with
    | imm t => exact ⟨_, rfl⟩
    | ref a =>
      have ha : a < h0.next := hv a (by simp [refs])
      rw [deepcopy]
      cases hm : st.memo a with
      | some b => exact ⟨_, rfl⟩
      | none =>
        simp only [Option.map_eq_some_iff]
        have hain : a ∈ uncopied h0.next st.memo := by simp [uncopied, ha, hm]
        have hsub : ∀ memo : ℕ → Option ℕ, (∃ b, memo a = some b) → (∀ x y, st.memo x = some y → memo x = some y) →
            (uncopied h0.next memo).card ≤ fuel := by
          intro memo ⟨b, hb⟩ hmono
          have hss : uncopied h0.next memo ⊂ uncopied h0.next st.memo := by
            rw [Finset.ssubset_iff_of_subset]
            · exact ⟨a, hain, by simp [uncopied, hb]⟩
            · intro x hx
              simp only [uncopied, Finset.mem_filter, Finset.mem_range] at hx ⊢
              refine ⟨hx.1, ?_⟩
              cases hsx : st.memo x with
              | none => rfl
              | some y => rw [hmono x y hsx] at hx; cases hx.2
          have := Finset.card_lt_card hss
          omega
        set b := st.heap.next with hb
        have hbn : h0.next ≤ b := hi.next_le
        have hold : st.heap.obj a = h0.obj a := hi.old a ha
        rw [hold]
        have loop : ∀ (todo : List (String × PVal)) (s : CopySt), (∀ f ∈ todo, ∀ x ∈ refs f.2, x < h0.next) →
            CopyInv h0 s → b < s.heap.next → (∃ b, s.memo a = some b) →
            (∀ x y, st.memo x = some y → s.memo x = some y) →
            ∃ s', todo.foldlM (fun (s : CopySt) (f : String × PVal) =>
              match deepcopy fuel s f.2 with
              | none => none
              | some (v', s') => some { s' with heap := s'.heap.write b ((s'.heap.obj b).fields ++ [(f.1, v')]) }) s = some s' := by
          intro todo
          induction todo with
          | nil => intro s _ _ _ _ _; exact ⟨s, rfl⟩
          | cons f todo iht =>
            intro s hf hs hbs hab hmono
            obtain ⟨⟨w, s1⟩, hd⟩ := ih s f.2 hs (hf f (by simp)) (hsub s.memo hab hmono)
            obtain ⟨hi1, he1, hr1, _⟩ := deepcopy_post h0 hw fuel s f.2 w s1 hs (hf f (by simp)) hd
            rw [List.foldlM_cons]
            simp only [hd, Option.bind_eq_bind, Option.bind_some]
            apply iht
            · exact fun g hg => hf g (List.mem_cons_of_mem _ hg)
            · refine ⟨hi1.next_le, ?_, hi1.memo, hi1.inj, ?_⟩
              · intro o ho
                have : o ≠ b := by omega
                simp only [PHeap.write, if_neg this]
                exact hi1.old o ho
              · intro o ho1 ho2 x hx
                by_cases hob : o = b
                · subst hob
                  simp only [PHeap.write, if_true] at hx
                  rw [objRefs_append] at hx
                  rcases hx with hx | hx
                  · exact hi1.new _ ho1 ho2 x hx
                  · simp only [objRefs, List.flatMap_cons, List.flatMap_nil, List.append_nil] at hx
                    obtain ⟨y, _, hy⟩ := renamed_refs hr1 hx
                    exact (hi1.memo _ _ hy).2
                · simp only [PHeap.write, if_neg hob] at hx
                  exact hi1.new o ho1 ho2 x hx
            · exact lt_of_lt_of_le hbs he1.next_le
            · obtain ⟨y, hy⟩ := hab
              exact ⟨y, he1.memo _ _ hy⟩
            · exact fun x y hxy => he1.memo _ _ (hmono x y hxy)
        refine (loop (h0.obj a).fields
          ⟨st.heap.alloc ⟨(h0.obj a).cls, []⟩, fun x => if x = a then some b else st.memo x⟩ ?_ ?_ ?_ ?_ ?_).elim
          (fun s' hs' => ⟨(.ref b, s'), s', hs', rfl⟩)
        · intro f hf x hx
          exact hw a ha x (List.mem_flatMap.2 ⟨f, hf, hx⟩)
        · refine ⟨?_, ?_, ?_, ?_, ?_⟩
          · show h0.next ≤ st.heap.next + 1; omega
          · intro o ho
            have : o ≠ b := by omega
            simp only [PHeap.alloc, ← hb, if_neg this]
            exact hi.old o ho
          · intro x y hxy
            simp only at hxy
            show x < h0.next ∧ h0.next ≤ y ∧ y < st.heap.next + 1
            split at hxy
            · cases hxy; subst_vars; exact ⟨ha, hbn, by omega⟩
            · obtain ⟨h1, h2, h3⟩ := hi.memo x y hxy
              exact ⟨h1, h2, by omega⟩
          · intro x x' y hxy hxy'
            simp only at hxy hxy'
            split at hxy <;> split at hxy'
            · subst_vars; rfl
            · cases hxy
              have := (hi.memo _ _ hxy').2.2
              omega
            · cases hxy'
              have := (hi.memo _ _ hxy).2.2
              omega
            · exact hi.inj x x' y hxy hxy'
          · intro o ho1 ho2 x hx
            by_cases hob : o = b
            · simp only [PHeap.alloc, ← hb, if_pos hob, objRefs, List.flatMap_nil, List.not_mem_nil] at hx
            · simp only [PHeap.alloc, ← hb, if_neg hob] at hx
              have ho3 : o < st.heap.next := by
                have : o < st.heap.next + 1 := ho2
                omega
              obtain ⟨h1, h2⟩ := hi.new o ho1 ho3 x hx
              refine ⟨h1, ?_⟩
              show x < st.heap.next + 1
              omega
        · show st.heap.next < st.heap.next + 1; omega
        · exact ⟨b, by simp⟩
        · intro x y hxy
          have : x ≠ a := by rintro rfl; rw [hm] at hxy; cases hxy
          simp only [if_neg this]; exact hxy

theorem copyInv_start (h0 : PHeap) : CopyInv h0 ⟨h0, fun _ => none⟩ :=
  ⟨le_refl _, fun _ _ => rfl, fun _ _ h => (by cases h), fun _ _ _ h => (by cases h),
    fun o h1 h2 => absurd (show o < h0.next from h2) (by omega)⟩

/-- C55: `copy.deepcopy` of any object succeeds, whatever sharing and cycles there are, leaves the existing objects alone
and returns a new object that is an exact copy: there is a one-to-one renaming `μ` of the copied addresses by new ones such
that each new object has the class of the old one and its fields, with `μ` applied. -/
theorem C55_copy (h0 : PHeap) (hw : WF h0) (a : ℕ) (ha : a < h0.next) :
    ∃ (b : ℕ) (st : CopySt), deepcopy h0.next ⟨h0, fun _ => none⟩ (.ref a) = some (.ref b, st) ∧
      (∀ x < h0.next, st.heap.obj x = h0.obj x) ∧
      st.memo a = some b ∧
      (∀ x y, st.memo x = some y → h0.next ≤ y ∧ y < st.heap.next ∧ (st.heap.obj y).cls = (h0.obj x).cls ∧
        List.Forall₂ (fun f f' => f'.1 = f.1 ∧ Renamed st.memo f.2 f'.2) (h0.obj x).fields (st.heap.obj y).fields) ∧
      (∀ x x' y, st.memo x = some y → st.memo x' = some y → x = x') := by
  have hv : ∀ x ∈ refs (.ref a), x < h0.next := by simp [refs, ha]
  obtain ⟨⟨v, st⟩, h⟩ := deepcopy_total h0 hw h0.next ⟨h0, fun _ => none⟩ (.ref a) (copyInv_start h0) hv (by
    have := Finset.card_filter_le (Finset.range h0.next) (fun _ => True)
    refine le_trans (Finset.card_filter_le _ _) (by simp))
  obtain ⟨hi, he, hr, hn⟩ := deepcopy_post h0 hw _ _ _ _ _ (copyInv_start h0) hv h
  cases hr with
  | ref hab =>
    rename_i b
    refine ⟨b, st, h, hi.old, hab, ?_, hi.inj⟩
    intro x y hxy
    have := hn x y hxy rfl
    exact ⟨(hi.memo x y hxy).2.1, (hi.memo x y hxy).2.2, this.2.1, this.2.2⟩

/-- C55: whatever is done through the copy - following references, creating objects, assigning fields - no object that
existed before the copy changes; and whatever is done through the original (or any other object that existed before), no
object of the copy changes. -/
theorem C55_independent (h0 : PHeap) (hw : WF h0) (a b : ℕ) (ha : a < h0.next) (fuel : ℕ) (st : CopySt)
    (h : deepcopy fuel ⟨h0, fun _ => none⟩ (.ref a) = some (.ref b, st)) :
    (∀ S h', Relation.ReflTransGen ProgStep ({b}, st.heap) (S, h') → ∀ x < h0.next, h'.obj x = h0.obj x) ∧
    (∀ S h', Relation.ReflTransGen ProgStep ({x | x < h0.next}, st.heap) (S, h') →
      ∀ y, h0.next ≤ y → y < st.heap.next → h'.obj y = st.heap.obj y) := by
  have hv : ∀ x ∈ refs (.ref a), x < h0.next := by simp [refs, ha]
  obtain ⟨hi, he, hr, hn⟩ := deepcopy_post h0 hw _ _ _ _ _ (copyInv_start h0) hv h
  have hb : h0.next ≤ b ∧ b < st.heap.next := by
    cases hr with
    | ref hab => exact (hi.memo _ _ hab).2
  constructor
  · intro S h' hs
    have key : ∀ p, Relation.ReflTransGen ProgStep ({b}, st.heap) p →
        h0.next ≤ p.2.next ∧ (∀ x ∈ p.1, h0.next ≤ x ∧ x < p.2.next) ∧ (∀ x < h0.next, p.2.obj x = h0.obj x) ∧
        (∀ x, h0.next ≤ x → x < p.2.next → ∀ y ∈ objRefs (p.2.obj x), h0.next ≤ y ∧ y < p.2.next) := by
      intro p hp
      induction hp with
      | refl => exact ⟨hi.next_le, by simpa using hb, hi.old, hi.new⟩
      | tail _ hstep ih =>
        cases hstep with
        | @follow S h c x hc hx =>
          obtain ⟨i0, i1, i2, i3⟩ := ih
          refine ⟨i0, ?_, i2, i3⟩
          intro y hy
          rcases Set.mem_insert_iff.1 hy with rfl | hy
          · exact i3 c (i1 c hc).1 (i1 c hc).2 _ hx
          · exact i1 y hy
        | @alloc S h o ho =>
          obtain ⟨i0, i1, i2, i3⟩ := ih
          simp only at i0 i1 i2 i3
          refine ⟨?_, ?_, ?_, ?_⟩
          · show h0.next ≤ h.next + 1; omega
          · intro y hy
            show h0.next ≤ y ∧ y < h.next + 1
            rcases Set.mem_insert_iff.1 hy with rfl | hy
            · exact ⟨i0, by omega⟩
            · have := i1 y hy; omega
          · intro x hx
            have : x ≠ h.next := by omega
            simp only [PHeap.alloc, if_neg this]
            exact i2 x hx
          · intro x hx1 hx2 y hy
            show h0.next ≤ y ∧ y < h.next + 1
            by_cases hxn : x = h.next
            · simp only [PHeap.alloc, if_pos hxn] at hy
              have := i1 y (ho y hy); omega
            · simp only [PHeap.alloc, if_neg hxn] at hy
              have hx3 : x < h.next + 1 := hx2
              have := i3 x hx1 (by omega) y hy; omega
        | @write S h c fields hc hf =>
          obtain ⟨i0, i1, i2, i3⟩ := ih
          simp only at i0 i1 i2 i3
          refine ⟨i0, i1, ?_, ?_⟩
          · intro x hx
            have : x ≠ c := by have := i1 c hc; omega
            simp only [PHeap.write, if_neg this]
            exact i2 x hx
          · intro x hx1 hx2 y hy
            by_cases hxc : x = c
            · simp only [PHeap.write, if_pos hxc] at hy
              exact i1 y (hf y hy)
            · simp only [PHeap.write, if_neg hxc] at hy
              exact i3 x hx1 hx2 y hy
    exact (key _ hs).2.2.1
  · intro S h' hs
    have key : ∀ p, Relation.ReflTransGen ProgStep ({x | x < h0.next}, st.heap) p →
        st.heap.next ≤ p.2.next ∧ (∀ x ∈ p.1, x < h0.next ∨ (st.heap.next ≤ x ∧ x < p.2.next)) ∧
        (∀ y, h0.next ≤ y → y < st.heap.next → p.2.obj y = st.heap.obj y) ∧
        (∀ x, x < h0.next ∨ (st.heap.next ≤ x ∧ x < p.2.next) → ∀ y ∈ objRefs (p.2.obj x),
          y < h0.next ∨ (st.heap.next ≤ y ∧ y < p.2.next)) := by
      intro p hp
      have hnn := hi.next_le
      induction hp with
      | refl =>
        refine ⟨le_refl _, fun x hx => .inl hx, fun _ _ _ => rfl, ?_⟩
        intro x hx y hy
        rcases hx with hx | hx
        · rw [hi.old x hx] at hy
          exact .inl (hw x hx y hy)
        · have hx1 : st.heap.next ≤ x := hx.1
          have hx2 : x < st.heap.next := hx.2
          omega
      | tail _ hstep ih =>
        cases hstep with
        | @follow S h c x hc hx =>
          obtain ⟨i0, i1, i2, i3⟩ := ih
          refine ⟨i0, ?_, i2, i3⟩
          intro y hy
          rcases Set.mem_insert_iff.1 hy with rfl | hy
          · exact i3 c (i1 c hc) _ hx
          · exact i1 y hy
        | @alloc S h o ho =>
          obtain ⟨i0, i1, i2, i3⟩ := ih
          simp only at i0 i1 i2 i3
          refine ⟨?_, ?_, ?_, ?_⟩
          · show st.heap.next ≤ h.next + 1; omega
          · intro y hy
            show y < h0.next ∨ (st.heap.next ≤ y ∧ y < h.next + 1)
            rcases Set.mem_insert_iff.1 hy with rfl | hy
            · exact .inr ⟨i0, by omega⟩
            · have := i1 y hy; omega
          · intro x hx hx'
            have : x ≠ h.next := by omega
            simp only [PHeap.alloc, if_neg this]
            exact i2 x hx hx'
          · intro x hx y hy
            show y < h0.next ∨ (st.heap.next ≤ y ∧ y < h.next + 1)
            by_cases hxn : x = h.next
            · simp only [PHeap.alloc, if_pos hxn] at hy
              have := i1 y (ho y hy); omega
            · simp only [PHeap.alloc, if_neg hxn] at hy
              have hx3 : x < h0.next ∨ (st.heap.next ≤ x ∧ x < h.next + 1) := hx
              have := i3 x (by omega) y hy; omega
        | @write S h c fields hc hf =>
          obtain ⟨i0, i1, i2, i3⟩ := ih
          simp only at i0 i1 i2 i3
          refine ⟨i0, i1, ?_, ?_⟩
          · intro x hx hx'
            have : x ≠ c := by have := i1 c hc; omega
            simp only [PHeap.write, if_neg this]
            exact i2 x hx hx'
          · intro x hx y hy
            by_cases hxc : x = c
            · simp only [PHeap.write, if_pos hxc] at hy
              exact i1 y (hf y hy)
            · simp only [PHeap.write, if_neg hxc] at hy
              exact i3 x hx y hy
    exact (key _ hs).2.2.1

/-- A component (address 0) whose two attributes share one dictionary (1), which refers back to the component. -/
def demoGraph : PHeap := ⟨2, fun a => if a = 0 then ⟨"Wing", [("patches", .ref 1), ("alias", .ref 1), ("n", .imm 2)]⟩
  else ⟨"dict", [("owner", .ref 0)]⟩⟩

example : WF demoGraph ∧ 0 < demoGraph.next := by
  constructor
  · intro a ha x hx
    have : a = 0 ∨ a = 1 := by have : a < 2 := ha; omega
    rcases this with rfl | rfl <;> simp [demoGraph, objRefs, refs] at hx ⊢ <;> omega
  · show 0 < 2; norm_num

end HV
