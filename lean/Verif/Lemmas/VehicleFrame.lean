import Verif.Props.VehicleFiles

/-!
# What the vehicle's methods touch
-/

namespace HV
open Spec Veh

/-- The children of a composite component. -/
def Comp.children (c : Comp) : List ℕ :=
  match c.gen with
  | .composite l => l
  | _ => []

/-- The listed components are distinct objects that share no children with each other and are not children themselves. -/
structure Spec.Unshared (h : Heap) (ks : List ℕ) : Prop where
  nodup : ks.Nodup
  notChild : ∀ k ∈ ks, ∀ k' ∈ ks, k ∉ (h k').children
  disjoint : ∀ k ∈ ks, ∀ k' ∈ ks, k ≠ k' → ∀ j ∈ (h k).children, j ∉ (h k').children

theorem genLeaf_gen (h : Heap) (id j : ℕ) : ((Composite.genLeaf h id).2 j).gen = (h j).gen := by
  by_cases hj : j = id
  · subst hj
    unfold Composite.genLeaf
    rcases hg : (h j).gen with out | out | l
    · simp only [upd_self, Comp.genInto, hg]
    · simp only [upd_self, Comp.genReplace]
      split <;> simp [hg]
    · simp only [hg]
  · rw [genLeaf_other _ _ _ hj]

theorem genChildren_gen (h : Heap) (l : List ℕ) (j : ℕ) : ((Composite.genChildren h l).2 j).gen = (h j).gen := by
  induction l generalizing h with
  | nil => rfl
  | cons k ks ih =>
    unfold Composite.genChildren
    have hg := genLeaf_gen h k j
    rcases hk : Composite.genLeaf h k with ⟨_ | _, h'⟩
    · rw [hk] at hg; simpa using hg
    · rw [hk] at hg; simp only; rw [ih]; exact hg

theorem generatePatches_gen (h : Heap) (id j : ℕ) : ((generatePatches h id).2 j).gen = (h j).gen := by
  unfold generatePatches
  split
  · rename_i ch hch
    unfold Composite.generatePatches
    have hg := genChildren_gen h ch j
    have hg' := genChildren_gen h ch id
    rcases hk : Composite.genChildren h ch with ⟨_ | _, h'⟩
    · rw [hk] at hg; simpa using hg
    · rw [hk] at hg hg'
      simp only at hg hg' ⊢
      by_cases hj : j = id
      · subst hj; rw [upd_self]; exact hg
      · rw [upd_ne _ _ _ _ hj]; exact hg
  · exact genLeaf_gen h id j

/-- `generate_patches` touches the component and its children only. -/
theorem generatePatches_frame (h : Heap) (id j : ℕ) (hj : j ≠ id) (hc : j ∉ (h id).children) :
    (generatePatches h id).2 j = h j := by
  unfold generatePatches
  unfold Comp.children at hc
  split
  · rename_i ch hch
    rw [hch] at hc
    unfold Composite.generatePatches
    have := genChildren_other h ch j hc
    rcases hk : Composite.genChildren h ch with ⟨_ | _, h'⟩
    · rw [hk] at this; simpa using this
    · rw [hk] at this; simp only at this ⊢; rw [upd_ne _ _ _ _ hj]; exact this
  · exact genLeaf_other h id j hj

theorem genLeaf_local (h h' : Heap) (id : ℕ) (e : h' id = h id) :
    (Composite.genLeaf h' id).1 = (Composite.genLeaf h id).1 ∧ (Composite.genLeaf h' id).2 id = (Composite.genLeaf h id).2 id := by
  unfold Composite.genLeaf
  rw [e]
  rcases (h id).gen with out | out | l <;> simp [upd_self, e]

theorem genChildren_local (h h' : Heap) (l : List ℕ) (S : ℕ → Prop) (hS : ∀ j ∈ l, S j) (e : ∀ j, S j → h' j = h j) :
    (Composite.genChildren h' l).1 = (Composite.genChildren h l).1 ∧
    ∀ j, S j → (Composite.genChildren h' l).2 j = (Composite.genChildren h l).2 j := by
  induction l generalizing h h' with
  | nil => exact ⟨rfl, e⟩
  | cons k ks ih =>
    obtain ⟨h1, h2⟩ := genLeaf_local h h' k (e k (hS k (by simp)))
    unfold Composite.genChildren
    have h3 : ∀ j, S j → (Composite.genLeaf h' k).2 j = (Composite.genLeaf h k).2 j := by
      intro j hj
      by_cases hk : j = k
      · subst hk; exact h2
      · rw [genLeaf_other _ _ _ hk, genLeaf_other _ _ _ hk]; exact e j hj
    rcases ha : Composite.genLeaf h' k with ⟨x, g'⟩
    rcases hb : Composite.genLeaf h k with ⟨y, g⟩
    rw [ha, hb] at h1 h3
    simp only at h1 h3
    subst h1
    rcases x with _ | _
    · exact ⟨rfl, h3⟩
    · exact ih g g' (fun j hj => hS j (by simp [hj])) h3

theorem mergedItems_local (h h' : Heap) (l : List ℕ) (e : ∀ j ∈ l, h' j = h j) (ix : ℕ) :
    Composite.mergedItems h' ix l = Composite.mergedItems h ix l := by
  induction l generalizing ix with
  | nil => rfl
  | cons k ks ih =>
    rw [Composite.mergedItems, Composite.mergedItems, e k (by simp), ih (fun j hj => e j (by simp [hj]))]

/-- `generate_patches` depends on the component and its children only. -/
theorem generatePatches_local (h h' : Heap) (id : ℕ) (e0 : h' id = h id) (e : ∀ j ∈ (h id).children, h' j = h j) :
    (generatePatches h' id).1 = (generatePatches h id).1 ∧ (generatePatches h' id).2 id = (generatePatches h id).2 id := by
  unfold generatePatches
  rw [e0]
  unfold Comp.children at e
  rcases hg : (h id).gen with out | out | ch
  · exact genLeaf_local h h' id e0
  · exact genLeaf_local h h' id e0
  · rw [hg] at e
    simp only at e ⊢
    obtain ⟨h1, h2⟩ := genChildren_local h h' ch (fun j => j = id ∨ j ∈ ch) (fun j hj => .inr hj) (by
      rintro j (rfl | hj)
      · exact e0
      · exact e j hj)
    unfold Composite.generatePatches
    rcases ha : Composite.genChildren h' ch with ⟨x, g'⟩
    rcases hb : Composite.genChildren h ch with ⟨y, g⟩
    rw [ha, hb] at h1 h2
    simp only at h1 h2
    subst h1
    rcases x with _ | _
    · exact ⟨rfl, h2 id (.inl rfl)⟩
    · refine ⟨rfl, ?_⟩
      simp only [upd_self]
      rw [h2 id (.inl rfl), mergedItems_local g g' ch (fun j hj => h2 j (.inr hj))]

/-- `generate_patches` changes the patches and their resolutions only. -/
theorem generatePatches_opts (h : Heap) (id : ℕ) (hid : id ∉ (h id).children) :
    ∃ P R S, (generatePatches h id).2 id = { h id with patches := P, patch_res_r := R, patch_res_s := S } := by
  unfold generatePatches
  unfold Comp.children at hid
  rcases hg : (h id).gen with out | out | ch
  · unfold Composite.genLeaf
    simp only [hg, upd_self, Comp.genInto]
    exact ⟨_, _, _, by rfl⟩
  · unfold Composite.genLeaf
    simp only [hg, upd_self, Comp.genReplace]
    split
    · refine ⟨(h id).patches, (h id).patch_res_r, (h id).patch_res_s, ?_⟩
      simp only [← hg]
    · refine ⟨Dict.setAll [] (out (h id).stl_resolution).items, (h id).patch_res_r, (h id).patch_res_s, ?_⟩
      simp only [← hg]
  · rw [hg] at hid
    simp only at hid ⊢
    unfold Composite.generatePatches
    have := genChildren_other h ch id hid
    rcases hk : Composite.genChildren h ch with ⟨_ | _, h'⟩
    · rw [hk] at this
      exact ⟨_, _, _, by simpa using this⟩
    · rw [hk] at this
      simp only [upd_self] at this ⊢
      rw [this]
      refine ⟨Dict.setAll [] (Composite.mergedItems h' 0 ch), (h id).patch_res_r, (h id).patch_res_s, ?_⟩
      simp only [← hg]

theorem applyModifier_frame (c : Comp) : ∃ P, c.applyModifier = { c with patches := P } := by
  unfold Comp.applyModifier
  rcases hm : c.modifier with _ | f
  · exact ⟨c.patches, by simp only [← hm]⟩
  · exact ⟨_, by simp only [← hm]; rfl⟩

theorem curve_frame (c : Comp) : ∃ P, c.curve = { c with patches := P } := by
  unfold Comp.curve
  rcases hm : c.curvatures with _ | f
  · exact ⟨c.patches, by simp only [← hm]⟩
  · exact ⟨_, by simp only [← hm]; rfl⟩

theorem reflect_frame (c : Comp) (a : Option String) : ∃ P, c.reflect a = { c with patches := P } := by
  unfold Comp.reflect
  rcases c.reflection_axis.or a with _ | f
  · exact ⟨c.patches, rfl⟩
  · dsimp only
    split <;> exact ⟨_, rfl⟩

theorem applyTransf_frame (c : Comp) (t : Transf) (c' : Comp) (h : c.applyTransf t = .ok c') :
    ∃ P, c' = { c with patches := P } := by
  cases t <;> simp only [Comp.applyTransf, Except.ok.injEq, reduceCtorEq] at h <;> subst h
  · exact ⟨_, rfl⟩
  · exact ⟨_, rfl⟩
  · exact reflect_frame c _
  · exact curve_frame c
  · exact applyModifier_frame c

theorem applyAll_frame (ts : List Transf) (c : Comp) : ∃ P, (c.applyAll ts).2 = { c with patches := P } := by
  induction ts generalizing c with
  | nil => exact ⟨c.patches, rfl⟩
  | cons t ts ih =>
    unfold Comp.applyAll
    rcases ht : c.applyTransf t with x | c'
    · exact ⟨c.patches, rfl⟩
    · obtain ⟨P, e⟩ := applyTransf_frame c t c' ht
      obtain ⟨P', e'⟩ := ih c'
      exact ⟨P', by simp only; rw [e', e]⟩

/-- Modifier, curvature, rotation, reflection and transformations of one component in `generate`. -/
noncomputable def pipeline (angle : ℝ) (c : Comp) : Res Unit × Comp :=
  (((c.applyModifier.curve).rotate angle "y").reflect none).transform

theorem pipeline_frame (angle : ℝ) (c : Comp) : ∃ P, (pipeline angle c).2 = { c with patches := P } := by
  unfold pipeline Comp.transform
  obtain ⟨P1, e1⟩ := applyModifier_frame c
  obtain ⟨P2, e2⟩ := curve_frame c.applyModifier
  obtain ⟨P3, e3⟩ := reflect_frame (c.applyModifier.curve.rotate angle "y") none
  obtain ⟨P4, e4⟩ := applyAll_frame ((c.applyModifier.curve.rotate angle "y").reflect none).transformations
    ((c.applyModifier.curve.rotate angle "y").reflect none)
  refine ⟨P4, ?_⟩
  rw [e4, e3]
  unfold Comp.rotate
  rw [e2, e1]

theorem genOne_eq (angle : ℝ) (h : Heap) (id : ℕ) :
    genOne angle h id = match generatePatches h id with
      | (.error e, h') => (.error e, h')
      | (.ok _, h') => ((pipeline angle (h' id)).1, h'.upd id (pipeline angle (h' id)).2) := rfl

theorem genOne_frame (angle : ℝ) (h : Heap) (id j : ℕ) (hj : j ≠ id) (hc : j ∉ (h id).children) :
    (genOne angle h id).2 j = h j := by
  rw [genOne_eq]
  have := generatePatches_frame h id j hj hc
  rcases hg : generatePatches h id with ⟨_ | _, h'⟩
  · rw [hg] at this; simpa using this
  · rw [hg] at this; simp only at this ⊢; rw [upd_ne _ _ _ _ hj]; exact this

theorem genOne_gen (angle : ℝ) (h : Heap) (id j : ℕ) : ((genOne angle h id).2 j).gen = (h j).gen := by
  rw [genOne_eq]
  have := generatePatches_gen h id j
  rcases hg : generatePatches h id with ⟨_ | _, h'⟩
  · rw [hg] at this; simpa using this
  · rw [hg] at this
    simp only at this ⊢
    by_cases hj : j = id
    · subst hj
      rw [upd_self]
      obtain ⟨P, e⟩ := pipeline_frame angle (h' j)
      rw [e]; exact this
    · rw [upd_ne _ _ _ _ hj]; exact this

theorem children_congr {c c' : Comp} (h : c.gen = c'.gen) : c.children = c'.children := by
  unfold Comp.children; rw [h]

theorem unshared_congr {h h' : Heap} (hg : ∀ j, (h' j).gen = (h j).gen) {ks : List ℕ} (hu : Unshared h ks) :
    Unshared h' ks := by
  have e : ∀ j, (h' j).children = (h j).children := fun j => children_congr (hg j)
  exact ⟨hu.nodup, fun k hk k' hk' => by rw [e]; exact hu.notChild k hk k' hk', fun k hk k' hk' hne => by
    rw [e, e]; exact hu.disjoint k hk k' hk' hne⟩

theorem unshared_tail {h : Heap} {k : ℕ} {ks : List ℕ} (hu : Unshared h (k :: ks)) : Unshared h ks :=
  ⟨(List.nodup_cons.1 hu.nodup).2, fun a ha b hb => hu.notChild a (by simp [ha]) b (by simp [hb]), fun a ha b hb =>
    hu.disjoint a (by simp [ha]) b (by simp [hb])⟩

theorem genAll_other (angle : ℝ) (h : Heap) (ks : List ℕ) (j : ℕ) (hj : j ∉ ks) (hc : ∀ k ∈ ks, j ∉ (h k).children) :
    (genAll angle h ks).2 j = h j := by
  induction ks generalizing h with
  | nil => rfl
  | cons k ks ih =>
    have hjk : j ≠ k := fun e => hj (by simp [e])
    have h1 := genOne_frame angle h k j hjk (hc k (by simp))
    unfold genAll
    have hg := genOne_gen angle h k
    rcases he : genOne angle h k with ⟨_ | _, h'⟩
    · rw [he] at h1; simpa using h1
    · rw [he] at h1 hg
      simp only at h1 hg ⊢
      rw [ih h' (fun e => hj (by simp [e])) (fun a ha => by
        rw [children_congr (hg a)]; exact hc a (by simp [ha])), h1]

/-- After the loop of `generate` each component is in the state obtained from its own `generate_patches` followed by the
further steps, as if it were alone. -/
theorem genAll_spec (angle : ℝ) (h : Heap) (ks : List ℕ) (hu : Unshared h ks) (h' : Heap)
    (hg : genAll angle h ks = (.ok (), h')) : ∀ k ∈ ks, ∃ g, generatePatches h k = (.ok (), g) ∧
      pipeline angle (g k) = (.ok (), h' k) := by
  induction ks generalizing h with
  | nil => intro k hk; simp at hk
  | cons k0 ks ih =>
    unfold genAll at hg
    have hgen := genOne_gen angle h k0
    have hfr := fun j => genOne_frame angle h k0 j
    rcases he : genOne angle h k0 with ⟨_ | _, h1⟩
    · rw [he] at hg; simp at hg
    · rw [he] at hg hgen hfr
      simp only at hg hgen hfr
      have hu1 : Unshared h1 ks := unshared_congr hgen (unshared_tail hu)
      have hnd := List.nodup_cons.1 hu.nodup
      intro k hk
      rcases List.mem_cons.1 hk with rfl | hk
      · have ho := genAll_other angle h1 ks k hnd.1 (fun a ha => by
          rw [children_congr (hgen a)]; exact hu.notChild k (by simp) a (by simp [ha]))
        rw [hg] at ho
        simp only at ho
        rw [genOne_eq] at he
        rcases hp : generatePatches h k with ⟨_ | _, g⟩
        · rw [hp] at he; simp at he
        · rw [hp] at he
          simp only [Prod.mk.injEq] at he
          refine ⟨g, rfl, ?_⟩
          rw [ho, ← he.2, upd_self]
          exact Prod.ext he.1 rfl
      · have hne : k ≠ k0 := fun e => hnd.1 (e ▸ hk)
        obtain ⟨g, hp, hpl⟩ := ih h1 hu1 hg k hk
        have e0 : h1 k = h k := hfr k hne (hu.notChild k (by simp [hk]) k0 (by simp))
        obtain ⟨l1, l2⟩ := generatePatches_local h h1 k e0 (fun j hj => hfr j
          (fun e => hu.notChild k0 (by simp) k (by simp [hk]) (e ▸ hj))
          (fun hj' => hu.disjoint k (by simp [hk]) k0 (by simp) hne j hj hj'))
        rw [hp] at l1 l2
        simp only at l1 l2
        refine ⟨(generatePatches h k).2, Prod.ext l1.symm rfl, ?_⟩
        rw [← l2]; exact hpl

theorem transformAll_spec (h : Heap) (ts : List Transf) (ks : List ℕ) (hn : ks.Nodup) (h' : Heap)
    (ht : transformAll h ts ks = (.ok (), h')) :
    (∀ k ∈ ks, ∃ c, (h k).applyAll ts = (.ok (), c) ∧ h' k = { c with surfaces := none, mesh_ := none }) ∧
    ∀ k, k ∉ ks → h' k = h k := by
  induction ks generalizing h with
  | nil =>
    simp only [transformAll, Prod.mk.injEq, true_and] at ht
    subst ht
    simp
  | cons k ks ih =>
    rw [List.nodup_cons] at hn
    unfold transformAll transformOne at ht
    rcases ha : (h k).applyAll ts with ⟨_ | _, c⟩
    · rw [ha] at ht; simp at ht
    · rw [ha] at ht
      simp only at ht
      obtain ⟨h1, h2⟩ := ih _ hn.2 ht
      constructor
      · intro j hj
        rcases List.mem_cons.1 hj with rfl | hj
        · exact ⟨c, ha, by rw [h2 j hn.1, upd_self]⟩
        · have hjk : j ≠ k := fun e => hn.1 (e ▸ hj)
          obtain ⟨c', hc', e⟩ := h1 j hj
          rw [upd_ne _ _ _ _ hjk] at hc'
          exact ⟨c', hc', e⟩
      · intro j hj
        rw [h2 j (fun e => hj (by simp [e])), upd_ne _ _ _ _ (fun e => hj (by simp [e]))]

/-- Caches aside the heaps are the same. -/
def CachesOnly (h h' : Heap) : Prop := ∀ k, ∃ s m, h' k = { h k with surfaces := s, mesh_ := m }

theorem CachesOnly.refl (h : Heap) : CachesOnly h h := fun _ => ⟨_, _, rfl⟩

theorem CachesOnly.trans {h h' h'' : Heap} (a : CachesOnly h h') (b : CachesOnly h' h'') : CachesOnly h h'' := by
  intro k
  obtain ⟨s, m, e⟩ := a k
  obtain ⟨s', m', e'⟩ := b k
  exact ⟨s', m', by rw [e', e]⟩

theorem cachesOnly_upd (h : Heap) (k : ℕ) (c : Comp) (hc : ∃ s m, c = { h k with surfaces := s, mesh_ := m }) :
    CachesOnly h (h.upd k c) := by
  intro j
  by_cases hj : j = k
  · subst hj; rw [upd_self]; exact hc
  · rw [upd_ne _ _ _ _ hj]; exact ⟨_, _, rfl⟩

theorem assessOne_caches (lib : Lib) (dens : Dict String ℝ) (h : Heap) (e : String × ℕ) :
    CachesOnly h (assessOne lib dens h e).2 := by
  unfold assessOne
  obtain ⟨s, m, hm⟩ := mesh_frame (h e.2)
  rcases hc : (h e.2).mesh with ⟨x | M, c⟩
  · rw [hc] at hm; exact cachesOnly_upd _ _ _ ⟨s, m, hm⟩
  · rw [hc] at hm
    simp only at hm ⊢
    rcases dens.get e.1 with x | ρ
    · exact cachesOnly_upd _ _ _ ⟨s, m, hm⟩
    · simp only
      rcases lib.massProps M ρ with x | p
      · exact cachesOnly_upd _ _ _ ⟨s, m, hm⟩
      · simp only
        obtain ⟨s', m', hm'⟩ := mesh_frame c
        rcases hc' : c.mesh with ⟨x | M', c'⟩ <;>
        · rw [hc'] at hm'
          simp only at hm' ⊢
          exact cachesOnly_upd _ _ _ ⟨s', m', by rw [hm', hm]⟩

theorem assessAll_caches (lib : Lib) (dens : Dict String ℝ) (l : List (String × ℕ)) (h : Heap) :
    CachesOnly h (assessAll lib dens h l).2 := by
  induction l generalizing h with
  | nil => exact CachesOnly.refl h
  | cons e es ih =>
    unfold assessAll
    have h1 := assessOne_caches lib dens h e
    rcases hc : assessOne lib dens h e with ⟨x | p, h'⟩
    · rw [hc] at h1; exact h1
    · rw [hc] at h1
      simp only at h1 ⊢
      have h2 := ih h'
      rcases hc' : assessAll lib dens h' es with ⟨x | ps, h''⟩ <;>
      · rw [hc'] at h2; exact h1.trans h2

theorem analyseGenerated_frame (lib : Lib) (st : VState) (dens : Dict String ℝ) :
    CachesOnly st.heap (analyseGenerated lib st dens).2.heap ∧
    ∃ a, (analyseGenerated lib st dens).2.veh = { st.veh with analysis := a } := by
  unfold analyseGenerated
  have h1 := assessAll_caches lib dens st.veh.named st.heap
  rcases hc : assessAll lib dens st.heap st.veh.named with ⟨x | l, h⟩
  · rw [hc] at h1; exact ⟨h1, st.veh.analysis, rfl⟩
  · rw [hc] at h1
    simp only
    rcases summarise l with x | a
    · exact ⟨h1, st.veh.analysis, rfl⟩
    · exact ⟨h1, some a, rfl⟩

/-- Analysing a generated vehicle only fills caches and records the results. -/
theorem analyse_frame (lib : Lib) (depth : ℕ) (st : VState) (dens : Dict String ℝ) (hg : st.veh.generated = true) :
    CachesOnly st.heap (analyse lib depth st dens).2.heap ∧
    ∃ a, (analyse lib depth st dens).2.veh = { st.veh with analysis := a } := by
  rcases depth with _ | depth
  · exact ⟨CachesOnly.refl _, st.veh.analysis, rfl⟩
  · have : analyse lib (depth + 1) st dens = analyseGenerated lib st dens := by
      simp [analyse, analyseWith, hg]
    rw [this]; exact analyseGenerated_frame lib st dens

theorem genAnalyse_frame (lib : Lib) (depth : ℕ) (st : VState) (hg : st.veh.generated = true) :
    CachesOnly st.heap (genAnalyse (analyse lib depth) st).2.heap ∧
    ∃ a b, (genAnalyse (analyse lib depth) st).2.veh = { st.veh with analysis := a, analysisResults := b } := by
  unfold genAnalyse
  rcases hd : st.veh.analyseOn with _ | _ | ⟨d, ds⟩
  · exact ⟨CachesOnly.refl _, _, _, rfl⟩
  · exact ⟨CachesOnly.refl _, _, _, rfl⟩
  · obtain ⟨h1, a, h2⟩ := analyse_frame lib depth st (d :: ds) hg
    simp only
    rcases ha : analyse lib depth st (d :: ds) with ⟨x | r, st'⟩
    · rw [ha] at h1 h2
      exact ⟨h1, a, st.veh.analysisResults, h2⟩
    · rw [ha] at h1 h2
      simp only at h1 h2 ⊢
      exact ⟨h1, a, some r, by rw [h2]⟩

theorem genTransform_generated (st : VState) (hg : st.veh.generated = true) :
    (genTransform st).2.veh = st.veh := by
  unfold genTransform transform
  split
  · rfl
  · rfl

/-- The steps of a successful `generate`: loop, vehicle transformations, analysis. -/
theorem generate_steps (lib : Lib) (depth : ℕ) (st st' : VState) (h : generate lib depth st = (.ok (), st')) :
    ∃ h1 h2, genAll st.veh.angleOffset st.heap st.veh.components = (.ok (), h1) ∧
      ((st.veh.transformations = [] ∧ h2 = h1) ∨ (st.veh.transformations ≠ [] ∧
        transformAll h1 st.veh.transformations st.veh.components = (.ok (), h2))) ∧
      genAnalyse (analyse lib depth) ⟨h2, { st.veh with generated := true }⟩ = (.ok (), st') ∧ CachesOnly h2 st'.heap ∧
      ∃ a b, st'.veh = { st.veh with generated := true, analysis := a, analysisResults := b } := by
  unfold generate generateWith at h
  rcases hg : genAll st.veh.angleOffset st.heap st.veh.components with ⟨_ | _, h1⟩
  · rw [hg] at h; simp at h
  · rw [hg] at h
    simp only at h
    have fin : ∀ h2, genAnalyse (analyse lib depth) ⟨h2, { st.veh with generated := true }⟩ = (.ok (), st') →
        CachesOnly h2 st'.heap ∧ ∃ a b, st'.veh = { st.veh with generated := true, analysis := a, analysisResults := b } := by
      intro h2 h
      obtain ⟨f1, a, b, f2⟩ := genAnalyse_frame lib depth ⟨h2, { st.veh with generated := true }⟩ rfl
      rw [h] at f1 f2
      exact ⟨f1, a, b, f2⟩
    by_cases ht : st.veh.transformations = []
    · have e : genTransform ⟨h1, { st.veh with generated := true }⟩ = (.ok (), ⟨h1, { st.veh with generated := true }⟩) := by
        simp [genTransform, ht]
      rw [e] at h
      obtain ⟨f1, f2⟩ := fin h1 h
      exact ⟨h1, h1, rfl, .inl ⟨ht, rfl⟩, h, f1, f2⟩
    · rcases hx : transformAll h1 st.veh.transformations st.veh.components with ⟨x | _, h2⟩
      · have e : genTransform ⟨h1, { st.veh with generated := true }⟩ = (.error x, ⟨h2, { st.veh with generated := true }⟩) := by
          simp [genTransform, ht, transform, TransfArg.toList, hx]
        rw [e] at h; simp at h
      · have e : genTransform ⟨h1, { st.veh with generated := true }⟩ = (.ok (), ⟨h2, { st.veh with generated := true }⟩) := by
          simp [genTransform, ht, transform, TransfArg.toList, hx]
        rw [e] at h
        obtain ⟨f1, f2⟩ := fin h2 h
        exact ⟨h1, h2, rfl, .inr ⟨ht, hx⟩, h, f1, f2⟩

end HV
