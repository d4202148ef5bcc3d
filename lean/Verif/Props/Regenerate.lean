import Verif.Props.VehicleGen

/-!
# Generating twice: C71
-/

namespace HV
open Spec Veh

/-! ## Assigning twice -/

namespace Dict
variable {κ ν : Type} [DecidableEq κ]

theorem get?_setAll' (d : Dict κ ν) (l : List (κ × ν)) (k : κ) :
    (d.setAll l).get? k = ((setAll [] l).get? k).or (d.get? k) := by
  induction l using List.reverseRecOn with
  | nil => simp [get?]
  | append_singleton l e ih =>
    rw [setAll_append, setAll_append, setAll_cons, setAll_cons, setAll_nil, setAll_nil, get?_set, get?_set, ih]
    split <;> rfl

theorem ext_get? (d d' : Dict κ ν) (hk : d.keys = d'.keys) (hn : d.keys.Nodup) (h : ∀ k, d.get? k = d'.get? k) : d = d' := by
  have hn' : d'.keys.Nodup := hk ▸ hn
  induction d generalizing d' with
  | nil =>
    cases d' with
    | nil => rfl
    | cons e d' => simp [keys] at hk
  | cons e d ih =>
    cases d' with
    | nil => simp [keys] at hk
    | cons e' d' =>
      obtain ⟨a, b⟩ := e
      obtain ⟨a', b'⟩ := e'
      simp only [keys, List.map_cons, List.cons.injEq] at hk
      obtain ⟨rfl, hk⟩ := hk
      have h0 := h a
      simp only [get?, if_true, Option.some.injEq] at h0
      subst h0
      simp only [keys, List.map_cons, List.nodup_cons] at hn hn'
      rw [ih d' hk hn.2 (fun k => ?_) hn'.2]
      by_cases hka : a = k
      · subst hka
        rw [get?_eq_none.2 hn.1, get?_eq_none.2 hn'.1]
      · have := h k
        simpa [get?, hka] using this

theorem keys_setAll_of_subset (d : Dict κ ν) (l : List (κ × ν)) (h : ∀ k ∈ l.map Prod.fst, k ∈ d.keys) :
    (d.setAll l).keys = d.keys := by
  induction l generalizing d with
  | nil => rfl
  | cons e l ih =>
    have he : (d.set e.1 e.2).keys = d.keys := by rw [keys_set, if_pos (h e.1 (by simp))]
    rw [setAll_cons, ih _ (fun k hk => by rw [he]; exact h k (by simp [hk])), he]

/-- Assigning the same items again changes nothing. -/
theorem setAll_idem (d : Dict κ ν) (l : List (κ × ν)) (hn : d.keys.Nodup) : (d.setAll l).setAll l = d.setAll l := by
  have hk := keys_setAll_of_subset (d.setAll l) l (fun k hk => (mem_keys_setAll d l k).2 (.inr hk))
  refine ext_get? _ _ hk (hk ▸ nodup_setAll d l hn) fun k => ?_
  rw [get?_setAll', get?_setAll' d]
  rcases (setAll [] l).get? k with _ | v <;> simp

/-- Assigning the items to a dictionary with the same keys gives what assigning them to an empty dictionary gives. -/
theorem setAll_over (d : Dict κ ν) (l : List (κ × ν)) (h : d.keys = (setAll [] l).keys) : d.setAll l = setAll [] l := by
  have hn : (setAll ([] : Dict κ ν) l).keys.Nodup := nodup_setAll [] l (by simp [keys])
  have hk := keys_setAll_of_subset d l (fun k hk => by rw [h]; exact (mem_keys_setAll [] l k).2 (.inr hk))
  refine ext_get? _ _ (hk.trans h) (by rw [hk, h]; exact hn) fun k => ?_
  rw [get?_setAll']
  rcases hk' : (setAll [] l).get? k with _ | v
  · have : k ∉ d.keys := by rw [h]; exact get?_eq_none.1 hk'
    rw [get?_eq_none.2 this]; rfl
  · rfl

end Dict

/-! ## Children -/

/-- The dictionaries of a component have distinct keys, as Python dictionaries do. -/
structure Spec.ProperDicts (c : Comp) : Prop where
  patches : (c.patches.map Prod.fst).Nodup
  r : (c.patch_res_r.map Prod.fst).Nodup
  s : (c.patch_res_s.map Prod.fst).Nodup

theorem properDicts_genLeaf (h : Heap) (id j : ℕ) (hp : ProperDicts (h j)) : ProperDicts ((Composite.genLeaf h id).2 j) := by
  by_cases hj : j = id
  · subst hj
    unfold Composite.genLeaf
    rcases (h j).gen with out | out | l
    · simp only [upd_self, Comp.genInto]
      exact ⟨Dict.nodup_setAll _ _ hp.patches, Dict.nodup_setAll _ _ hp.r, Dict.nodup_setAll _ _ hp.s⟩
    · simp only [upd_self, Comp.genReplace]
      split
      · exact hp
      · exact ⟨Dict.nodup_setAll _ _ (by simp [Dict.keys]), hp.r, hp.s⟩
    · exact hp
  · rw [genLeaf_other _ _ _ hj]; exact hp

/-- Generating the component again changes nothing. -/
def Settled (h : Heap) (j : ℕ) : Prop := Composite.genLeaf h j = (.ok (), h)

theorem settled_of_genLeaf (h h' : Heap) (id : ℕ) (hp : ProperDicts (h id)) (hg : Composite.genLeaf h id = (.ok (), h')) :
    Settled h' id := by
  unfold Settled
  unfold Composite.genLeaf at hg ⊢
  rcases hc : (h id).gen with out | out | l
  · simp only [hc, Prod.mk.injEq] at hg
    obtain ⟨h1, rfl⟩ := hg
    simp only [Comp.genInto] at h1
    simp only [upd_self, Comp.genInto, hc]
    refine Prod.ext h1 ?_
    funext k
    by_cases hk : k = id
    · subst hk
      simp only [upd_self]
      rw [Dict.setAll_idem _ _ hp.patches, Dict.setAll_idem _ _ hp.r, Dict.setAll_idem _ _ hp.s]
    · dsimp only; rw [upd_ne _ _ _ _ hk]
  · simp only [hc, Prod.mk.injEq, Comp.genReplace] at hg
    obtain ⟨h1, rfl⟩ := hg
    rcases he : (out (h id).stl_resolution).err with _ | e
    · simp only [he, upd_self, Comp.genReplace, hc]
      refine Prod.ext rfl ?_
      funext k
      by_cases hk : k = id
      · subst hk; simp only [upd_self]
      · dsimp only; rw [upd_ne _ _ _ _ hk]
    · simp [he] at h1
  · simp [hc] at hg

theorem genLeaf_eq_of (h : Heap) (id : ℕ) : Composite.genLeaf h id = ((Composite.genLeaf h id).1, h.upd id ((Composite.genLeaf h id).2 id)) := by
  refine Prod.ext rfl ?_
  funext k
  by_cases hk : k = id
  · subst hk; dsimp only; rw [upd_self]
  · dsimp only; rw [upd_ne _ _ _ _ hk, genLeaf_other _ _ _ hk]

theorem settled_iff (h : Heap) (id : ℕ) : Settled h id ↔ (Composite.genLeaf h id).1 = .ok () ∧ (Composite.genLeaf h id).2 id = h id := by
  unfold Settled
  rw [genLeaf_eq_of h id]
  constructor
  · intro e
    simp only [Prod.mk.injEq] at e
    refine ⟨e.1, ?_⟩
    have := congrFun e.2 id
    simpa only [upd_self] using this
  · rintro ⟨h1, h2⟩
    simp only [upd_self] at h1 h2
    refine Prod.ext h1 ?_
    rw [h2]
    exact upd_eq_self h id

theorem settled_congr (h h' : Heap) (id : ℕ) (e : h' id = h id) (hs : Settled h id) : Settled h' id := by
  rw [settled_iff] at hs ⊢
  obtain ⟨h1, h2⟩ := genLeaf_local h h' id e
  exact ⟨h1.trans hs.1, by rw [h2, e]; exact hs.2⟩

/-- After a successful generation of the children, generating them again changes nothing. -/
theorem genChildren_settled (l : List ℕ) (h h' : Heap) (hp : ∀ j ∈ l, ProperDicts (h j))
    (hg : Composite.genChildren h l = (.ok (), h')) :
    (∀ j ∈ l, Settled h' j) ∧ ∀ j, Settled h j → Settled h' j := by
  induction l generalizing h with
  | nil =>
    simp only [Composite.genChildren, Prod.mk.injEq, true_and] at hg
    subst hg
    exact ⟨by simp, fun _ h => h⟩
  | cons k ks ih =>
    unfold Composite.genChildren at hg
    rcases hk : Composite.genLeaf h k with ⟨x | x, h1⟩
    · rw [hk] at hg; simp at hg
    · rw [hk] at hg
      simp only at hg
      obtain ⟨i1, i2⟩ := ih h1 (fun j hj => by
        have := properDicts_genLeaf h k j (hp j (by simp [hj]))
        rw [hk] at this; exact this) hg
      have hs := settled_of_genLeaf h h1 k (hp k (by simp)) hk
      have keep : ∀ j, Settled h j → Settled h1 j := by
        intro j hj
        by_cases hjk : j = k
        · rw [hjk]; exact hs
        · refine settled_congr h h1 j ?_ hj
          have := genLeaf_other h k j hjk
          rw [hk] at this; exact this
      refine ⟨fun j hj => ?_, fun j hj => i2 j (keep j hj)⟩
      rcases List.mem_cons.1 hj with rfl | hj
      · exact i2 j hs
      · exact i1 j hj

theorem genChildren_of_settled (l : List ℕ) (h : Heap) (hs : ∀ j ∈ l, Settled h j) : Composite.genChildren h l = (.ok (), h) := by
  induction l with
  | nil => rfl
  | cons k ks ih =>
    unfold Composite.genChildren
    rw [hs k (by simp)]
    exact ih fun j hj => hs j (by simp [hj])

/-! ## C71 -/

/-- The transformation does not reflect. -/
def Spec.NoReflect (t : Transf) : Prop := ∀ a, t ≠ .reflect a

theorem applyTransf_keys (c c' : Comp) (t : Transf) (ht : NoReflect t) (h : c.applyTransf t = .ok c') :
    c'.patches.keys = c.patches.keys := by
  have hcurve : ∀ (l : List Curvature) (d : Dict String Surf), (l.foldl (fun (d : Dict String Surf) k =>
      d.mapVals fun _ p => CurvedPatch p (some k.direction) (some k.fn) (some k.fn_dash)) d).keys = d.keys := by
    intro l
    induction l with
    | nil => intro d; rfl
    | cons k l ih => intro d; rw [List.foldl_cons, ih, Dict.keys_mapVals]
  cases t with
  | rotate => cases h; simp [Comp.rotate]
  | translate => cases h; simp [Comp.translate]
  | reflect a => exact absurd rfl (ht a)
  | curve =>
    cases h
    unfold Comp.curve
    rcases c.curvatures with _ | l
    · rfl
    · exact hcurve l c.patches
  | applyModifier =>
    cases h
    unfold Comp.applyModifier
    rcases c.modifier with _ | l
    · rfl
    · simp
  | unknown => cases h

theorem applyAll_keys (ts : List Transf) (ht : ∀ t ∈ ts, NoReflect t) (c : Comp) :
    (c.applyAll ts).2.patches.keys = c.patches.keys := by
  induction ts generalizing c with
  | nil => rfl
  | cons t ts ih =>
    unfold Comp.applyAll
    rcases h : c.applyTransf t with x | c'
    · rfl
    · simp only
      rw [ih (fun t h => ht t (by simp [h])), applyTransf_keys c c' t (ht t (by simp)) h]

theorem pipeline_keys (angle : ℝ) (c : Comp) (ha : c.reflection_axis = none) (ht : ∀ t ∈ c.transformations, NoReflect t) :
    (pipeline angle c).2.patches.keys = c.patches.keys := by
  unfold pipeline Comp.transform
  obtain ⟨P1, e1⟩ := applyModifier_frame c
  obtain ⟨P2, e2⟩ := curve_frame c.applyModifier
  have h3 : (c.applyModifier.curve.rotate angle "y").reflection_axis = none := by
    unfold Comp.rotate; rw [e2, e1]; exact ha
  rw [C50_no_axis _ none h3 rfl, applyAll_keys _ (by
    unfold Comp.rotate; rw [e2, e1]; exact ht)]
  have h1 := applyTransf_keys (c.applyModifier.curve) _ (.rotate angle "y") (fun _ => by simp) rfl
  have h2 := applyTransf_keys (c.applyModifier) _ .curve (fun _ => by simp) rfl
  have h3 := applyTransf_keys c _ .applyModifier (fun _ => by simp) rfl
  rw [h1, h2, h3]

theorem genLeaf_wc (h h' : Heap) (id : ℕ) (s : Option (Dict String (TriMesh ℝ))) (m : Option StlMesh)
    (e : h' id = (h id).wc s m) : (Composite.genLeaf h' id).1 = (Composite.genLeaf h id).1 ∧
      (Composite.genLeaf h' id).2 id = ((Composite.genLeaf h id).2 id).wc s m := by
  have e1 : (h' id).gen = (h id).gen := by rw [e]; rfl
  unfold Composite.genLeaf
  rw [e1]
  rcases hg : (h id).gen with out | out | l
  · simp only [upd_self, e]
    exact ⟨rfl, rfl⟩
  · simp only [upd_self, e, Comp.genReplace]
    have : ((h id).wc s m).stl_resolution = (h id).stl_resolution := rfl
    rw [this]
    rcases (out (h id).stl_resolution).err with _ | x <;> exact ⟨rfl, rfl⟩
  · exact ⟨rfl, e⟩

theorem settled_wc (h h' : Heap) (id : ℕ) (s : Option (Dict String (TriMesh ℝ))) (m : Option StlMesh)
    (e : h' id = (h id).wc s m) (hs : Settled h id) : Settled h' id := by
  rw [settled_iff] at hs ⊢
  obtain ⟨h1, h2⟩ := genLeaf_wc h h' id s m e
  exact ⟨h1.trans hs.1, by rw [h2, hs.2, e]⟩

theorem mergedItems_patches (h h' : Heap) (l : List ℕ) (e : ∀ j ∈ l, (h' j).patches = (h j).patches) (ix : ℕ) :
    Composite.mergedItems h' ix l = Composite.mergedItems h ix l := by
  induction l generalizing ix with
  | nil => rfl
  | cons k ks ih =>
    rw [Composite.mergedItems, Composite.mergedItems, e k (by simp), ih (fun j hj => e j (by simp [hj]))]

/-- Generating a component again from the state it was left in gives the same own patches. -/
theorem generatePatches_again (h g h' : Heap) (k : ℕ) (hc : k ∉ (h k).children)
    (hf : (h k).children = [] → (h k).patches = [])
    (hp : ∀ j, j = k ∨ j ∈ (h k).children → ProperDicts (h j)) (hg : generatePatches h k = (.ok (), g))
    (hch : ∀ j ∈ (h k).children, ∃ s m, h' j = (g j).wc s m)
    (P : Dict String Surf) (hP : P.keys = (g k).patches.keys)
    (s : Option (Dict String (TriMesh ℝ))) (m : Option StlMesh) (hk : h' k = ({ g k with patches := P } : Comp).wc s m) :
    ∃ g', generatePatches h' k = (.ok (), g') ∧ g' k = (g k).wc s m := by
  have ek : (h' k).gen = (g k).gen := by rw [hk]; rfl
  have egk : (g k).gen = (h k).gen := by
    have := generatePatches_gen h k k
    rw [hg] at this; exact this
  have er : (h' k).stl_resolution = (g k).stl_resolution := by rw [hk]; rfl
  have ek' := ek.trans egk
  clear ek egk
  unfold generatePatches at hg ⊢
  rw [ek']
  rcases hgen : (h k).gen with out | out | ch <;> rw [hgen] at ek'
  · have hnil : (h k).patches = [] := hf (by simp [Comp.children, hgen])
    simp only [hgen, Composite.genLeaf, Prod.mk.injEq] at hg
    obtain ⟨h1, rfl⟩ := hg
    simp only [upd_self, hnil, Comp.genInto] at hP hk h1 er
    simp only [Composite.genLeaf, ek', Comp.genInto, er]
    refine ⟨_, Prod.ext h1 rfl, ?_⟩
    rw [upd_self, upd_self, hk]
    unfold Comp.wc
    dsimp only
    have hkp := hp k (.inl rfl)
    rw [Dict.setAll_over _ _ hP, Dict.setAll_idem _ _ hkp.r, Dict.setAll_idem _ _ hkp.s, hnil, hgen]
  · simp only [hgen, Composite.genLeaf, Prod.mk.injEq, Comp.genReplace] at hg
    obtain ⟨h1, rfl⟩ := hg
    rcases he : (out (h k).stl_resolution).err with _ | e
    · simp only [upd_self, he] at hP hk h1 er
      simp only [Composite.genLeaf, ek', Comp.genReplace, er, he]
      refine ⟨_, rfl, ?_⟩
      rw [upd_self, upd_self, hk]
      rfl
    · simp [he] at h1
  · have hkc : k ∉ ch := by simpa [Comp.children, hgen] using hc
    have hch' : ∀ j ∈ ch, ∃ s m, h' j = (g j).wc s m := by simpa [Comp.children, hgen] using hch
    simp only [hgen] at hg ⊢
    unfold Composite.generatePatches at hg ⊢
    rcases hx : Composite.genChildren h ch with ⟨x | x, g0⟩
    · rw [hx] at hg; simp at hg
    · rw [hx] at hg
      simp only [Prod.mk.injEq, true_and] at hg
      subst hg
      obtain ⟨hs, -⟩ := genChildren_settled ch h g0 (fun j hj => hp j (.inr (by simpa [Comp.children, hgen] using hj))) hx
      have hne : ∀ j ∈ ch, j ≠ k := fun j hj e => hkc (e ▸ hj)
      have hs' : ∀ j ∈ ch, Settled h' j := by
        intro j hj
        obtain ⟨s, m, e⟩ := hch' j hj
        rw [upd_ne _ _ _ _ (hne j hj)] at e
        exact settled_wc g0 h' j s m e (hs j hj)
      rw [genChildren_of_settled ch h' hs']
      refine ⟨_, rfl, ?_⟩
      rw [upd_self, upd_self, mergedItems_patches g0 h' ch (fun j hj => by
        obtain ⟨s, m, e⟩ := hch' j hj
        rw [upd_ne _ _ _ _ (hne j hj)] at e
        rw [e]; rfl), hk, upd_self]
      rfl

theorem generatePatches_local_children (h h' : Heap) (id : ℕ) (e0 : h' id = h id) (hid : id ∉ (h id).children)
    (e : ∀ j ∈ (h id).children, h' j = h j) :
    ∀ j ∈ (h id).children, (generatePatches h' id).2 j = (generatePatches h id).2 j := by
  intro j hj
  have hne : j ≠ id := fun e => hid (e ▸ hj)
  unfold generatePatches
  rw [e0]
  unfold Comp.children at e hj
  rcases hg : (h id).gen with out | out | ch
  · rw [hg] at hj; simp at hj
  · rw [hg] at hj; simp at hj
  · rw [hg] at e hj
    simp only at e hj ⊢
    obtain ⟨h1, h2⟩ := genChildren_local h h' ch (fun j => j = id ∨ j ∈ ch) (fun j hj => .inr hj) (by
      rintro j (rfl | hj)
      · exact e0
      · exact e j hj)
    unfold Composite.generatePatches
    rcases ha : Composite.genChildren h' ch with ⟨x, g'⟩
    rcases hb : Composite.genChildren h ch with ⟨y, g⟩
    rw [ha, hb] at h1 h2
    simp only at h1 h2
    subst h1
    rcases x with _ | _
    · exact h2 j (.inr hj)
    · simp only
      rw [upd_ne _ _ _ _ hne, upd_ne _ _ _ _ hne]
      exact h2 j (.inr hj)

theorem genAll_children (angle : ℝ) (h : Heap) (ks : List ℕ) (hu : Unshared h ks) (h' : Heap)
    (hg : genAll angle h ks = (.ok (), h')) :
    ∀ k ∈ ks, ∀ j ∈ (h k).children, h' j = (generatePatches h k).2 j := by
  induction ks generalizing h with
  | nil => intro k hk; simp at hk
  | cons k0 ks ih =>
    unfold genAll at hg
    have hgen := genOne_gen angle h k0
    have hfr := fun j => genOne_frame angle h k0 j
    rcases he : genOne angle h k0 with ⟨_ | _, h1⟩
    · rw [he] at hg; simp at hg
    · rw [he] at hg hgen hfr
      simp only at hg hgen hfr
      have hu1 : Unshared h1 ks := unshared_congr hgen (unshared_tail hu)
      have hnd := List.nodup_cons.1 hu.nodup
      intro k hk j hj
      rcases List.mem_cons.1 hk with rfl | hk
      · have hjk : j ≠ k := fun e => hu.notChild k (by simp) k (by simp) (e ▸ hj)
        have hjks : j ∉ ks := fun hjs => hu.notChild j (by simp [hjs]) k (by simp) hj
        have ho := genAll_other angle h1 ks j hjks (fun a ha => by
          rw [children_congr (hgen a)]
          exact hu.disjoint k (by simp) a (by simp [ha]) (fun e => hnd.1 (e ▸ ha)) j hj)
        rw [hg] at ho
        simp only at ho
        rw [ho]
        rw [genOne_eq] at he
        rcases hp : generatePatches h k with ⟨_ | _, g⟩
        · rw [hp] at he; simp at he
        · rw [hp] at he
          simp only [Prod.mk.injEq] at he
          rw [← he.2, upd_ne _ _ _ _ hjk]
      · have hne : k ≠ k0 := fun e => hnd.1 (e ▸ hk)
        have e0 : h1 k = h k := hfr k hne (hu.notChild k (by simp [hk]) k0 (by simp))
        have ec : ∀ j ∈ (h k).children, h1 j = h j := fun j hj => hfr j
          (fun e => hu.notChild k0 (by simp) k (by simp [hk]) (e ▸ hj))
          (fun hj' => hu.disjoint k (by simp [hk]) k0 (by simp) hne j hj hj')
        rw [ih h1 hu1 hg k hk j (by rw [e0]; exact hj)]
        exact generatePatches_local_children h h1 k e0 (hu.notChild k (by simp [hk]) k (by simp [hk])) ec j hj

theorem genAll_ok (angle : ℝ) (h : Heap) (ks : List ℕ) (hu : Unshared h ks)
    (hk : ∀ k ∈ ks, ∃ g, generatePatches h k = (.ok (), g) ∧ (pipeline angle (g k)).1 = .ok ()) :
    ∃ h', genAll angle h ks = (.ok (), h') := by
  induction ks generalizing h with
  | nil => exact ⟨h, rfl⟩
  | cons k0 ks ih =>
    have hgen := genOne_gen angle h k0
    have hfr := fun j => genOne_frame angle h k0 j
    have hnd := List.nodup_cons.1 hu.nodup
    obtain ⟨g, hg, hp⟩ := hk k0 (by simp)
    have he : genOne angle h k0 = (.ok (), g.upd k0 (pipeline angle (g k0)).2) := by
      rw [genOne_eq, hg]
      simp only [hp]
    unfold genAll
    rw [he] at hgen hfr ⊢
    simp only at hgen hfr ⊢
    refine ih _ (unshared_congr hgen (unshared_tail hu)) fun k hkk => ?_
    have hne : k ≠ k0 := fun e => hnd.1 (e ▸ hkk)
    obtain ⟨g', hg', hp'⟩ := hk k (by simp [hkk])
    obtain ⟨l1, l2⟩ := generatePatches_local h (g.upd k0 (pipeline angle (g k0)).2) k
      (hfr k hne (hu.notChild k (by simp [hkk]) k0 (by simp))) (fun j hj => hfr j
          (fun e => hu.notChild k0 (by simp) k (by simp [hkk]) (e ▸ hj))
          (fun hj' => hu.disjoint k (by simp [hkk]) k0 (by simp) hne j hj hj'))
    rw [hg'] at l1 l2
    refine ⟨(generatePatches (g.upd k0 (pipeline angle (g k0)).2) k).2, Prod.ext l1 rfl, ?_⟩
    rw [l2]; exact hp'

namespace Spec

/-- The component can be generated again: it does not reflect, a leaf component has no patches to begin with, and its
dictionaries and those of its children have distinct keys. -/
structure Repeatable (h : Heap) (k : ℕ) : Prop where
  axis : (h k).reflection_axis = none
  transformations : ∀ t ∈ (h k).transformations, NoReflect t
  fresh : (h k).children = [] → (h k).patches = []
  proper : ∀ j, j = k ∨ j ∈ (h k).children → ProperDicts (h j)

end Spec

theorem transformed_frame (vts : List Transf) (ks : List ℕ) (hn : ks.Nodup) (h1 h2 : Heap)
    (ht : (vts = [] ∧ h2 = h1) ∨ (vts ≠ [] ∧ transformAll h1 vts ks = (.ok (), h2))) :
    (∀ j, j ∉ ks → h2 j = h1 j) ∧ ∀ k ∈ ks, ∃ s m, h2 k = ((h1 k).applyAll vts).2.wc s m ∧
      (vts = [] → s = (h1 k).surfaces ∧ m = (h1 k).mesh_) ∧ (vts ≠ [] → s = none ∧ m = none) := by
  rcases ht with ⟨rfl, rfl⟩ | ⟨hv, ht⟩
  · exact ⟨fun _ _ => rfl, fun k _ => ⟨_, _, rfl, fun _ => ⟨rfl, rfl⟩, fun h => absurd rfl h⟩⟩
  · obtain ⟨a, b⟩ := transformAll_spec _ _ _ hn _ ht
    refine ⟨b, fun k hk => ?_⟩
    obtain ⟨c, hc, e⟩ := a k hk
    exact ⟨none, none, by rw [hc]; exact e, fun h => absurd h hv, fun _ => ⟨rfl, rfl⟩⟩

/-- The state of a component after one successful `generate`: own patches, then the further steps. -/
theorem generate_component (lib : Lib) (depth : ℕ) (st st1 : VState) (hu : Unshared st.heap st.veh.components)
    (h : generate lib depth st = (.ok (), st1)) (k : ℕ) (hk : k ∈ st.veh.components) :
    ∃ g, generatePatches st.heap k = (.ok (), g) ∧ (pipeline st.veh.angleOffset (g k)).1 = .ok () ∧
      (((pipeline st.veh.angleOffset (g k)).2).applyAll st.veh.transformations).1 = .ok () ∧
      (∃ s m, st1.heap k = (((pipeline st.veh.angleOffset (g k)).2).applyAll st.veh.transformations).2.wc s m) ∧
      ∀ j ∈ (st.heap k).children, ∃ s m, st1.heap j = (g j).wc s m := by
  obtain ⟨h1, h2, hg, ht, -, hc, -⟩ := generate_steps lib depth st st1 h
  obtain ⟨g, hgp, hpl⟩ := genAll_spec _ _ _ hu _ hg k hk
  obtain ⟨t1, t2⟩ := transformed_frame _ _ hu.nodup _ _ ht
  obtain ⟨s, m, e, -⟩ := t2 k hk
  obtain ⟨s', m', e'⟩ := hc k
  refine ⟨g, hgp, by rw [hpl], ?_, ⟨s', m', ?_⟩, ?_⟩
  · rw [hpl]
    rcases ht with ⟨a, b⟩ | ⟨a, b⟩
    · rw [a]; rfl
    · exact transformAll_ok_inv _ _ _ _ b (List.ne_nil_of_mem hk) _
  · rw [hpl, e', e]; rfl
  · intro j hj
    have hjk : j ∉ st.veh.components := fun h => hu.notChild j h k hk hj
    obtain ⟨s, m, e⟩ := hc j
    refine ⟨s, m, ?_⟩
    rw [e, t1 j hjk, genAll_children _ _ _ hu _ hg k hk j hj, hgp]
    rfl

theorem generate_gen (lib : Lib) (depth : ℕ) (st st1 : VState) (hn : st.veh.components.Nodup)
    (h : generate lib depth st = (.ok (), st1)) (j : ℕ) : (st1.heap j).gen = (st.heap j).gen := by
  obtain ⟨h1, h2, hg, ht, -, hc, -⟩ := generate_steps lib depth st st1 h
  have hall : ∀ (ks : List ℕ) (h : Heap), ((genAll st.veh.angleOffset h ks).2 j).gen = (h j).gen := by
    intro ks
    induction ks with
    | nil => intro h; rfl
    | cons k ks ih =>
      intro h
      unfold genAll
      have := genOne_gen st.veh.angleOffset h k j
      rcases he : genOne st.veh.angleOffset h k with ⟨_ | _, h1⟩
      · rw [he] at this; exact this
      · rw [he] at this; simp only at this ⊢; rw [ih]; exact this
  have e1 := hall st.veh.components st.heap
  rw [hg] at e1
  simp only at e1
  obtain ⟨t1, t2⟩ := transformed_frame _ _ hn _ _ ht
  obtain ⟨s, m, e⟩ := hc j
  rw [e, ← e1]
  by_cases hj : j ∈ st.veh.components
  · obtain ⟨s, m, e, -⟩ := t2 j hj
    obtain ⟨P, eP⟩ := applyAll_frame st.veh.transformations (h1 j)
    rw [e, eP]; rfl
  · rw [t1 j hj]

/-- What a second `generate` does to a component, whether or not an analysis follows. -/
theorem generate_again (lib : Lib) (depth : ℕ) (st st1 : VState) (hu : Unshared st.heap st.veh.components)
    (hr : ∀ k ∈ st.veh.components, Repeatable st.heap k) (hv : ∀ t ∈ st.veh.transformations, NoReflect t)
    (h1 : generate lib depth st = (.ok (), st1)) (k : ℕ) (hk : k ∈ st.veh.components) :
    ∃ g g' s m, generatePatches st.heap k = (.ok (), g) ∧ generatePatches st1.heap k = (.ok (), g') ∧ g' k = (g k).wc s m ∧
      s = (st1.heap k).surfaces ∧ m = (st1.heap k).mesh_ := by
  obtain ⟨g, hg, hp, hpv, ⟨s, m, e⟩, hch⟩ := generate_component lib depth st st1 hu h1 k hk
  have r := hr k hk
  have hkc := hu.notChild k hk k hk
  obtain ⟨P, R, S, eo⟩ := generatePatches_opts st.heap k hkc
  rw [hg] at eo
  simp only at eo
  set c := (((pipeline st.veh.angleOffset (g k)).2).applyAll st.veh.transformations).2 with hc
  have hkeys : c.patches.keys = (g k).patches.keys := by
    rw [hc, applyAll_keys _ hv, pipeline_keys]
    · rw [eo]; exact r.axis
    · rw [eo]; exact r.transformations
  obtain ⟨P1, e1⟩ := pipeline_frame st.veh.angleOffset (g k)
  obtain ⟨P2, e2⟩ := applyAll_frame st.veh.transformations (pipeline st.veh.angleOffset (g k)).2
  have ec : c = { g k with patches := c.patches } := by rw [hc, e2, e1]
  obtain ⟨g', hg', eg'⟩ := generatePatches_again st.heap g st1.heap k hkc r.fresh r.proper hg hch c.patches hkeys s m
    (by rw [e]; conv_lhs => rw [ec])
  exact ⟨g, g', s, m, hg, hg', eg', by rw [e]; rfl, by rw [e]; rfl⟩

/-- C71, patches: if components are distinct objects that do not reflect, a second successful `generate` gives the same
patches as the first one.  Missing: reflected components, see `C71_violated`. -/
theorem C71_patches_partial (lib : Lib) (depth : ℕ) (st st1 st2 : VState) (hu : Unshared st.heap st.veh.components)
    (hr : ∀ k ∈ st.veh.components, Repeatable st.heap k) (hv : ∀ t ∈ st.veh.transformations, NoReflect t)
    (h1 : generate lib depth st = (.ok (), st1)) (h2 : generate lib depth st1 = (.ok (), st2)) :
    ∀ k ∈ st.veh.components, (st2.heap k).patches = (st1.heap k).patches := by
  intro k hk
  obtain ⟨-, -, -, -, -, -, a, b, ev⟩ := generate_steps lib depth st st1 h1
  obtain ⟨g, g', s, m, hg, hg', eg, -, -⟩ := generate_again lib depth st st1 hu hr hv h1 k hk
  obtain ⟨x, hx, -, -, ⟨s1, m1, e1⟩, -⟩ := generate_component lib depth st st1 hu h1 k hk
  have hu1 : Unshared st1.heap st1.veh.components := by
    rw [ev]; exact unshared_congr (generate_gen lib depth st st1 hu.nodup h1) hu
  obtain ⟨y, hy, -, -, ⟨s2, m2, e2⟩, -⟩ := generate_component lib depth st1 st2 hu1 h2 k (by rw [ev]; exact hk)
  rw [hg] at hx
  rw [hg'] at hy
  cases hx
  cases hy
  rw [ev, eg, pipeline_wc] at e2
  dsimp only at e2
  rw [applyAll_wc] at e2
  rw [e2, e1]
  rfl

/-- C71, without an analysis at the end of `generate`: a second `generate` succeeds and leaves every component as it was
after the first, so that patches, meshes and options are the same. -/
theorem C71_partial (lib : Lib) (depth : ℕ) (st st1 : VState) (hu : Unshared st.heap st.veh.components)
    (hr : ∀ k ∈ st.veh.components, Repeatable st.heap k) (hv : ∀ t ∈ st.veh.transformations, NoReflect t)
    (hd : st.veh.analyseOn = none) (h1 : generate lib depth st = (.ok (), st1)) :
    ∃ st2, generate lib depth st1 = (.ok (), st2) ∧ st2.veh = st1.veh ∧
      ∀ k ∈ st.veh.components, st2.heap k = st1.heap k ∧ (st2.heap k).mesh = (st1.heap k).mesh := by
  obtain ⟨g1, g2, hg, ht, han, -, a, b, ev⟩ := generate_steps lib depth st st1 h1
  have hst1 : st1 = ⟨g2, { st.veh with generated := true }⟩ := by
    have : genAnalyse (analyse lib depth) ⟨g2, { st.veh with generated := true }⟩ =
        (.ok (), ⟨g2, { st.veh with generated := true }⟩) := by
      simp [genAnalyse, hd]
    rw [this] at han
    cases han
    rfl
  have hu1 : Unshared st1.heap st1.veh.components := by
    rw [ev]; exact unshared_congr (generate_gen lib depth st st1 hu.nodup h1) hu
  have hv1 : st1.veh = { st.veh with generated := true } := by rw [hst1]
  have hall : ∀ k ∈ st.veh.components, ∃ g g', generatePatches st.heap k = (.ok (), g) ∧
      generatePatches st1.heap k = (.ok (), g') ∧ g' k = (g k).wc (st1.heap k).surfaces (st1.heap k).mesh_ := by
    intro k hk
    obtain ⟨g, g', s, m, hg, hg', eg, rfl, rfl⟩ := generate_again lib depth st st1 hu hr hv h1 k hk
    exact ⟨g, g', hg, hg', eg⟩
  obtain ⟨f1, hf1⟩ := genAll_ok st1.veh.angleOffset st1.heap st1.veh.components hu1 (by
    intro k hk
    rw [hv1] at hk ⊢
    obtain ⟨g, g', hg, hg', eg⟩ := hall k hk
    obtain ⟨x, hx, hp, -, -, -⟩ := generate_component lib depth st st1 hu h1 k hk
    rw [hg] at hx
    cases hx
    exact ⟨g', hg', by rw [eg, pipeline_wc]; exact hp⟩)
  have hT : ∃ f2, (st1.veh.transformations = [] ∧ f2 = f1) ∨ (st1.veh.transformations ≠ [] ∧
      transformAll f1 st1.veh.transformations st1.veh.components = (.ok (), f2)) := by
    rw [hv1]
    rcases ht with ⟨x, _⟩ | ⟨x, hx⟩
    · exact ⟨f1, .inl ⟨x, rfl⟩⟩
    · by_cases hne : st.veh.components = []
      · refine ⟨f1, .inr ⟨x, ?_⟩⟩
        show transformAll f1 st.veh.transformations st.veh.components = _
        rw [hne]; rfl
      · obtain ⟨f2, hf2⟩ := transformAll_ok f1 st.veh.transformations st.veh.components
          (transformAll_ok_inv _ _ _ _ hx hne)
        exact ⟨f2, .inr ⟨x, hf2⟩⟩
  obtain ⟨f2, hf2⟩ := hT
  have hgen : generate lib depth st1 = (.ok (), ⟨f2, st1.veh⟩) := by
    unfold generate generateWith
    rw [hf1]
    have e1 : ({ st1.veh with generated := true } : Veh) = st1.veh := by rw [hv1]
    rw [e1]
    have e2 : genTransform ⟨f1, st1.veh⟩ = (.ok (), ⟨f2, st1.veh⟩) := by
      rcases hf2 with ⟨x, y⟩ | ⟨x, y⟩
      · simp [genTransform, x, y]
      · have : st1.veh.generated = true := by rw [hv1]
        simp [genTransform, x, y, transform, this, TransfArg.toList]
    simp only [e2]
    have : st1.veh.analyseOn = none := by rw [hv1]; exact hd
    simp [genAnalyse, this]
  refine ⟨_, hgen, rfl, ?_⟩
  intro k hk
  suffices f2 k = st1.heap k by dsimp only; rw [this]; exact ⟨rfl, rfl⟩
  obtain ⟨g, g', hg0, hg', eg⟩ := hall k hk
  obtain ⟨x, hx, hpx⟩ := genAll_spec _ _ _ hu _ hg k hk
  obtain ⟨y, hy, hpy⟩ := genAll_spec _ _ _ hu1 _ hf1 k (by rw [hv1]; exact hk)
  rw [hg0] at hx
  rw [hg'] at hy
  cases hx
  cases hy
  rw [eg, pipeline_wc, hv1] at hpy
  dsimp only at hpy
  rw [hpx] at hpy
  simp only [Prod.mk.injEq, true_and] at hpy
  obtain ⟨-, t2⟩ := transformed_frame _ _ hu.nodup _ _ ht
  rw [hv1] at hf2
  obtain ⟨-, u2⟩ := transformed_frame _ _ hu.nodup _ _ hf2
  obtain ⟨s, m, e, z1, z2⟩ := t2 k hk
  obtain ⟨s', m', e', z1', z2'⟩ := u2 k hk
  have eg2 : st1.heap k = g2 k := by rw [hst1]
  rw [eg2] at hpy ⊢
  rw [e', e, ← hpy, applyAll_wc]
  by_cases hnil : st.veh.transformations = []
  · obtain ⟨rfl, rfl⟩ := z1' hnil
    obtain ⟨rfl, rfl⟩ := z1 hnil
    rw [← hpy, e]
    rfl
  · obtain ⟨rfl, rfl⟩ := z2' hnil
    obtain ⟨rfl, rfl⟩ := z2 hnil
    rfl

/-- A vehicle with a leaf component without reflection and a composite of two leaves. -/
noncomputable def demoAgain : VState :=
  ⟨fun k => if k = 1 then { componenttype := "composite", gen := .composite [2, 3] }
    else { demoGen with reflection_axis := none }, { components := [0, 1], transformations := CART3D }⟩

/-- The hypotheses of `C71_partial` and `C71_patches_partial` are met by a vehicle with a leaf and a composite component. -/
example : Unshared demoAgain.heap demoAgain.veh.components ∧ (∀ k ∈ demoAgain.veh.components, Repeatable demoAgain.heap k) ∧
    (∀ t ∈ demoAgain.veh.transformations, NoReflect t) ∧ demoAgain.veh.analyseOn = none ∧
    ∃ st1, generate ⟨fun _ _ => .error .exc, fun _ => 0⟩ 0 demoAgain = (.ok (), st1) := by
  have c0 : (demoAgain.heap 0).children = [] := rfl
  have c1 : (demoAgain.heap 1).children = [2, 3] := rfl
  refine ⟨⟨by decide, ?_, ?_⟩, ?_, ?_, rfl, _, rfl⟩
  · intro k hk k' hk'
    have : ∀ j, j ∈ demoAgain.veh.components → j = 0 ∨ j = 1 := by simp [demoAgain]
    rcases this k hk with rfl | rfl <;> rcases this k' hk' with rfl | rfl <;> simp [c0, c1]
  · intro k hk k' hk'
    have : ∀ j, j ∈ demoAgain.veh.components → j = 0 ∨ j = 1 := by simp [demoAgain]
    rcases this k hk with rfl | rfl <;> rcases this k' hk' with rfl | rfl <;> simp [c0, c1]
  · intro k hk
    have : ∀ j, j ∈ demoAgain.veh.components → j = 0 ∨ j = 1 := by simp [demoAgain]
    have hp : ∀ j, ProperDicts (demoAgain.heap j) := by
      intro j
      by_cases hj : j = 1
      · subst hj; exact ⟨by simp [demoAgain], by simp [demoAgain], by simp [demoAgain]⟩
      · exact ⟨by simp [demoAgain, hj, demoGen], by simp [demoAgain, hj, demoGen], by simp [demoAgain, hj, demoGen]⟩
    rcases this k hk with rfl | rfl
    · exact ⟨rfl, by simp [demoAgain, demoGen, NoReflect], fun _ => rfl, fun j _ => hp j⟩
    · exact ⟨rfl, by simp [demoAgain], fun _ => rfl, fun j _ => hp j⟩
  · simp [demoAgain, CART3D, NoReflect]

/-- C71 fails for a component with an appended reflection: the second `generate` mirrors the mirrored patch of the first one,
so that there are three patches instead of two. -/
theorem C71_violated : ¬ ∀ (lib : Lib) (depth : ℕ) (st st1 st2 : VState), Unshared st.heap st.veh.components →
    generate lib depth st = (.ok (), st1) → generate lib depth st1 = (.ok (), st2) →
    ∀ k ∈ st.veh.components, (st2.heap k).patches.map Prod.fst = (st1.heap k).patches.map Prod.fst := by
  intro H
  have h := H ⟨fun _ _ => .error .exc, fun _ => 0⟩ 0 demoGenVehicle _ _ demoGen_unshared rfl rfl 0 (by decide)
  have e : ["a", "a_mirrored", "a_mirrored_mirrored"] = ["a", "a_mirrored"] := h
  simp at e

end HV
