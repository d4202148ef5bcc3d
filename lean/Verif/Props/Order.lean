import Verif.Props.Examples
import Verif.Props.Wedge
import Verif.Props.Inertia
import Verif.Props.Regenerate
import Verif.Props.VehicleGen
import Verif.Lemmas.GenerateTotal

/-! C152: the order in which named components are added to a vehicle. -/

namespace HV
open Spec Veh

namespace Spec

/-- The same results; the entries of the components in any order. -/
structure SameAnalysis (a b : Analysis) : Prop where
  volume : b.volume = a.volume
  mass : b.mass = a.mass
  area : b.area = a.area
  cog : b.cog = a.cog
  moi : b.moi = a.moi
  components : a.components.Perm b.components

/-- Neither is present or both are and are the same. -/
def SameResults : Option Analysis → Option Analysis → Prop
  | none, none => True
  | some a, some b => SameAnalysis a b
  | _, _ => False

/-- The same objects and settings, the components held in another order.  The counters and the enumerated names, which
number the components in the order of their addition, are left out. -/
structure Reordered (s t : VState) : Prop where
  heap : t.heap = s.heap
  components : s.veh.components.Perm t.veh.components
  named : s.veh.named.Perm t.veh.named
  name : t.veh.name = s.veh.name
  angle : t.veh.angleOffset = s.veh.angleOffset
  verbosity : t.veh.verbosity = s.veh.verbosity
  properties : t.veh.properties = s.veh.properties
  transformations : t.veh.transformations = s.veh.transformations
  analyseOn : t.veh.analyseOn = s.veh.analyseOn
  generated : t.veh.generated = s.veh.generated
  results : SameResults s.veh.analysisResults t.veh.analysisResults
  analysis : SameResults s.veh.analysis t.veh.analysis

/-- A component with the name and further options it is added with. -/
abbrev Addition := ℕ × String × AddOpts

end Spec

/-- `add_component(component, name=..., ...)` for each addition in turn, up to the first failure. -/
def addEach (st : VState) : List Addition → Res Unit × VState
  | [] => (.ok (), st)
  | a :: as => match addComponent st a.1 { a.2.2 with name := some a.2.1 } with
    | (.ok _, st') => addEach st' as
    | (.error e, st') => (.error e, st')

theorem Spec.SameAnalysis.refl (a : Analysis) : SameAnalysis a a := ⟨rfl, rfl, rfl, rfl, rfl, List.Perm.refl _⟩

theorem Spec.SameAnalysis.trans {a b c : Analysis} (h : SameAnalysis a b) (k : SameAnalysis b c) : SameAnalysis a c :=
  ⟨k.volume.trans h.volume, k.mass.trans h.mass, k.area.trans h.area, k.cog.trans h.cog, k.moi.trans h.moi, h.components.trans k.components⟩

theorem Spec.SameResults.refl (a : Option Analysis) : SameResults a a := by
  rcases a with _ | a
  · trivial
  · exact SameAnalysis.refl a

theorem Spec.SameResults.trans {a b c : Option Analysis} (h : SameResults a b) (k : SameResults b c) : SameResults a c := by
  rcases a with _ | a <;> rcases b with _ | b <;> rcases c with _ | c <;> simp only [SameResults] at h k ⊢
  exact SameAnalysis.trans h k

theorem Spec.Reordered.refl (s : VState) : Reordered s s :=
  ⟨rfl, List.Perm.refl _, List.Perm.refl _, rfl, rfl, rfl, rfl, rfl, rfl, rfl, SameResults.refl _, SameResults.refl _⟩

theorem Spec.Reordered.trans {s t u : VState} (h : Reordered s t) (k : Reordered t u) : Reordered s u :=
  ⟨k.heap.trans h.heap, h.components.trans k.components, h.named.trans k.named, k.name.trans h.name, k.angle.trans h.angle,
    k.verbosity.trans h.verbosity, k.properties.trans h.properties, k.transformations.trans h.transformations,
    k.analyseOn.trans h.analyseOn, k.generated.trans h.generated, SameResults.trans h.results k.results, SameResults.trans h.analysis k.analysis⟩

/-! ### Adding -/

/-- The state after adding a component of an allowable type under a new name. -/
def added (s : VState) (a : Addition) : VState :=
  ⟨s.heap.upd a.1 (withName (withOpts (s.heap a.1) s.veh.verbosity { a.2.2 with name := some a.2.1 }) { a.2.2 with name := some a.2.1 }),
    s.veh.record a.1 (s.heap a.1) { a.2.2 with name := some a.2.1 }⟩

theorem added_named {s : VState} {a : Addition} (h : a.2.1 ∉ Dict.keys s.veh.named) : (added s a).veh.named = s.veh.named ++ [(a.2.1, a.1)] :=
  Dict.set_not_mem _ _ _ h

theorem addNamed_eq (s : VState) (a : Addition) (h : (s.heap a.1).componenttype ∈ allowable) :
    addComponent s a.1 { a.2.2 with name := some a.2.1 } = (.ok (), added s a) := by
  unfold addComponent added
  rw [if_pos h]

theorem addNamed_ok {s s' : VState} {a : Addition} (h : addComponent s a.1 { a.2.2 with name := some a.2.1 } = (.ok (), s')) :
    (s.heap a.1).componenttype ∈ allowable ∧ s' = added s a := by
  unfold addComponent at h
  split_ifs at h with hc
  · simp only [Prod.mk.injEq, true_and] at h
    exact ⟨hc, h.symm⟩
  · cases h

theorem withOpts_type (c : Comp) (v : ℤ) (o : AddOpts) : (withName (withOpts c v o) o).componenttype = c.componenttype := by
  unfold withName
  rcases o.name with _ | n <;> exact (withOpts_rest c v o).1

theorem keys_perm {d d' : Dict String ℕ} (h : d.Perm d') : (Dict.keys d).Perm (Dict.keys d') := by
  unfold Dict.keys
  exact h.map _

theorem added_reordered {s t : VState} (h : Reordered s t) (a : Addition) (hn : a.2.1 ∉ Dict.keys s.veh.named) : Reordered (added s a) (added t a) := by
  have hn' : a.2.1 ∉ Dict.keys t.veh.named := fun hm => hn ((keys_perm h.named).mem_iff.2 hm)
  refine ⟨?_, ?_, ?_, h.name, h.angle, h.verbosity, h.properties, h.transformations, h.analyseOn, h.generated, h.results, h.analysis⟩
  · simp only [added, h.heap, h.verbosity]
  · simp only [added, record]
    exact h.components.append_right _
  · rw [added_named hn, added_named hn']
    exact h.named.append_right _

theorem added_type (s : VState) (a : Addition) (j : ℕ) : ((added s a).heap j).componenttype = (s.heap j).componenttype := by
  by_cases hj : j = a.1
  · subst hj
    simp only [added, upd_self]
    exact withOpts_type _ _ _
  · simp only [added]
    rw [upd_ne _ _ _ _ hj]

theorem added_swap (s : VState) (a b : Addition) (hid : a.1 ≠ b.1) (hab : a.2.1 ≠ b.2.1) (ha : a.2.1 ∉ Dict.keys s.veh.named)
    (hb : b.2.1 ∉ Dict.keys s.veh.named) : Reordered (added (added s a) b) (added (added s b) a) := by
  have hk : ∀ (x y : Addition), x.2.1 ∉ Dict.keys s.veh.named → y.2.1 ∉ Dict.keys s.veh.named → x.2.1 ≠ y.2.1 → y.2.1 ∉ Dict.keys (added s x).veh.named := by
    intro x y hx hy hxy hm
    rw [added_named hx] at hm
    simp only [Dict.keys, List.map_append, List.map_cons, List.map_nil, List.mem_append, List.mem_singleton] at hm
    rcases hm with hm | hm
    · exact hy hm
    · exact hxy hm.symm
  refine ⟨?_, ?_, ?_, rfl, rfl, rfl, rfl, rfl, rfl, rfl, SameResults.refl _, SameResults.refl _⟩
  · funext j
    simp only [added]
    by_cases h1 : j = a.1
    · subst h1
      rw [upd_self, upd_ne _ _ _ _ hid, upd_ne _ _ _ _ hid, upd_self]
      rfl
    · rw [upd_ne _ _ _ _ h1]
      by_cases h2 : j = b.1
      · subst h2
        rw [upd_self, upd_self, upd_ne _ _ _ _ (Ne.symm hid)]
        rfl
      · rw [upd_ne _ _ _ _ h2, upd_ne _ _ _ _ h2, upd_ne _ _ _ _ h1]
  · simp only [added, record, List.append_assoc]
    exact (List.Perm.swap _ _ _).append_left _
  · rw [added_named (hk a b ha hb hab), added_named (hk b a hb ha hab.symm), added_named ha, added_named hb]
    simp only [List.append_assoc]
    exact (List.Perm.swap _ _ _).append_left _

/-- The same additions to reordered states. -/
theorem addEach_congr : ∀ (as : List Addition) {s t s' : VState}, Reordered s t → (as.map fun a => a.2.1).Nodup → (∀ a ∈ as, a.2.1 ∉ Dict.keys s.veh.named) →
    addEach s as = (.ok (), s') → ∃ t', addEach t as = (.ok (), t') ∧ Reordered s' t'
  | [], s, t, s', h, _, _, H => by
    cases H
    exact ⟨t, rfl, h⟩
  | a :: as, s, t, s', h, hnd, hfr, H => by
    unfold addEach at H ⊢
    rcases hx : addComponent s a.1 { a.2.2 with name := some a.2.1 } with ⟨x | _, s1⟩ <;> rw [hx] at H
    · cases H
    obtain ⟨h1, rfl⟩ := addNamed_ok hx
    rw [addNamed_eq t a (by rw [h.heap]; exact h1)]
    have hnd' := List.nodup_cons.1 hnd
    refine addEach_congr as (added_reordered h a (hfr a (by simp))) hnd'.2 (fun b hb hm => ?_) H
    rw [added_named (hfr a (by simp))] at hm
    simp only [Dict.keys, List.map_append, List.map_cons, List.map_nil, List.mem_append, List.mem_singleton] at hm
    rcases hm with hm | hm
    · exact hfr b (by simp [hb]) hm
    · exact hnd'.1 (List.mem_map.2 ⟨b, hb, hm⟩)

theorem addEach_perm {as bs : List Addition} (hp : as.Perm bs) : ∀ {s s' : VState}, (as.map Prod.fst).Nodup → (as.map fun a => a.2.1).Nodup →
    (∀ a ∈ as, a.2.1 ∉ Dict.keys s.veh.named) → addEach s as = (.ok (), s') → ∃ t', addEach s bs = (.ok (), t') ∧ Reordered s' t' := by
  induction hp with
  | nil =>
    intro s s' _ _ _ H
    exact ⟨s', H, Reordered.refl _⟩
  | @cons a l l' _ ih =>
    intro s s' hid hnd hfr H
    unfold addEach at H ⊢
    rcases hx : addComponent s a.1 { a.2.2 with name := some a.2.1 } with ⟨x | _, s1⟩ <;> rw [hx] at H
    · cases H
    obtain ⟨h1, rfl⟩ := addNamed_ok hx
    have hnd' := List.nodup_cons.1 hnd
    refine ih (List.nodup_cons.1 hid).2 hnd'.2 (fun b hb hm => ?_) H
    rw [added_named (hfr a (by simp))] at hm
    simp only [Dict.keys, List.map_append, List.map_cons, List.map_nil, List.mem_append, List.mem_singleton] at hm
    rcases hm with hm | hm
    · exact hfr b (by simp [hb]) hm
    · exact hnd'.1 (List.mem_map.2 ⟨b, hb, hm⟩)
  | swap a b l =>
    intro s s' hid hnd hfr H
    simp only [List.map_cons, List.nodup_cons, List.mem_cons, not_or] at hid hnd
    have hfa := hfr a (by simp)
    have hfb := hfr b (by simp)
    unfold addEach at H ⊢
    rcases hx : addComponent s b.1 { b.2.2 with name := some b.2.1 } with ⟨x | _, s1⟩ <;> rw [hx] at H
    · cases H
    obtain ⟨h1, rfl⟩ := addNamed_ok hx
    unfold addEach at H ⊢
    dsimp only at H
    rcases hy : addComponent (added s b) a.1 { a.2.2 with name := some a.2.1 } with ⟨x | _, s1⟩ <;> rw [hy] at H
    · cases H
    obtain ⟨h2, rfl⟩ := addNamed_ok hy
    rw [added_type] at h2
    rw [addNamed_eq s a h2]
    dsimp only
    rw [addNamed_eq (added s a) b (by rw [added_type]; exact h1)]
    refine addEach_congr l (added_swap s b a hid.1.1 hnd.1.1 hfb hfa) hnd.2.2 (fun c hc hm => ?_) H
    have hfb' : a.2.1 ∉ Dict.keys (added s b).veh.named := by
      rw [added_named hfb]
      simp only [Dict.keys, List.map_append, List.map_cons, List.map_nil, List.mem_append, List.mem_singleton, not_or]
      exact ⟨hfa, fun e => hnd.1.1 e.symm⟩
    rw [added_named hfb', added_named hfb] at hm
    simp only [Dict.keys, List.map_append, List.map_cons, List.map_nil, List.mem_append, List.mem_singleton] at hm
    rcases hm with (hm | hm) | hm
    · exact hfr c (by simp [hc]) hm
    · exact hnd.1.2 (List.mem_map.2 ⟨c, hc, hm⟩)
    · exact hnd.2.1 (List.mem_map.2 ⟨c, hc, hm⟩)
  | @trans l1 l2 l3 p1 p2 ih1 ih2 =>
    intro s s' hid hnd hfr H
    obtain ⟨t, h1, h2⟩ := ih1 hid hnd hfr H
    obtain ⟨u, h3, h4⟩ := ih2 ((p1.map _).nodup_iff.1 hid) ((p1.map _).nodup_iff.1 hnd) (fun a ha => hfr a (p1.mem_iff.2 ha)) h1
    exact ⟨u, h3, h2.trans h4⟩

/-! ### Generating -/

theorem unshared_perm {h : Heap} {ks ks' : List ℕ} (hp : ks.Perm ks') (hu : Unshared h ks) : Unshared h ks' :=
  ⟨hp.nodup_iff.1 hu.nodup, fun k hk k' hk' => hu.notChild k (hp.mem_iff.2 hk) k' (hp.mem_iff.2 hk'), fun k hk k' hk' =>
    hu.disjoint k (hp.mem_iff.2 hk) k' (hp.mem_iff.2 hk')⟩

theorem genAll_perm {angle : ℝ} {h h' : Heap} {ks ks' : List ℕ} (hp : ks.Perm ks') (hu : Unshared h ks) (H : genAll angle h ks = (.ok (), h')) :
    genAll angle h ks' = (.ok (), h') := by
  have hu' := unshared_perm hp hu
  have hs := genAll_spec angle h ks hu h' H
  obtain ⟨g, hg⟩ := genAll_total angle h ks' hu' fun k hk => by
    obtain ⟨g, h1, h2⟩ := hs k (hp.mem_iff.2 hk)
    exact ⟨g, _, h1, h2⟩
  have hs' := genAll_spec angle h ks' hu' g hg
  rw [hg]
  congr 1
  funext j
  by_cases hj : j ∈ ks
  · obtain ⟨g1, h1, h2⟩ := hs j hj
    obtain ⟨g2, h3, h4⟩ := hs' j (hp.mem_iff.1 hj)
    rw [h1] at h3
    cases h3
    rw [h2] at h4
    exact (Prod.mk.inj h4).2.symm
  · by_cases hc : ∃ k ∈ ks, j ∈ (h k).children
    · obtain ⟨k, hk, hj'⟩ := hc
      rw [genAll_children angle h ks hu h' H k hk j hj', genAll_children angle h ks' hu' g hg k (hp.mem_iff.1 hk) j hj']
    · have hc1 : ∀ k ∈ ks, j ∉ (h k).children := fun k hk hm => hc ⟨k, hk, hm⟩
      have a1 := genAll_other angle h ks j hj hc1
      have a2 := genAll_other angle h ks' j (fun hm => hj (hp.mem_iff.2 hm)) fun k hk => hc1 k (hp.mem_iff.2 hk)
      rw [H] at a1
      rw [hg] at a2
      exact a2.trans a1.symm

theorem transformAll_perm {ts : List Transf} {h h' : Heap} {ks ks' : List ℕ} (hp : ks.Perm ks') (hn : ks.Nodup)
    (H : transformAll h ts ks = (.ok (), h')) : transformAll h ts ks' = (.ok (), h') := by
  have hn' := hp.nodup_iff.1 hn
  obtain ⟨a1, a2⟩ := transformAll_spec h ts ks hn h' H
  have hok : ∃ g, transformAll h ts ks' = (.ok (), g) := by
    rcases ks with _ | ⟨k, ks⟩
    · rw [List.nil_perm.1 hp]
      exact ⟨h, rfl⟩
    · exact transformAll_ok h ts ks' fun c => transformAll_ok_inv ts _ h h' H (by simp) c
  obtain ⟨g, hg⟩ := hok
  obtain ⟨b1, b2⟩ := transformAll_spec h ts ks' hn' g hg
  rw [hg]
  congr 1
  funext j
  by_cases hj : j ∈ ks
  · obtain ⟨c, h1, h2⟩ := a1 j hj
    obtain ⟨d, h3, h4⟩ := b1 j (hp.mem_iff.1 hj)
    rw [h1] at h3
    cases h3
    rw [h2, h4]
  · rw [a2 j hj, b2 j fun hm => hj (hp.mem_iff.2 hm)]

/-! ### Analysing -/

theorem assessOne_eq {lib : Lib} {dens : Dict String ℝ} {h : Heap} {e : String × ℕ} {M : StlMesh} {c : Comp} {ρ : ℝ} {q : MassProps}
    (h1 : (h e.2).mesh = (.ok M, c)) (h2 : dens.get e.1 = .ok ρ) (h3 : lib.massProps M ρ = .ok q) :
    assessOne lib dens h e = (.ok ⟨q, lib.area M⟩, h.upd e.2 c) := by
  unfold assessOne
  rw [h1]
  simp only [h2, h3, mesh_stable _ M c h1]

theorem assessOne_inv {lib : Lib} {dens : Dict String ℝ} {h h' : Heap} {e : String × ℕ} {p : CompProps} (H : assessOne lib dens h e = (.ok p, h')) :
    ∃ M c ρ q, (h e.2).mesh = (.ok M, c) ∧ dens.get e.1 = .ok ρ ∧ lib.massProps M ρ = .ok q ∧ p = ⟨q, lib.area M⟩ ∧ h' = h.upd e.2 c := by
  obtain ⟨M, c, ρ, h1, h2, h3, -, -⟩ := assessOne_reads H
  rw [assessOne_eq h1 h2 h3] at H
  simp only [Prod.mk.injEq, Except.ok.injEq] at H
  exact ⟨M, c, ρ, p.props, h1, h2, h3, H.1.symm, H.2.symm⟩

theorem assessOne_swap {lib : Lib} {dens : Dict String ℝ} {h h1 h2 : Heap} {a b : String × ℕ} {p q : CompProps}
    (H1 : assessOne lib dens h a = (.ok p, h1)) (H2 : assessOne lib dens h1 b = (.ok q, h2)) :
    ∃ g, assessOne lib dens h b = (.ok q, g) ∧ assessOne lib dens g a = (.ok p, h2) := by
  obtain ⟨M, c, ρ, m, a1, a2, a3, rfl, rfl⟩ := assessOne_inv H1
  obtain ⟨N, d, σ, n, b1, b2, b3, rfl, rfl⟩ := assessOne_inv H2
  by_cases hab : b.2 = a.2
  · rw [hab, upd_self, mesh_stable _ M c a1] at b1
    simp only [Prod.mk.injEq, Except.ok.injEq] at b1
    obtain ⟨rfl, rfl⟩ := b1
    refine ⟨_, assessOne_eq (by rw [hab]; exact a1) b2 b3, ?_⟩
    rw [hab]
    have h0 : (h.upd a.2 c a.2).mesh = (.ok M, c) := by
      rw [upd_self]
      exact mesh_stable _ M c a1
    exact assessOne_eq h0 a2 a3
  · rw [upd_ne _ _ _ _ hab] at b1
    refine ⟨_, assessOne_eq b1 b2 b3, ?_⟩
    have h0 : (h.upd b.2 d a.2).mesh = (.ok M, c) := by
      rw [upd_ne _ _ _ _ (Ne.symm hab)]
      exact a1
    rw [assessOne_eq h0 a2 a3]
    congr 1
    funext j
    by_cases h1 : j = a.2
    · subst h1
      rw [upd_self, upd_ne _ _ _ _ (Ne.symm hab), upd_self]
    · rw [upd_ne _ _ _ _ h1]
      by_cases h2 : j = b.2
      · subst h2
        rw [upd_self, upd_self]
      · rw [upd_ne _ _ _ _ h2, upd_ne _ _ _ _ h2, upd_ne _ _ _ _ h1]

theorem assessAll_cons_inv {lib : Lib} {dens : Dict String ℝ} {h h' : Heap} {e : String × ℕ} {es : List (String × ℕ)} {ps : List (String × CompProps)}
    (H : assessAll lib dens h (e :: es) = (.ok ps, h')) :
    ∃ p g qs, assessOne lib dens h e = (.ok p, g) ∧ assessAll lib dens g es = (.ok qs, h') ∧ ps = (e.1, p) :: qs := by
  unfold assessAll at H
  rcases h1 : assessOne lib dens h e with ⟨x | p, g⟩ <;> rw [h1] at H
  · cases H
  dsimp only at H
  rcases h2 : assessAll lib dens g es with ⟨x | qs, g'⟩ <;> rw [h2] at H
  · cases H
  simp only [Prod.mk.injEq, Except.ok.injEq] at H
  obtain ⟨rfl, rfl⟩ := H
  exact ⟨p, g, qs, rfl, h2, rfl⟩

theorem assessAll_cons {lib : Lib} {dens : Dict String ℝ} {h g h' : Heap} {e : String × ℕ} {es : List (String × ℕ)} {p : CompProps} {qs : List (String × CompProps)}
    (h1 : assessOne lib dens h e = (.ok p, g)) (h2 : assessAll lib dens g es = (.ok qs, h')) : assessAll lib dens h (e :: es) = (.ok ((e.1, p) :: qs), h') := by
  unfold assessAll
  rw [h1]
  simp only [h2]

theorem assessAll_perm {lib : Lib} {dens : Dict String ℝ} {l l' : List (String × ℕ)} (hp : l.Perm l') : ∀ {h h' : Heap} {ps : List (String × CompProps)},
    assessAll lib dens h l = (.ok ps, h') → ∃ qs, assessAll lib dens h l' = (.ok qs, h') ∧ ps.Perm qs := by
  induction hp with
  | nil =>
    intro h h' ps H
    exact ⟨ps, H, List.Perm.refl _⟩
  | cons e _ ih =>
    intro h h' ps H
    obtain ⟨p, g, qs, h1, h2, rfl⟩ := assessAll_cons_inv H
    obtain ⟨rs, h3, h4⟩ := ih h2
    exact ⟨_, assessAll_cons h1 h3, h4.cons _⟩
  | swap a b l =>
    intro h h' ps H
    obtain ⟨p, g, qs, h1, h2, rfl⟩ := assessAll_cons_inv H
    obtain ⟨q, k, rs, h3, h4, rfl⟩ := assessAll_cons_inv h2
    obtain ⟨g', h5, h6⟩ := assessOne_swap h1 h3
    exact ⟨_, assessAll_cons h5 (assessAll_cons h6 h4), List.Perm.swap _ _ _⟩
  | trans _ _ ih1 ih2 =>
    intro h h' ps H
    obtain ⟨qs, h1, h2⟩ := ih1 H
    obtain ⟨rs, h3, h4⟩ := ih2 h1
    exact ⟨rs, h3, h2.trans h4⟩

theorem foldl_perm {β : Type} (f : β → ℝ) {l l' : List β} (hp : l.Perm l') (x : ℝ) : l.foldl (fun a e => a + f e) x = l'.foldl (fun a e => a + f e) x :=
  haveI : RightCommutative (fun (a : ℝ) (e : β) => a + f e) := ⟨fun _ _ _ => add_right_comm _ _ _⟩
  hp.foldl_eq x

theorem summarise_perm {l l' : List (String × CompProps)} (hp : l.Perm l') {a : Analysis} (H : summarise l = .ok a) :
    ∃ b, summarise l' = .ok b ∧ SameAnalysis a b := by
  have hm := foldl_perm (fun e : String × CompProps => e.2.props.mass) hp 0
  have hv := foldl_perm (fun e : String × CompProps => e.2.props.volume) hp 0
  have ha := foldl_perm (fun e : String × CompProps => e.2.area) hp 0
  have hc : ∀ x : V, l.foldl (fun a e => a + e.2.props.cog * e.2.props.mass) x = l'.foldl (fun a e => a + e.2.props.cog * e.2.props.mass) x := by
    have : RightCommutative (fun (a : V) (e : String × CompProps) => a + e.2.props.cog * e.2.props.mass) := ⟨fun a b c => by
      ext <;> simp <;> ring⟩
    exact hp.foldl_eq
  have hi : ∀ g, compositeMoi l g = compositeMoi l' g := by
    intro g
    unfold compositeMoi
    have : RightCommutative (fun (a : Fin 3 → Fin 3 → ℝ) (e : String × CompProps) => fun i j => a i j + adjusted e.2.props g i j) :=
      ⟨fun a b c => by funext i j; exact add_right_comm _ _ _⟩
    exact hp.foldl_eq _
  have hcog : ∀ t, compositeCog l t = compositeCog l' t := by
    intro t
    rcases l with _ | ⟨e, l⟩
    · rw [List.nil_perm.1 hp]
    · rcases l' with _ | ⟨e', l'⟩
      · exact absurd hp.length_eq (by simp)
      · simp only [compositeCog, hc]
  unfold summarise at H ⊢
  dsimp only at H ⊢
  rw [← hm, ← hv, ← ha, ← hcog]
  rcases hx : compositeCog l (l.foldl (fun a e => a + e.2.props.mass) 0) with x | g <;> rw [hx] at H
  · cases H
  rw [hx]
  simp only [bind, Except.bind, pure, Except.pure, Except.ok.injEq] at H ⊢
  subst H
  refine ⟨_, rfl, rfl, rfl, rfl, rfl, ?_, hp⟩
  dsimp only
  rcases g with _ | g
  · rfl
  · simp only [Option.map_some, hi]

theorem analyseGenerated_perm {lib : Lib} {dens : Dict String ℝ} {s t s' : VState} {a : Analysis} (h : Reordered s t)
    (H : analyseGenerated lib s dens = (.ok a, s')) : ∃ b t', analyseGenerated lib t dens = (.ok b, t') ∧ SameAnalysis a b ∧ Reordered s' t' := by
  unfold analyseGenerated at H ⊢
  rcases h1 : assessAll lib dens s.heap s.veh.named with ⟨x | l, g⟩ <;> rw [h1] at H
  · cases H
  dsimp only at H
  rcases h2 : summarise l with x | a0 <;> rw [h2] at H
  · cases H
  simp only [Prod.mk.injEq, Except.ok.injEq] at H
  obtain ⟨rfl, rfl⟩ := H
  obtain ⟨qs, h3, h4⟩ := assessAll_perm h.named h1
  obtain ⟨b, h5, h6⟩ := summarise_perm h4 h2
  rw [h.heap, h3]
  simp only [h5]
  exact ⟨b, _, rfl, h6, rfl, h.components, h.named, h.name, h.angle, h.verbosity, h.properties, h.transformations, h.analyseOn, h.generated, h.results, h6⟩

theorem generate_perm {lib : Lib} {depth : ℕ} {s t s' : VState} (h : Reordered s t) (hu : Unshared s.heap s.veh.components)
    (H : generate lib depth s = (.ok (), s')) : ∃ t', generate lib depth t = (.ok (), t') ∧ Reordered s' t' := by
  unfold generate generateWith at H ⊢
  rcases h1 : genAll s.veh.angleOffset s.heap s.veh.components with ⟨x | _, g⟩ <;> rw [h1] at H
  · cases H
  dsimp only at H
  rw [h.heap, h.angle, genAll_perm h.components hu h1]
  dsimp only
  set s1 : VState := ⟨g, { s.veh with generated := true }⟩ with hs1
  set t1 : VState := ⟨g, { t.veh with generated := true }⟩ with ht1
  have hr : Reordered s1 t1 :=
    ⟨rfl, h.components, h.named, h.name, h.angle, h.verbosity, h.properties, h.transformations, h.analyseOn, rfl, h.results, h.analysis⟩
  have key : ∀ s2, genTransform s1 = (.ok (), s2) → s2.veh.generated = true ∧ ∃ t2, genTransform t1 = (.ok (), t2) ∧ Reordered s2 t2 := by
    intro s2 h2
    unfold genTransform at h2 ⊢
    rw [hr.transformations]
    split_ifs at h2 ⊢ with ht
    · cases h2
      exact ⟨rfl, t1, rfl, hr⟩
    · unfold transform at h2 ⊢
      rw [if_pos rfl] at h2 ⊢
      simp only [TransfArg.toList] at h2 ⊢
      rcases h3 : transformAll s1.heap s1.veh.transformations s1.veh.components with ⟨x | _, g'⟩ <;> rw [h3] at h2
      · cases h2
      cases h2
      have h4 : transformAll t1.heap s1.veh.transformations t1.veh.components = (.ok (), g') := transformAll_perm h.components hu.nodup h3
      rw [h4]
      exact ⟨rfl, _, rfl, rfl, h.components, h.named, h.name, h.angle, h.verbosity, h.properties, h.transformations, h.analyseOn, rfl, h.results, h.analysis⟩
  rcases h2 : genTransform s1 with ⟨x | _, s2⟩ <;> rw [h2] at H
  · cases H
  dsimp only at H
  obtain ⟨hgen, t2, h3, h4⟩ := key s2 h2
  rw [h3]
  dsimp only
  unfold genAnalyse at H ⊢
  rw [h4.analyseOn]
  rcases ho : s2.veh.analyseOn with _ | d <;> rw [ho] at H
  · cases H
    exact ⟨t2, rfl, h4⟩
  rcases d with _ | ⟨e, d⟩
  · cases H
    exact ⟨t2, rfl, h4⟩
  dsimp only at H ⊢
  rcases depth with _ | depth
  · simp only [analyse] at H
    cases H
  · rw [analyse_generated lib depth s2 _ hgen] at H
    rw [analyse_generated lib depth t2 _ (by rw [h4.generated]; exact hgen)]
    rcases h5 : analyseGenerated lib s2 (e :: d) with ⟨x | a, s3⟩ <;> rw [h5] at H
    · cases H
    cases H
    obtain ⟨b, t3, h6, h7, h8⟩ := analyseGenerated_perm h4 h5
    rw [h6]
    exact ⟨_, rfl, h8.heap, h8.components, h8.named, h8.name, h8.angle, h8.verbosity, h8.properties, h8.transformations, h8.analyseOn, h8.generated, h7, h8.analysis⟩

/-! ### Writing -/

/-- The file of a named component does not depend on the number of components written before. -/
theorem stlName_named {c : Comp} (hc : truthy c.name = true) (pre : Option String) (vname : String) (n m : ℕ) : stlName pre vname c n = stlName pre vname c m := by
  simp only [stlName, hc, if_true]

theorem toStl_stable {c c' : Comp} {f : String} {ev : Option (String × StlMesh)} (h : c.toStl (some f) = (.ok ev, c')) :
    c'.toStl (some f) = (.ok ev, c') ∧ c'.name = c.name ∧ c'.componenttype = c.componenttype := by
  unfold Comp.toStl at h
  split_ifs at h with hg
  · cases h
    simp [Comp.toStl, hg]
  · rcases hm : c.mesh with ⟨x | M, d⟩ <;> rw [hm] at h
    · cases h
    cases h
    obtain ⟨s, m, hf⟩ := mesh_frame c
    rw [hm] at hf
    dsimp only at hf
    have hs := mesh_stable _ M c' hm
    refine ⟨?_, by rw [hf], by rw [hf]⟩
    have hg' : c'.ghost ≠ true := by rw [hf]; exact hg
    simp only [Comp.toStl, hg', if_false, hs]
    rfl

theorem writeAll_cons_inv {pre : Option String} {vname : String} {no : Dict String ℕ} {h h' : Heap} {k : ℕ} {ks : List ℕ} {ev : List FsEv}
    (H : writeAll pre vname no h (k :: ks) = (.ok (), ev, h')) :
    ∃ o c no' ev', (h k).toStl (some (stlName pre vname (h k) ((no.get? (h k).componenttype).getD 0))) = (.ok o, c) ∧
      writeAll pre vname no' (h.upd k c) ks = (.ok (), ev', h') ∧ ev = stlEvent o ++ ev' := by
  unfold writeAll at H
  dsimp only at H
  rcases h1 : (h k).toStl (some (stlName pre vname (h k) ((no.get? (h k).componenttype).getD 0))) with ⟨x | o, c⟩ <;> rw [h1] at H
  · cases H
  simp only [Prod.mk.injEq] at H
  exact ⟨o, c, _, _, rfl, Prod.ext H.1 (Prod.ext rfl H.2.2), H.2.1.symm⟩

theorem writeAll_cons {pre : Option String} {vname : String} {h h' : Heap} {k : ℕ} {ks : List ℕ} {o : Option (String × StlMesh)} {c : Comp} {n : ℕ}
    {ev : Dict String ℕ → List FsEv} (no : Dict String ℕ) (hn : truthy (h k).name = true) (h1 : (h k).toStl (some (stlName pre vname (h k) n)) = (.ok o, c))
    (h2 : ∀ no', writeAll pre vname no' (h.upd k c) ks = (.ok (), ev no', h')) : ∃ no', writeAll pre vname no h (k :: ks) = (.ok (), stlEvent o ++ ev no', h') := by
  unfold writeAll
  dsimp only
  rw [stlName_named hn pre vname _ n, h1]
  dsimp only
  rw [h2]
  exact ⟨_, rfl⟩

theorem toStl_upd_named {h : Heap} {k : ℕ} {c : Comp} {f : String} {o : Option (String × StlMesh)} (h1 : (h k).toStl (some f) = (.ok o, c)) (j : ℕ) :
    (h.upd k c j).name = (h j).name := by
  by_cases hj : j = k
  · subst hj
    rw [upd_self]
    exact (toStl_stable h1).2.1
  · rw [upd_ne _ _ _ _ hj]

/-- The counters have no influence when every component has a name. -/
theorem writeAll_counters {pre : Option String} {vname : String} : ∀ (ks : List ℕ) {no : Dict String ℕ} {h h' : Heap} {ev : List FsEv},
    (∀ k ∈ ks, truthy (h k).name = true) → writeAll pre vname no h ks = (.ok (), ev, h') → ∀ no', writeAll pre vname no' h ks = (.ok (), ev, h')
  | [], no, h, h', ev, _, H, no' => H
  | k :: ks, no, h, h', ev, hn, H, no' => by
    obtain ⟨o, c, no1, ev', h1, h2, rfl⟩ := writeAll_cons_inv H
    have := writeAll_counters ks (fun j hj => by rw [toStl_upd_named h1]; exact hn j (by simp [hj])) h2
    exact (writeAll_cons no' (ev := fun _ => ev') (hn k (by simp)) h1 this).choose_spec

theorem writeAll_perm {pre : Option String} {vname : String} {ks ks' : List ℕ} (hp : ks.Perm ks') : ∀ {no : Dict String ℕ} {h h' : Heap} {ev : List FsEv},
    (∀ k ∈ ks, truthy (h k).name = true) → writeAll pre vname no h ks = (.ok (), ev, h') →
    ∃ ev', (∀ no', writeAll pre vname no' h ks' = (.ok (), ev', h')) ∧ ev.Perm ev' := by
  induction hp with
  | nil =>
    intro no h h' ev hn H
    exact ⟨ev, fun no' => H, List.Perm.refl _⟩
  | @cons k l l' _ ih =>
    intro no h h' ev hn H
    obtain ⟨o, c, no1, ev', h1, h2, rfl⟩ := writeAll_cons_inv H
    obtain ⟨ev2, h3, h4⟩ := ih (fun j hj => by rw [toStl_upd_named h1]; exact hn j (by simp [hj])) h2
    exact ⟨stlEvent o ++ ev2, fun no' => (writeAll_cons no' (ev := fun _ => ev2) (hn k (by simp)) h1 h3).choose_spec, h4.append_left _⟩
  | swap a b l =>
    intro no h h' ev hn H
    obtain ⟨o, c, no1, ev', h1, h2, rfl⟩ := writeAll_cons_inv H
    obtain ⟨o2, d, no2, ev2, h3, h4, rfl⟩ := writeAll_cons_inv h2
    have hna := hn a (by simp)
    have hnb := hn b (by simp)
    by_cases hab : a = b
    · subst hab
      exact ⟨_, writeAll_counters _ hn H, List.Perm.refl _⟩
    · rw [upd_ne _ _ _ _ hab] at h3
      have hu : (h.upd a d).upd b c = (h.upd b c).upd a d := by
        funext j
        by_cases e1 : j = b
        · subst e1
          rw [upd_self, upd_ne _ _ _ _ (Ne.symm hab), upd_self]
        · rw [upd_ne _ _ _ _ e1]
          by_cases e2 : j = a
          · subst e2
            rw [upd_self, upd_self]
          · rw [upd_ne _ _ _ _ e2, upd_ne _ _ _ _ e2, upd_ne _ _ _ _ e1]
      have hl : ∀ j ∈ l, truthy ((h.upd b c).upd a d j).name = true := by
        intro j hj
        rw [← hu]
        have hb' : (h.upd a d b).toStl (some (stlName pre vname (h b) ((no.get? (h b).componenttype).getD 0))) = (.ok o, c) := by
          rw [upd_ne _ _ _ _ (Ne.symm hab)]
          exact h1
        rw [toStl_upd_named hb', toStl_upd_named h3]
        exact hn j (by simp [hj])
      have h5 : ∀ no', writeAll pre vname no' ((h.upd a d).upd b c) l = (.ok (), ev2, h') := by
        rw [hu]
        exact writeAll_counters l hl h4
      have h1' : (h.upd a d b).toStl (some (stlName pre vname (h.upd a d b) ((no.get? (h b).componenttype).getD 0))) = (.ok o, c) := by
        rw [upd_ne _ _ _ _ (Ne.symm hab)]
        exact h1
      have h6 : ∀ no', writeAll pre vname no' (h.upd a d) (b :: l) = (.ok (), stlEvent o ++ ev2, h') := fun no' =>
        (writeAll_cons no' (ev := fun _ => ev2) (by rw [upd_ne _ _ _ _ (Ne.symm hab)]; exact hnb) h1' h5).choose_spec
      refine ⟨stlEvent o2 ++ (stlEvent o ++ ev2), fun no' => (writeAll_cons no' (ev := fun _ => stlEvent o ++ ev2) hna h3 h6).choose_spec, ?_⟩
      rw [← List.append_assoc, ← List.append_assoc]
      exact List.perm_append_comm.append_right _
  | @trans l1 l2 l3 p1 _ ih1 ih2 =>
    intro no h h' ev hn H
    obtain ⟨e1, h1, h2⟩ := ih1 hn H
    obtain ⟨e2, h3, h4⟩ := ih2 (fun k hk => hn k (p1.mem_iff.2 hk)) (h1 no)
    exact ⟨e2, h3, h2.trans h4⟩

theorem toStl_perm {pre : Option String} {s t s' : VState} {ev : List FsEv} (h : Reordered s t) (hn : ∀ k ∈ s.veh.components, truthy (s.heap k).name = true)
    (H : toStl s pre (.bool false) = (.ok (), ev, s')) : ∃ ev' t', toStl t pre (.bool false) = (.ok (), ev', t') ∧ ev.Perm ev' ∧ Reordered s' t' := by
  unfold toStl at H ⊢
  rcases h1 : writeAll pre s.veh.name [] s.heap s.veh.components with ⟨x | _, e, g⟩ <;> rw [h1] at H
  · cases H
  obtain ⟨e', h2, h3⟩ := writeAll_perm h.components hn h1
  rw [h.heap, h.name, h2]
  simp only [mergeStep, Prod.mk.injEq, true_and] at H ⊢
  obtain ⟨rfl, rfl⟩ := H
  have hr : ∀ p, resultEvents t.veh p = resultEvents s.veh p := by
    intro p
    have := h.results
    unfold resultEvents
    revert this
    rcases s.veh.analysisResults with _ | a <;> rcases t.veh.analysisResults with _ | b <;> intro this
    · rfl
    · exact this.elim
    · exact this.elim
    · rfl
  have hp : ∀ p, propertyEvents t.veh p = propertyEvents s.veh p := by
    intro p
    unfold propertyEvents
    rw [h.properties]
  refine ⟨_, _, ⟨rfl, rfl⟩, ?_, rfl, h.components, h.named, h.name, h.angle, h.verbosity, h.properties, h.transformations, h.analyseOn, h.generated, h.results, h.analysis⟩
  rw [hr, hp]
  exact ((h3.append_right _).append_right _).append_right _

/-! ### The names -/

theorem assessAll_name {lib : Lib} {dens : Dict String ℝ} : ∀ (l : List (String × ℕ)) {h h' : Heap} {ps : List (String × CompProps)},
    assessAll lib dens h l = (.ok ps, h') → ∀ j, (h' j).name = (h j).name
  | [], h, h', ps, H, j => by cases H; rfl
  | e :: es, h, h', ps, H, j => by
    obtain ⟨p, g, qs, h1, h2, rfl⟩ := assessAll_cons_inv H
    rw [assessAll_name es h2 j]
    obtain ⟨M, c, ρ, q, a1, -, -, -, rfl⟩ := assessOne_inv h1
    by_cases hj : j = e.2
    · subst hj
      obtain ⟨x, y, hf⟩ := mesh_frame (h e.2)
      rw [a1] at hf
      dsimp only at hf
      rw [upd_self, hf]
    · rw [upd_ne _ _ _ _ hj]

theorem analyseGenerated_name {lib : Lib} {dens : Dict String ℝ} {s s' : VState} {a : Analysis} (H : analyseGenerated lib s dens = (.ok a, s')) (j : ℕ) :
    (s'.heap j).name = (s.heap j).name := by
  unfold analyseGenerated at H
  rcases h1 : assessAll lib dens s.heap s.veh.named with ⟨x | l, g⟩ <;> rw [h1] at H
  · cases H
  dsimp only at H
  rcases h2 : summarise l with x | a0 <;> rw [h2] at H
  · cases H
  simp only [Prod.mk.injEq, Except.ok.injEq] at H
  obtain ⟨rfl, rfl⟩ := H
  exact assessAll_name _ h1 j

theorem generate_name {lib : Lib} {depth : ℕ} {s s' : VState} (hu : Unshared s.heap s.veh.components) (H : generate lib depth s = (.ok (), s')) :
    s'.veh.components = s.veh.components ∧ ∀ k ∈ s.veh.components, (s'.heap k).name = (s.heap k).name := by
  unfold generate generateWith at H
  rcases h1 : genAll s.veh.angleOffset s.heap s.veh.components with ⟨x | _, g⟩ <;> rw [h1] at H
  · cases H
  dsimp only at H
  have hg : ∀ k ∈ s.veh.components, (g k).name = (s.heap k).name := by
    intro k hk
    obtain ⟨g1, a1, a2⟩ := genAll_spec _ _ _ hu _ h1 k hk
    obtain ⟨P, R, S, h4⟩ := generatePatches_opts s.heap k (hu.notChild k hk k hk)
    rw [a1] at h4
    dsimp only at h4
    obtain ⟨P', e⟩ := pipeline_frame s.veh.angleOffset (g1 k)
    rw [a2] at e
    dsimp only at e
    rw [e, h4]
  rcases h2 : genTransform ⟨g, { s.veh with generated := true }⟩ with ⟨x | _, s2⟩ <;> rw [h2] at H
  · cases H
  dsimp only at H
  have h3 : s2.veh = { s.veh with generated := true } ∧ ∀ k ∈ s.veh.components, (s2.heap k).name = (g k).name := by
    unfold genTransform at h2
    split_ifs at h2
    · cases h2
      exact ⟨rfl, fun _ _ => rfl⟩
    · unfold transform at h2
      rw [if_pos rfl] at h2
      simp only [TransfArg.toList] at h2
      rcases h3 : transformAll g s.veh.transformations s.veh.components with ⟨x | _, g'⟩ <;> rw [h3] at h2
      · cases h2
      cases h2
      refine ⟨rfl, fun k hk => ?_⟩
      obtain ⟨c, b1, b2⟩ := (transformAll_spec _ _ _ hu.nodup _ h3).1 k hk
      obtain ⟨P, e⟩ := applyAll_frame s.veh.transformations (g k)
      rw [b1] at e
      dsimp only at e
      show (g' k).name = _
      rw [b2, e]
  obtain ⟨h3, h4⟩ := h3
  have h5 : ∀ k ∈ s.veh.components, (s2.heap k).name = (s.heap k).name := fun k hk => (h4 k hk).trans (hg k hk)
  have h6 : s2.veh.components = s.veh.components := by rw [h3]
  unfold genAnalyse at H
  rcases ho : s2.veh.analyseOn with _ | d <;> rw [ho] at H
  · cases H
    exact ⟨h6, h5⟩
  rcases d with _ | ⟨e, d⟩
  · cases H
    exact ⟨h6, h5⟩
  dsimp only at H
  rcases depth with _ | depth
  · simp only [analyse] at H
    cases H
  · rw [analyse_generated lib depth s2 _ (by rw [h3])] at H
    rcases h7 : analyseGenerated lib s2 (e :: d) with ⟨x | a, s3⟩ <;> rw [h7] at H
    · cases H
    cases H
    refine ⟨?_, fun k hk => (analyseGenerated_name h7 k).trans (h5 k hk)⟩
    unfold analyseGenerated at h7
    rcases h8 : assessAll lib (e :: d) s2.heap s2.veh.named with ⟨x | l, g⟩ <;> rw [h8] at h7
    · cases h7
    dsimp only at h7
    rcases h9 : summarise l with x | a0 <;> rw [h9] at h7
    · cases h7
    cases h7
    exact h6

theorem addEach_named : ∀ (as : List Addition) {s s' : VState}, (as.map Prod.fst).Nodup → addEach s as = (.ok (), s') →
    s'.veh.components = s.veh.components ++ as.map Prod.fst ∧ (∀ a ∈ as, (s'.heap a.1).name = some a.2.1) ∧
    ∀ j, j ∉ as.map Prod.fst → s'.heap j = s.heap j
  | [], s, s', _, H => by
    cases H
    simp
  | a :: as, s, s', hid, H => by
    unfold addEach at H
    rcases hx : addComponent s a.1 { a.2.2 with name := some a.2.1 } with ⟨x | _, s1⟩ <;> rw [hx] at H
    · cases H
    obtain ⟨-, rfl⟩ := addNamed_ok hx
    have hid' := List.nodup_cons.1 hid
    obtain ⟨h1, h2, h3⟩ := addEach_named as hid'.2 H
    refine ⟨?_, ?_, ?_⟩
    · rw [h1]
      simp [added, record]
    · intro b hb
      rcases List.mem_cons.1 hb with rfl | hb
      · rw [h3 _ hid'.1]
        simp only [added, upd_self]
        rfl
      · exact h2 b hb
    · intro j hj
      simp only [List.map_cons, List.mem_cons, not_or] at hj
      rw [h3 j hj.2]
      simp only [added]
      rw [upd_ne _ _ _ _ hj.1]

/-! ### C152 -/

/-- C152: adding components under different names in another order succeeds as well and leaves the same objects, the
components and their names being held in another order. -/
theorem C152_add (st s : VState) (as bs : List Addition) (hp : as.Perm bs) (hid : (as.map Prod.fst).Nodup) (hname : (as.map fun a => a.2.1).Nodup)
    (hnew : ∀ a ∈ as, a.2.1 ∉ Dict.keys st.veh.named) (H : addEach st as = (.ok (), s)) : ∃ t, addEach st bs = (.ok (), t) ∧ Reordered s t :=
  addEach_perm hp hid hname hnew H

/-- C152: a vehicle whose components are held in another order generates to the same components and the same analysis. -/
theorem C152_generate (lib : Lib) (depth : ℕ) (s t s' : VState) (h : Reordered s t) (hu : Unshared s.heap s.veh.components)
    (H : generate lib depth s = (.ok (), s')) : ∃ t', generate lib depth t = (.ok (), t') ∧ Reordered s' t' :=
  generate_perm h hu H

/-- C152: analysing a generated vehicle whose components are held in another order. -/
theorem C152_analyse (lib : Lib) (depth : ℕ) (dens : Dict String ℝ) (s t s' : VState) (a : Analysis) (h : Reordered s t) (hg : s.veh.generated = true)
    (H : analyse lib (depth + 1) s dens = (.ok a, s')) : ∃ b t', analyse lib (depth + 1) t dens = (.ok b, t') ∧ SameAnalysis a b ∧ Reordered s' t' := by
  rw [analyse_generated lib depth s _ hg] at H
  rw [analyse_generated lib depth t _ (by rw [h.generated]; exact hg)]
  exact analyseGenerated_perm h H

/-- C152: from an empty vehicle, adding named components in another order, generating and writing STL files gives the same
components, the same results and the same files. -/
theorem C152_script (lib : Lib) (depth : ℕ) (st s1 s2 s3 : VState) (pre : Option String) (ev : List FsEv) (as bs : List Addition) (hp : as.Perm bs)
    (hid : (as.map Prod.fst).Nodup) (hname : (as.map fun a => a.2.1).Nodup) (hne : ∀ a ∈ as, a.2.1 ≠ "") (h0 : st.veh.components = [] ∧ st.veh.named = [])
    (H1 : addEach st as = (.ok (), s1)) (hu : Unshared s1.heap (as.map Prod.fst)) (H2 : generate lib depth s1 = (.ok (), s2))
    (H3 : toStl s2 pre (.bool false) = (.ok (), ev, s3)) :
    ∃ t1 t2 t3 ev', addEach st bs = (.ok (), t1) ∧ generate lib depth t1 = (.ok (), t2) ∧ toStl t2 pre (.bool false) = (.ok (), ev', t3) ∧
      Reordered s2 t2 ∧ ev.Perm ev' ∧ Reordered s3 t3 := by
  obtain ⟨n1, n2, -⟩ := addEach_named as hid H1
  rw [h0.1, List.nil_append] at n1
  rw [← n1] at hu
  obtain ⟨t1, a1, a2⟩ := C152_add st s1 as bs hp hid hname (fun a _ => by rw [h0.2]; simp [Dict.keys]) H1
  obtain ⟨t2, b1, b2⟩ := C152_generate lib depth s1 t1 s2 a2 hu H2
  obtain ⟨m1, m2⟩ := generate_name hu H2
  obtain ⟨ev', t3, c1, c2, c3⟩ := toStl_perm b2 (fun k hk => by
    rw [m1] at hk
    rw [m2 k hk]
    rw [n1] at hk
    obtain ⟨a, ha, rfl⟩ := List.mem_map.1 hk
    rw [n2 a ha]
    simp [truthy, hne a ha]) H3
  exact ⟨t1, t2, t3, ev', a1, b1, c1, b2, c2, c3⟩

/-- Two wings, the second one to be added with a ghost flag. -/
def demoAdditions : List Addition := [(0, "left", { name := none }), (1, "right", { name := none, ghost := true })]

/-- The hypotheses of C152 are met by adding two wings to an empty vehicle in either order. -/
example : ∃ s1 s2 s3 ev, demoAdditions.Perm demoAdditions.reverse ∧ (demoAdditions.map Prod.fst).Nodup ∧ (demoAdditions.map fun a => a.2.1).Nodup ∧
    (∀ a ∈ demoAdditions, a.2.1 ≠ "") ∧ addEach ⟨fun _ => demoComp, {}⟩ demoAdditions = (.ok (), s1) ∧ Unshared s1.heap (demoAdditions.map Prod.fst) ∧
    generate ⟨fun _ _ => .error .exc, fun _ => 0⟩ 0 s1 = (.ok (), s2) ∧ toStl s2 none (.bool false) = (.ok (), ev, s3) := by
  have hadd : addEach ⟨fun _ => demoComp, {}⟩ demoAdditions = (.ok (), added (added ⟨fun _ => demoComp, {}⟩ (0, "left", { name := none }))
      (1, "right", { name := none, ghost := true })) := by
    have step : ∀ (s : VState) (a : Addition) (as : List Addition), (s.heap a.1).componenttype ∈ allowable → addEach s (a :: as) = addEach (added s a) as := by
      intro s a as h
      rw [addEach, addNamed_eq s a h]
    rw [demoAdditions, step _ _ _ (by decide), step _ _ _ (by rw [added_type]; decide)]
    rfl
  set s1 := added (added ⟨fun _ => demoComp, {}⟩ (0, "left", { name := none })) (1, "right", { name := none, ghost := true }) with hs1
  have hch : ∀ k, (s1.heap k).gen = demoComp.gen ∧ (s1.heap k).modifier = none ∧ (s1.heap k).curvatures = none ∧ (s1.heap k).reflection_axis = none ∧
      (s1.heap k).transformations = [] ∧ (s1.heap k).mesh_ = none ∧ (s1.heap k).surfaces = none ∧ (s1.heap k).stl_resolution = .int 2 ∧
      (s1.heap k).clustering = {} := by
    intro k
    by_cases h1 : k = 1
    · subst h1
      exact ⟨rfl, rfl, rfl, rfl, rfl, rfl, rfl, rfl, rfl⟩
    · by_cases h0 : k = 0
      · subst h0
        exact ⟨rfl, rfl, rfl, rfl, rfl, rfl, rfl, rfl, rfl⟩
      · have : s1.heap k = demoComp := by
          simp only [hs1, added]
          rw [upd_ne _ _ _ _ h1, upd_ne _ _ _ _ h0]
        rw [this]
        exact ⟨rfl, rfl, rfl, rfl, rfl, rfl, rfl, rfl, rfl⟩
  have hno : ∀ k, (s1.heap k).children = [] := by
    intro k
    unfold Comp.children
    rw [(hch k).1]
    rfl
  have hu : Unshared s1.heap (demoAdditions.map Prod.fst) := by
    refine ⟨by decide, ?_, ?_⟩ <;> intros <;> simp [hno]
  have hgen : ∀ k, ∃ g, generatePatches s1.heap k = (.ok (), g) ∧ (g k).patches = demoComp.patches ∧
      ∃ P R S, g k = { s1.heap k with patches := P, patch_res_r := R, patch_res_s := S } := by
    intro k
    obtain ⟨P, R, S, h4⟩ := generatePatches_opts s1.heap k (by simp [hno])
    have hp : (generatePatches s1.heap k).1 = .ok () ∧ ((generatePatches s1.heap k).2 k).patches = demoComp.patches := by
      have hpt : (s1.heap k).patches = demoComp.patches := by
        by_cases h1 : k = 1
        · subst h1; rfl
        · by_cases h0 : k = 0
          · subst h0; rfl
          · simp only [hs1, added]
            rw [upd_ne _ _ _ _ h1, upd_ne _ _ _ _ h0]
      unfold generatePatches
      rw [(hch k).1]
      simp only [demoComp, Composite.genLeaf, (hch k).1, Comp.genInto, upd_self]
      rw [hpt]
      exact ⟨trivial, rfl⟩
    exact ⟨_, Prod.ext hp.1 rfl, hp.2, P, R, S, h4⟩
  obtain ⟨h', hg⟩ := genAll_total 0 s1.heap (demoAdditions.map Prod.fst) hu fun k _ => by
    obtain ⟨g, h1, -, P, R, S, h3⟩ := hgen k
    exact ⟨g, g k, h1, pipeline_plain _ (by rw [h3]; exact (hch k).2.1) (by rw [h3]; exact (hch k).2.2.1) (by rw [h3]; exact (hch k).2.2.2.1)
      (by rw [h3]; exact (hch k).2.2.2.2.1)⟩
  have hs := genAll_spec 0 s1.heap _ hu h' hg
  have hG : generate ⟨fun _ _ => .error .exc, fun _ => 0⟩ 0 s1 = (.ok (), ⟨h', { s1.veh with generated := true }⟩) := by
    unfold generate generateWith
    rw [show genAll s1.veh.angleOffset s1.heap s1.veh.components = (.ok (), h') from hg]
    rfl
  obtain ⟨ev, s3, hw⟩ := toStl_total ⟨h', { s1.veh with generated := true }⟩ none false fun k hk _ => by
    obtain ⟨g0, a1, a2⟩ := hs k hk
    obtain ⟨g, h1, h2, P, R, S, h3⟩ := hgen k
    obtain rfl : g = g0 := (Prod.mk.inj (h1.symm.trans a1)).2
    obtain ⟨-, p1, p2, p3, p4, p5, p6, p7, p8⟩ := hch k
    rw [pipeline_plain (g k) (by rw [h3]; exact p1) (by rw [h3]; exact p2) (by rw [h3]; exact p3) (by rw [h3]; exact p4)] at a2
    have e : h' k = g k := (Prod.mk.inj a2).2.symm
    show ∃ M c, (h' k).mesh = (.ok M, c)
    rw [e]
    exact demo_mesh _ h2 (by rw [h3]; exact p5) (by rw [h3]; exact p6) (by rw [h3]; exact p7) (by rw [h3]; exact p8)
  exact ⟨s1, _, s3, ev, (List.reverse_perm _).symm, by decide, by decide, by decide, hadd, hu, hG, hw⟩

/-- A reordered vehicle with an analysis: the hypotheses of `C152_analyse` other than success of the analysis. -/
example : Reordered (demoVehicle (some "a") (some "b") false)
    ⟨(demoVehicle (some "a") (some "b") false).heap, { (demoVehicle (some "a") (some "b") false).veh with components := [1, 0], named := [("b", 1), ("a", 0)] }⟩ :=
  ⟨rfl, List.Perm.swap _ _ _, List.Perm.swap _ _ _, rfl, rfl, rfl, rfl, rfl, rfl, rfl, trivial, trivial⟩

end HV
