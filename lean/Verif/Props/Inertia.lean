import Verif.Lemmas.VehicleFrame
import Verif.Lemmas.Vec
import Verif.Props.VehicleGen
import Mathlib.Algebra.Order.BigOperators.Group.List
import Mathlib.Tactic.FieldSimp
import Mathlib.Tactic.Linarith

/-!
# Analysis of vehicles: C76–C79
-/

namespace HV
open Spec Veh

namespace Spec

/-- What the library reports for the component found under the name `e.1`, with the density given for this name. -/
def AssessedAs (lib : Lib) (dens : Dict String ℝ) (h : Heap) (e : String × ℕ) (q : String × CompProps) : Prop :=
  q.1 = e.1 ∧ ∃ M c ρ, (h e.2).mesh = (.ok M, c) ∧ dens.get? e.1 = some ρ ∧ lib.massProps M ρ = .ok q.2.props ∧
    q.2.area = lib.area M

/-- The reported analysis is the documented one: totals are sums over the named components. -/
structure Totals (lib : Lib) (st : VState) (dens : Dict String ℝ) (a : Analysis) : Prop where
  components : List.Forall₂ (AssessedAs lib dens st.heap) st.veh.named a.components
  volume : a.volume = (a.components.map fun q => q.2.props.volume).sum
  mass : a.mass = (a.components.map fun q => q.2.props.mass).sum
  area : a.area = (a.components.map fun q => q.2.area).sum

/-- The weighted mean of points with the given masses. -/
noncomputable def weightedMean (l : List (ℝ × V)) : V :=
  let m := (l.map Prod.fst).sum
  ⟨(l.map fun e => e.1 * e.2.x).sum / m, (l.map fun e => e.1 * e.2.y).sum / m, (l.map fun e => e.1 * e.2.z).sum / m⟩

/-- The masses and centres of the components. -/
def masses (a : Analysis) : List (ℝ × V) := a.components.map fun q => (q.2.props.mass, q.2.props.cog)

end Spec

theorem foldl_add {α : Type} (f : α → ℝ) (l : List α) (x : ℝ) : l.foldl (fun a e => a + f e) x = x + (l.map f).sum := by
  induction l generalizing x with
  | nil => simp
  | cons e l ih => simp [ih]; ring

theorem dict_get_ok {κ ν : Type} [DecidableEq κ] (d : Dict κ ν) (k : κ) (v : ν) : d.get k = .ok v ↔ d.get? k = some v := by
  unfold Dict.get
  rcases d.get? k with _ | w <;> simp

theorem assessOne_spec (lib : Lib) (dens : Dict String ℝ) (h g g' : Heap) (e : String × ℕ) (p : CompProps) (hg : SameBut h g)
    (ha : assessOne lib dens g e = (.ok p, g')) : AssessedAs lib dens h e (e.1, p) ∧ SameBut h g' := by
  unfold assessOne at ha
  rcases hc : (g e.2).mesh with ⟨x | M, c⟩
  · rw [hc] at ha; simp at ha
  · rw [hc] at ha
    simp only at ha
    rcases hd : dens.get e.1 with x | ρ
    · rw [hd] at ha; simp at ha
    · rw [hd] at ha
      simp only at ha
      rcases hl : lib.massProps M ρ with x | q
      · rw [hl] at ha; simp at ha
      · rw [hl, mesh_stable _ _ _ hc] at ha
        simp only [Prod.mk.injEq, Except.ok.injEq] at ha
        obtain ⟨rfl, rfl⟩ := ha
        obtain ⟨c', hc'⟩ := ((hg e.2).2 M).1 ⟨c, hc⟩
        exact ⟨⟨rfl, M, c', ρ, hc', (dict_get_ok _ _ _).1 hd, hl, rfl⟩, hg.upd e.2 M c hc⟩

theorem assessOne_ok (lib : Lib) (dens : Dict String ℝ) (h g : Heap) (e : String × ℕ) (q : String × CompProps)
    (hg : SameBut h g) (hq : AssessedAs lib dens h e q) : ∃ g', assessOne lib dens g e = (.ok q.2, g') := by
  obtain ⟨-, M, c, ρ, h1, h2, h3, h4⟩ := hq
  obtain ⟨c', hc'⟩ := ((hg e.2).2 M).2 ⟨c, h1⟩
  unfold assessOne
  rw [hc']
  simp only
  rw [(dict_get_ok _ _ _).2 h2]
  simp only
  rw [h3, mesh_stable _ _ _ hc']
  simp only
  rw [← h4]
  exact ⟨_, rfl⟩

theorem assessAll_spec (lib : Lib) (dens : Dict String ℝ) (h : Heap) (l : List (String × ℕ)) (g : Heap) (hg : SameBut h g)
    (ps : List (String × CompProps)) :
    (∃ g', assessAll lib dens g l = (.ok ps, g')) ↔ List.Forall₂ (AssessedAs lib dens h) l ps := by
  induction l generalizing g ps with
  | nil =>
    unfold assessAll
    constructor
    · rintro ⟨g', e⟩; cases e; exact .nil
    · intro e; cases e; exact ⟨g, rfl⟩
  | cons e l ih =>
    constructor
    · rintro ⟨g', ha⟩
      unfold assessAll at ha
      rcases hc : assessOne lib dens g e with ⟨x | p, g1⟩
      · rw [hc] at ha; simp at ha
      · rw [hc] at ha
        simp only at ha
        obtain ⟨h1, h2⟩ := assessOne_spec lib dens h g g1 e p hg hc
        rcases hr : assessAll lib dens g1 l with ⟨x | qs, g2⟩
        · rw [hr] at ha; simp at ha
        · rw [hr] at ha
          simp only [Prod.mk.injEq, Except.ok.injEq] at ha
          obtain ⟨rfl, rfl⟩ := ha
          exact .cons h1 ((ih g1 h2 qs).1 ⟨g2, hr⟩)
    · intro hf
      cases hf with
      | cons h1 h2 =>
        rename_i q qs
        obtain ⟨g1, hc⟩ := assessOne_ok lib dens h g e q hg h1
        obtain ⟨-, hg1⟩ := assessOne_spec lib dens h g g1 e q.2 hg hc
        obtain ⟨g2, hr⟩ := (ih g1 hg1 qs).2 h2
        unfold assessAll
        rw [hc]
        simp only
        rw [hr]
        simp only
        have : (e.1, q.2) = q := by rw [← h1.1]
        rw [this]
        exact ⟨g2, rfl⟩

theorem assessAll_same (lib : Lib) (dens : Dict String ℝ) (h : Heap) (l : List (String × ℕ)) (g g' : Heap) (hg : SameBut h g)
    (ps : List (String × CompProps)) (ha : assessAll lib dens g l = (.ok ps, g')) : SameBut h g' := by
  induction l generalizing g ps with
  | nil => cases ha; exact hg
  | cons e l ih =>
    unfold assessAll at ha
    rcases hc : assessOne lib dens g e with ⟨x | p, g1⟩
    · rw [hc] at ha; simp at ha
    · rw [hc] at ha
      simp only at ha
      obtain ⟨-, h2⟩ := assessOne_spec lib dens h g g1 e p hg hc
      rcases hr : assessAll lib dens g1 l with ⟨x | qs, g2⟩
      · rw [hr] at ha; simp at ha
      · rw [hr] at ha
        simp only [Prod.mk.injEq, Except.ok.injEq] at ha
        obtain ⟨rfl, rfl⟩ := ha
        exact ih g1 h2 qs hr

/-- A successful analysis, described without reference to caches. -/
theorem analyseGenerated_ok (lib : Lib) (st : VState) (dens : Dict String ℝ) (a : Analysis) :
    (∃ st', analyseGenerated lib st dens = (.ok a, st')) ↔
      ∃ l, List.Forall₂ (AssessedAs lib dens st.heap) st.veh.named l ∧ summarise l = .ok a := by
  unfold analyseGenerated
  constructor
  · rintro ⟨st', h⟩
    rcases hc : assessAll lib dens st.heap st.veh.named with ⟨x | l, g⟩
    · rw [hc] at h; simp at h
    · rw [hc] at h
      simp only at h
      rcases hs : summarise l with x | b
      · rw [hs] at h; simp at h
      · rw [hs] at h
        simp only [Prod.mk.injEq, Except.ok.injEq] at h
        obtain ⟨rfl, -⟩ := h
        exact ⟨l, (assessAll_spec lib dens st.heap _ _ (SameBut.refl _) l).1 ⟨g, hc⟩, hs⟩
  · rintro ⟨l, h1, h2⟩
    obtain ⟨g, hc⟩ := (assessAll_spec lib dens st.heap _ _ (SameBut.refl _) l).2 h1
    rw [hc]
    simp only [h2]
    exact ⟨_, rfl⟩

theorem analyse_generated (lib : Lib) (depth : ℕ) (st : VState) (dens : Dict String ℝ) (hg : st.veh.generated = true) :
    analyse lib (depth + 1) st dens = analyseGenerated lib st dens := by
  simp [analyse, analyseWith, hg]

theorem summarise_ok (l : List (String × CompProps)) (a : Analysis) (h : summarise l = .ok a) :
    a.components = l ∧ l ≠ [] ∧ a.volume = (l.map fun q => q.2.props.volume).sum ∧
    a.mass = (l.map fun q => q.2.props.mass).sum ∧ a.area = (l.map fun q => q.2.area).sum ∧
    (a.mass = 0 → a.cog = none ∧ a.moi = none) ∧
    (a.mass ≠ 0 → ∃ g, a.cog = some g ∧ a.moi = some (compositeMoi l g) ∧
      g = (l.foldl (fun a e => a + e.2.props.cog * e.2.props.mass) (⟨0, 0, 0⟩ : V)) * (1 / a.mass)) := by
  unfold summarise at h
  rcases l with _ | ⟨e, l⟩
  · simp [compositeCog, bind, Except.bind] at h
  · by_cases hm : (e :: l).foldl (fun a e => a + e.2.props.mass) 0 = 0
    · simp only [compositeCog, hm, if_true, bind, Except.bind, pure, Except.pure, Except.ok.injEq] at h
      subst h
      simp only [foldl_add, zero_add] at hm ⊢
      refine ⟨?_, by simp, ?_, hm.symm, ?_, fun _ => ?_, fun h => absurd rfl h⟩ <;> simp
    · simp only [compositeCog, hm, if_false, bind, Except.bind, pure, Except.pure, Except.ok.injEq] at h
      subst h
      simp only [foldl_add (fun e : String × CompProps => e.2.props.volume),
        foldl_add (fun e : String × CompProps => e.2.props.mass), foldl_add (fun e : String × CompProps => e.2.area), zero_add]
        at hm ⊢
      refine ⟨?_, by simp, ?_, ?_, ?_, fun h => absurd h hm, fun _ => ⟨_, rfl, rfl, rfl⟩⟩ <;> trivial

/-! ## C76 -/

/-- C76: the volume, mass and area returned for a generated vehicle are the sums over the named components, each taken from
its mesh with the density given under its name. -/
theorem C76_sums (lib : Lib) (depth : ℕ) (st st' : VState) (dens : Dict String ℝ) (a : Analysis)
    (hg : st.veh.generated = true) (h : analyse lib (depth + 1) st dens = (.ok a, st')) : Totals lib st dens a := by
  rw [analyse_generated lib depth st dens hg] at h
  obtain ⟨l, h1, h2⟩ := (analyseGenerated_ok lib st dens a).1 ⟨st', h⟩
  obtain ⟨rfl, -, hv, hm, ha, -⟩ := summarise_ok l a h2
  exact ⟨h1, hv, hm, ha⟩

/-- C76: a missing density raises. -/
theorem C76_missing_density (lib : Lib) (depth : ℕ) (st : VState) (dens : Dict String ℝ) (hg : st.veh.generated = true)
    (e : String × ℕ) (he : e ∈ st.veh.named) (hd : dens.get? e.1 = none) :
    ∃ x st', analyse lib (depth + 1) st dens = (.error x, st') := by
  rcases h : analyse lib (depth + 1) st dens with ⟨x | a, st'⟩
  · exact ⟨x, st', rfl⟩
  · have := (C76_sums lib depth st st' dens a hg h).components
    exfalso
    obtain ⟨i, hi, e'⟩ := List.getElem_of_mem he
    obtain ⟨-, M, c, ρ, -, h2, -⟩ := List.forall₂_iff_get.1 this |>.2 i hi (by rw [← this.length_eq]; exact hi)
    rw [List.get_eq_getElem, e', hd] at h2
    cases h2

theorem forall₂_perm {α β : Type} {R : α → β → Prop} {l l' : List α} (hp : l.Perm l') {m : List β} (h : List.Forall₂ R l m) :
    ∃ m', List.Forall₂ R l' m' ∧ m.Perm m' := by
  induction hp generalizing m with
  | nil => cases h; exact ⟨[], .nil, .refl _⟩
  | cons x _ ih =>
    cases h with
    | cons a b =>
      obtain ⟨m', h1, h2⟩ := ih b
      exact ⟨_, .cons a h1, h2.cons _⟩
  | swap x y l =>
    cases h with
    | cons a b =>
      cases b with
      | cons c d => exact ⟨_, .cons c (.cons a d), .swap _ _ _⟩
  | trans _ _ ih1 ih2 =>
    obtain ⟨m1, h1, p1⟩ := ih1 h
    obtain ⟨m2, h2, p2⟩ := ih2 h1
    exact ⟨m2, h2, p1.trans p2⟩

theorem vec_foldl (l : List (String × CompProps)) (v : V) :
    l.foldl (fun a e => a + e.2.props.cog * e.2.props.mass) v =
      ⟨v.x + (l.map fun e => e.2.props.mass * e.2.props.cog.x).sum, v.y + (l.map fun e => e.2.props.mass * e.2.props.cog.y).sum,
        v.z + (l.map fun e => e.2.props.mass * e.2.props.cog.z).sum⟩ := by
  induction l generalizing v with
  | nil => ext <;> simp
  | cons e l ih =>
    rw [List.foldl_cons, ih]
    ext <;> simp <;> ring

theorem cog_mean (l : List (String × CompProps)) (a : Analysis) (h : summarise l = .ok a) (hm : a.mass ≠ 0) :
    a.cog = some (weightedMean (masses a)) := by
  obtain ⟨rfl, -, -, h2, -, -, h3⟩ := summarise_ok l a h
  obtain ⟨g, hg, -, e⟩ := h3 hm
  rw [hg, e, vec_foldl]
  have hs : ((masses a).map Prod.fst).sum = a.mass := by rw [h2]; simp [masses, Function.comp_def]
  congr 1
  unfold weightedMean
  simp only [hs]
  ext <;> simp [masses, Function.comp_def] <;> ring

theorem moi_sum (l : List (String × CompProps)) (g : V) (i j : Fin 3) : compositeMoi l g i j =
    (l.map fun e => adjusted e.2.props g i j).sum := by
  have : ∀ (l : List (String × CompProps)) (f : Fin 3 → Fin 3 → ℝ),
      l.foldl (fun a e => fun i j => a i j + adjusted e.2.props g i j) f i j = f i j + (l.map fun e => adjusted e.2.props g i j).sum := by
    intro l
    induction l with
    | nil => intro f; simp
    | cons e l ih => intro f; rw [List.foldl_cons, ih]; simp; ring
  unfold compositeMoi
  rw [this]; simp

/-- C76: the results do not depend on the order of the named components: two vehicles with the same named components in
different orders get the same volume, mass, area, centre of gravity and inertia, and the analysis of one succeeds if that
of the other does. -/
theorem C76_order (lib : Lib) (depth : ℕ) (st1 st2 st1' : VState) (dens : Dict String ℝ) (a : Analysis)
    (hg1 : st1.veh.generated = true) (hg2 : st2.veh.generated = true) (hh : st1.heap = st2.heap)
    (hp : st1.veh.named.Perm st2.veh.named) (h : analyse lib (depth + 1) st1 dens = (.ok a, st1')) :
    ∃ b st2', analyse lib (depth + 1) st2 dens = (.ok b, st2') ∧ b.volume = a.volume ∧ b.mass = a.mass ∧ b.area = a.area ∧
      b.cog = a.cog ∧ b.moi = a.moi ∧ b.components.Perm a.components := by
  rw [analyse_generated lib depth st1 dens hg1] at h
  obtain ⟨l, h1, h2⟩ := (analyseGenerated_ok lib st1 dens a).1 ⟨st1', h⟩
  obtain ⟨l', h3, hl⟩ := forall₂_perm hp h1
  obtain ⟨rfl, hne, hv, hm, har, z0, z1⟩ := summarise_ok l a h2
  have hne' : l' ≠ [] := by rintro rfl; exact hne (List.perm_nil.1 hl)
  have hb : ∃ b, summarise l' = .ok b := by
    unfold summarise compositeCog
    rcases l' with _ | ⟨e, l'⟩
    · exact absurd rfl hne'
    · simp only
      split
      · exact ⟨_, rfl⟩
      · exact ⟨_, rfl⟩
  obtain ⟨b, hb⟩ := hb
  obtain ⟨st2', hx⟩ := (analyseGenerated_ok lib st2 dens b).2 ⟨l', by rw [← hh]; exact h3, hb⟩
  obtain ⟨eb, -, hv', hm', har', z0', z1'⟩ := summarise_ok l' b hb
  have em : b.mass = a.mass := by rw [hm, hm']; exact (hl.map _).sum_eq.symm
  have ecog : b.cog = a.cog := by
    by_cases h0 : a.mass = 0
    · rw [(z0 h0).1, (z0' (em.trans h0)).1]
    · rw [cog_mean _ a h2 h0, cog_mean _ b hb (by rw [em]; exact h0)]
      congr 1
      have hpm : (masses b).Perm (masses a) := by unfold masses; rw [eb]; exact (hl.map _).symm
      unfold weightedMean
      simp only [(hpm.map _).sum_eq]
  refine ⟨b, st2', by rw [analyse_generated lib depth st2 dens hg2]; exact hx, ?_, em, ?_, ecog, ?_, by rw [eb]; exact hl.symm⟩
  · rw [hv, hv']; exact (hl.map _).sum_eq.symm
  · rw [har, har']; exact (hl.map _).sum_eq.symm
  · by_cases h0 : a.mass = 0
    · rw [(z0 h0).2, (z0' (em.trans h0)).2]
    · obtain ⟨g, e1, e2, -⟩ := z1 h0
      obtain ⟨g', e1', e2', -⟩ := z1' (by rw [em]; exact h0)
      rw [e1, e1'] at ecog
      cases ecog
      rw [e2, e2']
      congr 1
      funext i j
      rw [moi_sum, moi_sum]
      exact (hl.map _).sum_eq.symm

/-! ## C77 -/

/-- C77: the centre of gravity of a vehicle with mass is the weighted mean of those of the components. -/
theorem C77_mean (lib : Lib) (depth : ℕ) (st st' : VState) (dens : Dict String ℝ) (a : Analysis)
    (hg : st.veh.generated = true) (h : analyse lib (depth + 1) st dens = (.ok a, st')) (hm : a.mass ≠ 0) :
    a.cog = some (weightedMean (masses a)) := by
  rw [analyse_generated lib depth st dens hg] at h
  obtain ⟨l, h1, h2⟩ := (analyseGenerated_ok lib st dens a).1 ⟨st', h⟩
  exact cog_mean l a h2 hm

theorem sum_weighted_le (l : List (ℝ × V)) (u : V) (b : ℝ) (hpos : ∀ e ∈ l, 0 < e.1) (hb : ∀ e ∈ l, Vec.dot u e.2 ≤ b) :
    u.x * (l.map fun e => e.1 * e.2.x).sum + u.y * (l.map fun e => e.1 * e.2.y).sum + u.z * (l.map fun e => e.1 * e.2.z).sum ≤
      b * (l.map Prod.fst).sum := by
  induction l with
  | nil => simp
  | cons e l ih =>
    have h1 := ih (fun e he => hpos e (List.mem_cons_of_mem _ he)) (fun e he => hb e (List.mem_cons_of_mem _ he))
    have h2 := mul_le_mul_of_nonneg_left (hb e List.mem_cons_self) (hpos e List.mem_cons_self).le
    simp only [List.map_cons, List.sum_cons, Vec.dot] at *
    nlinarith

theorem sum_pos' (l : List (ℝ × V)) (hne : l ≠ []) (hpos : ∀ e ∈ l, 0 < e.1) : 0 < (l.map Prod.fst).sum := by
  apply List.sum_pos
  · intro x hx
    obtain ⟨e, he, rfl⟩ := List.mem_map.1 hx
    exact hpos e he
  · simpa using hne

theorem mass_masses (l : List (String × CompProps)) (a : Analysis) (h : summarise l = .ok a) :
    a.mass = ((masses a).map Prod.fst).sum := by
  obtain ⟨rfl, -, -, h2, -⟩ := summarise_ok l a h
  rw [h2]; simp [masses, Function.comp_def]

/-- C77: when all masses are positive the centre of gravity lies in every half-space containing the centres of all
components, that is in their convex hull. -/
theorem C77_hull (lib : Lib) (depth : ℕ) (st st' : VState) (dens : Dict String ℝ) (a : Analysis)
    (hg : st.veh.generated = true) (h : analyse lib (depth + 1) st dens = (.ok a, st'))
    (hpos : ∀ e ∈ masses a, 0 < e.1) :
    ∃ g, a.cog = some g ∧ ∀ (u : V) (b : ℝ), (∀ e ∈ masses a, Vec.dot u e.2 ≤ b) → Vec.dot u g ≤ b := by
  have h' := h
  rw [analyse_generated lib depth st dens hg] at h'
  obtain ⟨l, -, h2⟩ := (analyseGenerated_ok lib st dens a).1 ⟨st', h'⟩
  obtain ⟨rfl, hne, -⟩ := summarise_ok l a h2
  have hp := sum_pos' (masses a) (by simpa [masses] using hne) hpos
  have hm : a.mass ≠ 0 := by rw [mass_masses _ a h2]; exact hp.ne'
  refine ⟨_, C77_mean lib depth st st' dens a hg h hm, fun u b hb => ?_⟩
  have := sum_weighted_le (masses a) u b hpos hb
  unfold weightedMean Vec.dot
  simp only
  rw [← div_le_iff₀ hp] at this
  refine le_trans (le_of_eq ?_) this
  ring

theorem map_sum_congr {α β : Type} (f : α → ℝ) (g : β → ℝ) {l : List α} {m : List β} (h : List.Forall₂ (fun a b => f a = g b) l m) :
    (l.map f).sum = (m.map g).sum := by
  induction h with
  | nil => rfl
  | cons a _ ih => simp [a, ih]

/-- C77: if the components of two vehicles have the same masses and centres differing by the translation `d`, so do the
vehicles. -/
theorem C77_translation (lib : Lib) (n1 n2 : ℕ) (st1 st1' st2 st2' : VState) (dens1 dens2 : Dict String ℝ) (a b : Analysis)
    (hg1 : st1.veh.generated = true) (hg2 : st2.veh.generated = true)
    (h1 : analyse lib (n1 + 1) st1 dens1 = (.ok a, st1')) (h2 : analyse lib (n2 + 1) st2 dens2 = (.ok b, st2'))
    (hm : a.mass ≠ 0) (d : V) (hd : List.Forall₂ (fun e f => f.1 = e.1 ∧ f.2 = e.2 + d) (masses a) (masses b)) :
    ∃ g, a.cog = some g ∧ b.cog = some (g + d) := by
  have e1 := h1
  have e2 := h2
  rw [analyse_generated lib n1 st1 dens1 hg1] at e1
  rw [analyse_generated lib n2 st2 dens2 hg2] at e2
  obtain ⟨l, -, s1⟩ := (analyseGenerated_ok lib st1 dens1 a).1 ⟨st1', e1⟩
  obtain ⟨m, -, s2⟩ := (analyseGenerated_ok lib st2 dens2 b).1 ⟨st2', e2⟩
  have ma := mass_masses l a s1
  have mb := mass_masses m b s2
  have eqm : ((masses a).map Prod.fst).sum = ((masses b).map Prod.fst).sum :=
    map_sum_congr _ _ (hd.imp fun _ _ h => h.1.symm)
  have hmb : b.mass ≠ 0 := by rw [mb, ← eqm, ← ma]; exact hm
  refine ⟨_, C77_mean lib n1 st1 st1' dens1 a hg1 h1 hm, ?_⟩
  rw [C77_mean lib n2 st2 st2' dens2 b hg2 h2 hmb]
  have hs : ∀ (f : V → ℝ), (∀ u v, f (u + v) = f u + f v) →
      ((masses b).map fun e => e.1 * f e.2).sum = ((masses a).map fun e => e.1 * f e.2).sum + a.mass * f d := by
    intro f hf
    rw [ma]
    clear ma mb eqm hmb hm
    revert hd
    generalize masses a = la
    generalize masses b = lb
    intro hd
    induction hd with
    | nil => simp
    | cons h _ ih => simp only [List.map_cons, List.sum_cons, ih, h.1, h.2, hf]; ring
  congr 1
  unfold weightedMean
  simp only [← eqm, ← ma]
  have hx := hs Vec.x fun _ _ => rfl
  have hy := hs Vec.y fun _ _ => rfl
  have hz := hs Vec.z fun _ _ => rfl
  ext <;> simp only [Vec.add_x, Vec.add_y, Vec.add_z]
  · rw [hx]; field_simp
  · rw [hy]; field_simp
  · rw [hz]; field_simp

/-- C77: a centre shared by all components is that of the vehicle. -/
theorem C77_common (lib : Lib) (depth : ℕ) (st st' : VState) (dens : Dict String ℝ) (a : Analysis)
    (hg : st.veh.generated = true) (h : analyse lib (depth + 1) st dens = (.ok a, st')) (hm : a.mass ≠ 0) (c : V)
    (hc : ∀ e ∈ masses a, e.2 = c) : a.cog = some c := by
  rw [C77_mean lib depth st st' dens a hg h hm]
  rw [analyse_generated lib depth st dens hg] at h
  obtain ⟨l, -, h2⟩ := (analyseGenerated_ok lib st dens a).1 ⟨st', h⟩
  have ma := mass_masses l a h2
  have hs : ∀ (f : V → ℝ), ((masses a).map fun e => e.1 * f e.2).sum = a.mass * f c := by
    intro f
    rw [ma]
    clear ma
    revert hc
    generalize masses a = la
    intro hc
    induction la with
    | nil => simp
    | cons e l ih =>
      have := hc e List.mem_cons_self
      simp only [List.map_cons, List.sum_cons, ih fun e he => hc e (List.mem_cons_of_mem _ he), this]; ring
  congr 1
  unfold weightedMean
  simp only [← ma]
  ext
  · simp only [hs Vec.x]; field_simp
  · simp only [hs Vec.y]; field_simp
  · simp only [hs Vec.z]; field_simp

/-- The claim of C77 on vehicles without mass. -/
def Spec.MasslessRaises (lib : Lib) (st : VState) (dens : Dict String ℝ) : Prop :=
  ∀ depth, ∃ x st', analyse lib (depth + 1) st dens = (.error x, st')

/-- C77, for a vehicle without components: the analysis raises.  Missing: a vehicle with components whose masses add up to
zero, for which see `C77_massless_violated`. -/
theorem C77_massless_partial (lib : Lib) (st : VState) (dens : Dict String ℝ) (hg : st.veh.generated = true)
    (hn : st.veh.named = []) : MasslessRaises lib st dens := by
  intro depth
  rw [analyse_generated lib depth st dens hg]
  simp [analyseGenerated, hn, assessAll, summarise, compositeCog, bind, Except.bind]

example : (⟨fun _ => demoPoint, { generated := true }⟩ : VState).veh.named = [] := rfl

/-- The analysis of a vehicle whose components have masses adding up to zero returns without centre of gravity and inertia. -/
theorem massless_returns (lib : Lib) (depth : ℕ) (st st' : VState) (dens : Dict String ℝ) (a : Analysis)
    (hg : st.veh.generated = true) (h : analyse lib (depth + 1) st dens = (.ok a, st')) (hm : a.mass = 0) :
    a.cog = none ∧ a.moi = none := by
  rw [analyse_generated lib depth st dens hg] at h
  obtain ⟨l, -, h2⟩ := (analyseGenerated_ok lib st dens a).1 ⟨st', h⟩
  exact (summarise_ok l a h2).2.2.2.2.2.1 hm

/-- A triangle standing for the mesh of a component, with its first vertex at abscissa `x`. -/
def demoMeshAt (x : ℝ) : StlMesh := .ofTris [⟨⟨x, 0, 0⟩, ⟨x + 1, 0, 0⟩, ⟨x, 1, 0⟩⟩]

/-- A component whose mesh is known. -/
noncomputable def demoMeshed (x : ℝ) : Comp := { componenttype := "wing", gen := .into fun _ => { items := [] }, mesh_ := some (demoMeshAt x) }

/-- A library that takes a mesh for a unit volume at its first vertex. -/
noncomputable def demoLib : Lib :=
  ⟨fun M ρ => match M.tris with
    | t :: _ => .ok ⟨1, ρ, t.v0, fun i j => if i = j then 1 else 0⟩
    | [] => .error .value, fun _ => 2⟩

/-- A generated vehicle with two components at abscissas 0 and 3. -/
noncomputable def demoAnalysed : VState :=
  ⟨fun k => demoMeshed (3 * k), { components := [0, 1], named := [("a", 0), ("b", 1)], generated := true }⟩

theorem demoAnalysed_ok (ρ σ : ℝ) (depth : ℕ) : ∃ a st', analyse demoLib (depth + 1) demoAnalysed [("a", ρ), ("b", σ)] = (.ok a, st') ∧
    masses a = [(ρ, ⟨0, 0, 0⟩), (σ, ⟨3, 0, 0⟩)] ∧ a.mass = ρ + σ ∧ a.volume = 2 ∧ a.area = 4 ∧
    ∀ e ∈ a.components, ∀ i j, e.2.props.moi i j = if i = j then 1 else 0 := by
  rw [analyse_generated demoLib depth demoAnalysed _ rfl]
  have hl : List.Forall₂ (AssessedAs demoLib [("a", ρ), ("b", σ)] demoAnalysed.heap) demoAnalysed.veh.named
      [("a", ⟨⟨1, ρ, ⟨0, 0, 0⟩, fun i j => if i = j then 1 else 0⟩, 2⟩),
       ("b", ⟨⟨1, σ, ⟨3, 0, 0⟩, fun i j => if i = j then 1 else 0⟩, 2⟩)] := by
    refine .cons ⟨rfl, demoMeshAt 0, demoMeshed 0, ρ, ?_, rfl, rfl, rfl⟩ (.cons ⟨rfl, demoMeshAt 3, demoMeshed 3, σ, ?_, by simp [Dict.get?], rfl, rfl⟩ .nil)
    · simp [demoAnalysed, demoMeshed, Comp.mesh, demoMeshAt, StlMesh.ofTris]
    · simp [demoAnalysed, demoMeshed, Comp.mesh, demoMeshAt, StlMesh.ofTris]
  have hs : ∃ a, summarise [("a", (⟨⟨1, ρ, ⟨0, 0, 0⟩, fun i j => if i = j then 1 else 0⟩, 2⟩ : CompProps)),
       ("b", ⟨⟨1, σ, ⟨3, 0, 0⟩, fun i j => if i = j then 1 else 0⟩, 2⟩)] = .ok a := by
    unfold summarise compositeCog
    simp only
    split
    · exact ⟨_, rfl⟩
    · exact ⟨_, rfl⟩
  obtain ⟨a, hs⟩ := hs
  obtain ⟨st', h⟩ := (analyseGenerated_ok demoLib demoAnalysed _ a).2 ⟨_, hl, hs⟩
  obtain ⟨e1, -, e2, e3, e4, -⟩ := summarise_ok _ a hs
  refine ⟨a, st', h, by rw [masses, e1]; rfl, by rw [e3]; simp, by rw [e2]; norm_num, by rw [e4]; norm_num, ?_⟩
  rw [e1]
  intro e he i j
  simp only [List.mem_cons, List.not_mem_nil, or_false] at he
  rcases he with rfl | rfl <;> rfl

/-- C77 fails for a vehicle all of whose densities are zero: the analysis returns normally, without finite centre. -/
theorem C77_massless_violated : ¬ ∀ lib st dens, st.veh.generated = true →
    (∀ a st', analyse lib 1 st dens = (.ok a, st') → a.mass = 0) → MasslessRaises lib st dens := by
  intro H
  obtain ⟨a, st', h, -, hm, -⟩ := demoAnalysed_ok 0 0 0
  obtain ⟨x, st'', h'⟩ := H demoLib demoAnalysed [("a", 0), ("b", 0)] rfl
    (by intro b st'' hb; rw [h] at hb; cases hb; rw [hm]; norm_num) 0
  rw [h] at h'
  cases h'

/-- The hypotheses of C76 and C77 hold for a vehicle with two components of masses 1 and 2. -/
example : ∃ a st', analyse demoLib 1 demoAnalysed [("a", 1), ("b", 2)] = (.ok a, st') ∧ demoAnalysed.veh.generated = true ∧
    a.mass ≠ 0 ∧ (∀ e ∈ masses a, 0 < e.1) ∧ a.cog = some ⟨2, 0, 0⟩ := by
  obtain ⟨a, st', h, h1, h2, -⟩ := demoAnalysed_ok 1 2 0
  have hm : a.mass ≠ 0 := by rw [h2]; norm_num
  refine ⟨a, st', h, rfl, hm, by rw [h1]; simp, ?_⟩
  rw [C77_mean demoLib 0 demoAnalysed st' _ a rfl h hm, h1]
  congr 1
  ext <;> norm_num [weightedMean]

/-- The hypotheses of `C76_missing_density` hold for it when only one density is given, and those of `C76_order` hold for
it and the vehicle with the components added in the other order. -/
example : ("b", 1) ∈ demoAnalysed.veh.named ∧ Dict.get? [("a", (1 : ℝ))] "b" = none ∧
    demoAnalysed.veh.named.Perm [("b", 1), ("a", 0)] := by
  refine ⟨by simp [demoAnalysed], by simp [Dict.get?], ?_⟩
  exact .swap _ _ _

/-! ## C78 -/

namespace Spec

/-- The coordinates of a vector. -/
def coord (v : V) : Fin 3 → ℝ := ![v.x, v.y, v.z]

/-- The parallel axis theorem: inertia about the axes through the point at offset `r` from the centre. -/
def steiner (p : MassProps) (r : V) (i j : Fin 3) : ℝ :=
  p.moi i j + p.mass * ((if i = j then r.x ^ 2 + r.y ^ 2 + r.z ^ 2 else 0) - coord r i * coord r j)

/-- The inertia of the vehicle about its centre of gravity `g`. -/
def inertia (a : Analysis) (g : V) (i j : Fin 3) : ℝ := (a.components.map fun q => steiner q.2.props (q.2.props.cog - g) i j).sum

end Spec

/-- The inertia the analysis returns. -/
theorem moi_returned (lib : Lib) (depth : ℕ) (st st' : VState) (dens : Dict String ℝ) (a : Analysis)
    (hg : st.veh.generated = true) (h : analyse lib (depth + 1) st dens = (.ok a, st')) (hm : a.mass ≠ 0) :
    ∃ g I, a.cog = some g ∧ a.moi = some I ∧ ∀ i j, I i j =
      (a.components.map fun q => q.2.props.moi i j + q.2.props.mass * coord (q.2.props.cog - g) j ^ 2).sum := by
  rw [analyse_generated lib depth st dens hg] at h
  obtain ⟨l, -, h2⟩ := (analyseGenerated_ok lib st dens a).1 ⟨st', h⟩
  obtain ⟨rfl, -, -, -, -, -, z⟩ := summarise_ok l a h2
  obtain ⟨g, e1, e2, -⟩ := z hm
  refine ⟨g, _, e1, e2, fun i j => ?_⟩
  rw [moi_sum]
  rfl

theorem sum_zero_of_nonneg (l : List ℝ) (hn : ∀ x ∈ l, 0 ≤ x) (h : l.sum = 0) : ∀ x ∈ l, x = 0 := by
  induction l with
  | nil => simp
  | cons a l ih =>
    have h1 := hn a List.mem_cons_self
    have h2 : 0 ≤ l.sum := List.sum_nonneg fun x hx => hn x (List.mem_cons_of_mem _ hx)
    rw [List.sum_cons] at h
    intro x hx
    rcases List.mem_cons.1 hx with rfl | hx
    · linarith
    · exact ih (fun x hx => hn x (List.mem_cons_of_mem _ hx)) (by linarith) x hx

theorem trace_gap (l : List (String × CompProps)) (g : V) :
    (l.map fun q => q.2.props.moi 0 0 + q.2.props.mass * coord (q.2.props.cog - g) 0 ^ 2).sum +
    (l.map fun q => q.2.props.moi 1 1 + q.2.props.mass * coord (q.2.props.cog - g) 1 ^ 2).sum +
    (l.map fun q => q.2.props.moi 2 2 + q.2.props.mass * coord (q.2.props.cog - g) 2 ^ 2).sum +
    (l.map fun q => q.2.props.mass * Vec.dot (q.2.props.cog - g) (q.2.props.cog - g)).sum =
    (l.map fun q => steiner q.2.props (q.2.props.cog - g) 0 0).sum + (l.map fun q => steiner q.2.props (q.2.props.cog - g) 1 1).sum +
    (l.map fun q => steiner q.2.props (q.2.props.cog - g) 2 2).sum := by
  induction l with
  | nil => simp
  | cons e l ih =>
    simp only [List.map_cons, List.sum_cons]
    have : ∀ (p : MassProps) (r : V), steiner p r 0 0 + steiner p r 1 1 + steiner p r 2 2 =
        (p.moi 0 0 + p.mass * coord r 0 ^ 2) + (p.moi 1 1 + p.mass * coord r 1 ^ 2) + (p.moi 2 2 + p.mass * coord r 2 ^ 2) +
          p.mass * Vec.dot r r := by
      intro p r
      simp [steiner, coord, Vec.dot]; ring
    have := this e.2.props (e.2.props.cog - g)
    linarith

/-- C78: for positive masses the returned inertia is that of the parallel axis theorem exactly when all components have
their centres at the vehicle's.  Missing: any other vehicle, for which the returned inertia is wrong. -/
theorem C78_partial (lib : Lib) (depth : ℕ) (st st' : VState) (dens : Dict String ℝ) (a : Analysis)
    (hg : st.veh.generated = true) (h : analyse lib (depth + 1) st dens = (.ok a, st'))
    (hpos : ∀ e ∈ masses a, 0 < e.1) :
    ∃ g I, a.cog = some g ∧ a.moi = some I ∧ ((∀ i j, I i j = inertia a g i j) ↔ ∀ e ∈ masses a, e.2 = g) := by
  have h' := h
  rw [analyse_generated lib depth st dens hg] at h'
  obtain ⟨l, -, h2⟩ := (analyseGenerated_ok lib st dens a).1 ⟨st', h'⟩
  obtain ⟨rfl, hne, -⟩ := summarise_ok l a h2
  have hp := sum_pos' (masses a) (by simpa [masses] using hne) hpos
  have hm : a.mass ≠ 0 := by rw [mass_masses _ a h2]; exact hp.ne'
  obtain ⟨g, I, e1, e2, e3⟩ := moi_returned lib depth st st' dens a hg h hm
  refine ⟨g, I, e1, e2, ?_, ?_⟩
  · intro hI e he
    have t := trace_gap a.components g
    rw [← e3, ← e3, ← e3] at t
    rw [hI, hI, hI] at t
    simp only [inertia] at t
    have z : (a.components.map fun q => q.2.props.mass * Vec.dot (q.2.props.cog - g) (q.2.props.cog - g)).sum = 0 := by linarith
    have hnn : ∀ x ∈ a.components.map fun q => q.2.props.mass * Vec.dot (q.2.props.cog - g) (q.2.props.cog - g), 0 ≤ x := by
      intro x hx
      obtain ⟨q, hq, rfl⟩ := List.mem_map.1 hx
      have := hpos (q.2.props.mass, q.2.props.cog) (List.mem_map.2 ⟨q, hq, rfl⟩)
      refine mul_nonneg this.le ?_
      unfold Vec.dot
      nlinarith [sq_nonneg (q.2.props.cog - g).x, sq_nonneg (q.2.props.cog - g).y, sq_nonneg (q.2.props.cog - g).z]
    obtain ⟨q, hq, rfl⟩ := List.mem_map.1 he
    have := sum_zero_of_nonneg _ hnn z _ (List.mem_map.2 ⟨q, hq, rfl⟩)
    have hq0 := hpos _ he
    rcases mul_eq_zero.1 this with h0 | h0
    · simp only at hq0; rw [h0] at hq0; exact absurd hq0 (lt_irrefl _)
    · unfold Vec.dot at h0
      have hx : (q.2.props.cog - g).x = 0 := by nlinarith [sq_nonneg (q.2.props.cog - g).x, sq_nonneg (q.2.props.cog - g).y, sq_nonneg (q.2.props.cog - g).z]
      have hy : (q.2.props.cog - g).y = 0 := by nlinarith [sq_nonneg (q.2.props.cog - g).x, sq_nonneg (q.2.props.cog - g).y, sq_nonneg (q.2.props.cog - g).z]
      have hz : (q.2.props.cog - g).z = 0 := by nlinarith [sq_nonneg (q.2.props.cog - g).x, sq_nonneg (q.2.props.cog - g).y, sq_nonneg (q.2.props.cog - g).z]
      simp only [Vec.sub_x, Vec.sub_y, Vec.sub_z, sub_eq_zero] at hx hy hz
      ext <;> assumption
  · intro hc i j
    rw [e3, inertia]
    apply congrArg
    apply List.map_congr_left
    intro q hq
    have := hc (q.2.props.mass, q.2.props.cog) (List.mem_map.2 ⟨q, hq, rfl⟩)
    simp only at this
    rw [this]
    fin_cases i <;> fin_cases j <;> simp [steiner, coord]

/-- C78, symmetry: with symmetric component inertias the returned inertia is symmetric exactly when the second moments of
the component centres along the three axes agree. -/
theorem C78_symmetric_partial (lib : Lib) (depth : ℕ) (st st' : VState) (dens : Dict String ℝ) (a : Analysis)
    (hg : st.veh.generated = true) (h : analyse lib (depth + 1) st dens = (.ok a, st')) (hm : a.mass ≠ 0)
    (hs : ∀ q ∈ a.components, ∀ i j, q.2.props.moi i j = q.2.props.moi j i) :
    ∃ g I, a.cog = some g ∧ a.moi = some I ∧ ((∀ i j, I i j = I j i) ↔
      ∀ i j, (a.components.map fun q => q.2.props.mass * coord (q.2.props.cog - g) i ^ 2).sum =
        (a.components.map fun q => q.2.props.mass * coord (q.2.props.cog - g) j ^ 2).sum) := by
  obtain ⟨g, I, e1, e2, e3⟩ := moi_returned lib depth st st' dens a hg h hm
  refine ⟨g, I, e1, e2, ?_⟩
  have split : ∀ i j, I i j = (a.components.map fun q => q.2.props.moi i j).sum +
      (a.components.map fun q => q.2.props.mass * coord (q.2.props.cog - g) j ^ 2).sum := by
    intro i j; rw [e3, ← List.sum_map_add]
  have sym : ∀ i j, (a.components.map fun q => q.2.props.moi i j).sum = (a.components.map fun q => q.2.props.moi j i).sum := by
    intro i j
    exact congrArg _ (List.map_congr_left fun q hq => hs q hq i j)
  constructor
  · intro hI i j
    have := hI i j
    rw [split, split, sym i j] at this
    linarith
  · intro hI i j
    rw [split, split, sym i j, hI i j]

/-- C78 fails for two unit masses three units apart: the returned inertia is neither that of the parallel axis theorem nor
symmetric. -/
theorem C78_violated : ∃ a st' g I, analyse demoLib 1 demoAnalysed [("a", 1), ("b", 1)] = (.ok a, st') ∧ a.cog = some g ∧
    a.moi = some I ∧ (∃ i j, I i j ≠ inertia a g i j) ∧ (∀ q ∈ a.components, ∀ i j, q.2.props.moi i j = q.2.props.moi j i) ∧
    I 0 1 ≠ I 1 0 := by
  obtain ⟨a, st', h, h1, h2, -, -, h3⟩ := demoAnalysed_ok 1 1 0
  have hm : a.mass ≠ 0 := by rw [h2]; norm_num
  have hc := C77_mean demoLib 0 demoAnalysed st' _ a rfl h hm
  obtain ⟨g, I, e1, e2, e3⟩ := C78_partial demoLib 0 demoAnalysed st' _ a rfl h (by rw [h1]; simp)
  have hsym : ∀ q ∈ a.components, ∀ i j, q.2.props.moi i j = q.2.props.moi j i := by
    intro q hq i j; rw [h3 q hq, h3 q hq]; simp [eq_comm]
  have hg : g = ⟨3 / 2, 0, 0⟩ := by
    rw [e1] at hc
    cases hc
    rw [h1]
    ext <;> norm_num [weightedMean]
  refine ⟨a, st', g, I, h, e1, e2, ?_, hsym, ?_⟩
  · by_contra hn
    push Not at hn
    have := e3.1 hn (1, ⟨0, 0, 0⟩) (by rw [h1]; simp)
    rw [hg] at this
    norm_num at this
  · obtain ⟨g', I', e1', e2', e3'⟩ := moi_returned demoLib 0 demoAnalysed st' _ a rfl h hm
    rw [e1] at e1'
    rw [e2] at e2'
    cases e1'
    cases e2'
    have hl : ∃ p q, a.components = [p, q] ∧ p.2.props.mass = 1 ∧ p.2.props.cog = ⟨0, 0, 0⟩ ∧ q.2.props.mass = 1 ∧
        q.2.props.cog = ⟨3, 0, 0⟩ := by
      unfold masses at h1
      rcases hcs : a.components with _ | ⟨p, _ | ⟨q, _ | ⟨r, l⟩⟩⟩ <;> rw [hcs] at h1 <;> simp at h1
      exact ⟨p, q, rfl, h1.1.1, h1.1.2, h1.2.1, h1.2.2⟩
    obtain ⟨p, q, hl, p1, p2, q1, q2⟩ := hl
    have hp : ∀ i j, p.2.props.moi i j = if i = j then 1 else 0 := h3 p (by rw [hl]; simp)
    have hq : ∀ i j, q.2.props.moi i j = if i = j then 1 else 0 := h3 q (by rw [hl]; simp)
    rw [e3', e3', hl, hg]
    simp [p1, p2, q1, q2, hp, hq, coord]
    norm_num

/-! ## C79 -/

theorem analyseGenerated_same (lib : Lib) (s0 s : VState) (dens : Dict String ℝ) (a : Analysis)
    (hx : analyseGenerated lib s0 dens = (.ok a, s)) : SameBut s0.heap s.heap := by
  unfold analyseGenerated at hx
  rcases hc : assessAll lib dens s0.heap s0.veh.named with ⟨x | l', g⟩
  · rw [hc] at hx; simp at hx
  · rw [hc] at hx
    simp only at hx
    rcases hs : summarise l' with x | b'
    · rw [hs] at hx; simp at hx
    · rw [hs] at hx
      simp only [Prod.mk.injEq] at hx
      obtain ⟨-, rfl⟩ := hx
      exact assessAll_same lib _ s0.heap _ _ _ (SameBut.refl _) l' hc

/-- An analysis repeated on the state it leaves gives the same result. -/
theorem analyseGenerated_again (lib : Lib) (s0 s s' : VState) (dens : Dict String ℝ) (a : Analysis)
    (hx : analyseGenerated lib s0 dens = (.ok a, s)) (hh : s'.heap = s.heap) (hn : s'.veh.named = s0.veh.named) :
    ∃ s'', analyseGenerated lib s' dens = (.ok a, s'') := by
  obtain ⟨l, l1, l2⟩ := (analyseGenerated_ok lib _ _ a).1 ⟨s, hx⟩
  have hsame := analyseGenerated_same lib s0 s dens a hx
  refine (analyseGenerated_ok lib s' dens a).2 ⟨l, ?_, l2⟩
  rw [hn, hh]
  refine l1.imp fun e q hq => ?_
  obtain ⟨q1, M, c, ρ, q2, q3, q4, q5⟩ := hq
  obtain ⟨c', hc'⟩ := ((hsame e.2).2 M).2 ⟨c, q2⟩
  exact ⟨q1, M, c', ρ, hc', q3, q4, q5⟩

theorem genAnalyse_stored (lib : Lib) (depth n : ℕ) (s0 st' : VState) (dens : Dict String ℝ) (hne : dens ≠ [])
    (hg : s0.veh.generated = true) (ho : s0.veh.analyseOn = some dens)
    (ha : genAnalyse (analyse lib (depth + 1)) s0 = (.ok (), st')) :
    ∃ a st'', st'.veh.analysisResults = some a ∧ st'.veh.generated = true ∧ analyse lib (n + 1) st' dens = (.ok a, st'') := by
  unfold genAnalyse at ha
  rcases dens with _ | ⟨d, ds⟩
  · exact absurd rfl hne
  · rw [ho] at ha
    simp only at ha
    rw [analyse_generated lib depth _ _ hg] at ha
    rcases hx : analyseGenerated lib s0 (d :: ds) with ⟨x | a, s⟩
    · rw [hx] at ha; simp at ha
    · rw [hx] at ha
      simp only [Prod.mk.injEq, true_and] at ha
      obtain ⟨-, b, hb⟩ := analyseGenerated_frame lib s0 (d :: ds)
      rw [hx] at hb
      simp only at hb
      have hgen : st'.veh.generated = true := by rw [← ha, hb]; exact hg
      obtain ⟨s'', h''⟩ := analyseGenerated_again lib s0 s st' _ a hx (by rw [← ha]) (by rw [← ha, hb])
      exact ⟨a, s'', by rw [← ha], hgen, by rw [analyse_generated lib n _ _ hgen]; exact h''⟩

/-- C79: the results stored by `generate` are those of a subsequent analysis with the same densities; they come from the
generated geometry. -/
theorem C79_stored (lib : Lib) (depth n : ℕ) (st st' : VState) (dens : Dict String ℝ) (hne : dens ≠ [])
    (ho : st.veh.analyseOn = some dens) (h : generate lib (depth + 1) st = (.ok (), st')) :
    ∃ a st'', st'.veh.analysisResults = some a ∧ analyse lib (n + 1) st' dens = (.ok a, st'') ∧ Totals lib st' dens a := by
  obtain ⟨h1, h2, -, -, ha, -, -⟩ := generate_steps lib (depth + 1) st st' h
  obtain ⟨a, st'', e1, e2, e3⟩ := genAnalyse_stored lib depth n ⟨h2, { st.veh with generated := true }⟩ st' dens hne rfl ho ha
  exact ⟨a, st'', e1, e3, C76_sums lib n st' st'' _ a e2 e3⟩

/-- C79: an empty dictionary of densities, for which `generate` skips the analysis, is one for which a subsequent analysis
raises. -/
theorem C79_empty (lib : Lib) (depth : ℕ) (st : VState) (hg : st.veh.generated = true) :
    ∃ x st', analyse lib (depth + 1) st [] = (.error x, st') := by
  rcases hn : st.veh.named with _ | ⟨e, l⟩
  · exact C77_massless_partial lib st [] hg hn depth
  · exact C76_missing_density lib depth st [] hg e (by rw [hn]; simp) rfl

theorem genAnalyse_depth (lib : Lib) (depth : ℕ) (st : VState) (hg : st.veh.generated = true) :
    genAnalyse (analyse lib (depth + 1)) st = genAnalyse (analyseGenerated lib) st := by
  unfold genAnalyse
  rcases st.veh.analyseOn with _ | _ | ⟨d, ds⟩
  · rfl
  · rfl
  · simp only [analyse_generated lib depth st _ hg]

/-- C79: `generate` does not generate again while analysing: it is `generate` with an analysis that never generates. -/
theorem C79_no_nested (lib : Lib) (depth : ℕ) (st : VState) :
    generate lib (depth + 1) st = generateWith (analyseGenerated lib) st := by
  unfold generate generateWith
  rcases hg : genAll st.veh.angleOffset st.heap st.veh.components with ⟨_ | _, h1⟩
  · rfl
  · simp only
    by_cases ht : st.veh.transformations = []
    · have e : genTransform ⟨h1, { st.veh with generated := true }⟩ = (.ok (), ⟨h1, { st.veh with generated := true }⟩) := by
        simp [genTransform, ht]
      rw [e]
      exact genAnalyse_depth lib depth _ rfl
    · rcases hx : transformAll h1 st.veh.transformations st.veh.components with ⟨x | _, h2⟩
      · have e : genTransform ⟨h1, { st.veh with generated := true }⟩ = (.error x, ⟨h2, { st.veh with generated := true }⟩) := by
          simp [genTransform, ht, transform, TransfArg.toList, hx]
        rw [e]
      · have e : genTransform ⟨h1, { st.veh with generated := true }⟩ = (.ok (), ⟨h2, { st.veh with generated := true }⟩) := by
          simp [genTransform, ht, transform, TransfArg.toList, hx]
        rw [e]
        exact genAnalyse_depth lib depth _ rfl

/-- C79: analysing a vehicle which is not generated generates it once, and analyses the outcome without generating again. -/
theorem C79_once (lib : Lib) (depth : ℕ) (st : VState) (dens : Dict String ℝ) (hg : st.veh.generated = false) :
    analyse lib (depth + 2) st dens = match generateWith (analyseGenerated lib) st with
      | (.error x, st') => (.error x, st')
      | (.ok _, st') => analyseGenerated lib st' dens := by
  have := C79_no_nested lib depth st
  unfold generate at this
  rw [analyse, analyseWith, this]
  rcases generateWith (analyseGenerated lib) st with ⟨x | _, st'⟩ <;> simp [hg]

/-- C79: the analysis terminates: its result does not depend on how many nested calls are allowed, if at least two are. -/
theorem C79_terminates (lib : Lib) (n m : ℕ) (st : VState) (dens : Dict String ℝ) :
    analyse lib (n + 2) st dens = analyse lib (m + 2) st dens := by
  rcases hg : st.veh.generated
  · rw [C79_once lib n st dens hg, C79_once lib m st dens hg]
  · rw [analyse_generated lib (n + 1) st dens hg, analyse_generated lib (m + 1) st dens hg]

/-- A vehicle with two components to be analysed after generating. -/
noncomputable def demoToAnalyse : VState :=
  ⟨fun k => demoMeshed (3 * k), { components := [0, 1], named := [("a", 0), ("b", 1)], analyseOn := some [("a", 1), ("b", 2)] }⟩

/-- The hypotheses of `C79_stored` and `C79_once` hold for it. -/
example : ∃ st', generate demoLib 1 demoToAnalyse = (.ok (), st') ∧ demoToAnalyse.veh.generated = false ∧
    demoToAnalyse.veh.analyseOn = some [("a", 1), ("b", 2)] := by
  obtain ⟨h1, hg, m0, m1⟩ : ∃ h1, genAll demoToAnalyse.veh.angleOffset demoToAnalyse.heap demoToAnalyse.veh.components = (.ok (), h1) ∧
      (h1 0).mesh_ = some (demoMeshAt (3 * (0 : ℕ))) ∧ (h1 1).mesh_ = some (demoMeshAt (3 * (1 : ℕ))) := ⟨_, rfl, rfl, rfl⟩
  have hm : ∀ (c : Comp) (x : ℝ), c.mesh_ = some (demoMeshAt x) → c.mesh = (.ok (demoMeshAt x), c) := by
    intro c x hc
    simp [Comp.mesh, hc, demoMeshAt, StlMesh.ofTris]
  have hl : List.Forall₂ (AssessedAs demoLib [("a", 1), ("b", 2)] h1) [("a", 0), ("b", 1)]
      [("a", ⟨⟨1, 1, ⟨3 * (0 : ℕ), 0, 0⟩, fun i j => if i = j then 1 else 0⟩, 2⟩),
       ("b", ⟨⟨1, 2, ⟨3 * (1 : ℕ), 0, 0⟩, fun i j => if i = j then 1 else 0⟩, 2⟩)] :=
    .cons ⟨rfl, demoMeshAt (3 * (0 : ℕ)), h1 0, 1, hm _ _ m0, rfl, rfl, rfl⟩
      (.cons ⟨rfl, demoMeshAt (3 * (1 : ℕ)), h1 1, 2, hm _ _ m1, by simp [Dict.get?], rfl, rfl⟩ .nil)
  obtain ⟨a, hs⟩ : ∃ a, summarise [("a", (⟨⟨1, 1, ⟨3 * (0 : ℕ), 0, 0⟩, fun i j => if i = j then 1 else 0⟩, 2⟩ : CompProps)),
       ("b", ⟨⟨1, 2, ⟨3 * (1 : ℕ), 0, 0⟩, fun i j => if i = j then 1 else 0⟩, 2⟩)] = .ok a := by
    unfold summarise compositeCog
    simp only
    split
    · exact ⟨_, rfl⟩
    · exact ⟨_, rfl⟩
  obtain ⟨s, hx⟩ := (analyseGenerated_ok demoLib ⟨h1, { demoToAnalyse.veh with generated := true }⟩ [("a", 1), ("b", 2)] a).2
    ⟨_, hl, hs⟩
  refine ⟨⟨s.heap, { s.veh with analysisResults := some a }⟩, ?_, rfl, rfl⟩
  rw [C79_no_nested demoLib 0]
  unfold generateWith
  rw [hg]
  have e : genTransform ⟨h1, { demoToAnalyse.veh with generated := true }⟩ =
      (.ok (), ⟨h1, { demoToAnalyse.veh with generated := true }⟩) := by simp [genTransform, demoToAnalyse]
  simp only
  rw [e]
  simp only
  have ho : ∀ (an : Analyser) (s0 : VState) (d : String × ℝ) (ds : Dict String ℝ), s0.veh.analyseOn = some (d :: ds) →
      an s0 (d :: ds) = (.ok a, s) → genAnalyse an s0 = (.ok (), ⟨s.heap, { s.veh with analysisResults := some a }⟩) := by
    intro an s0 d ds h1 h2
    unfold genAnalyse
    rw [h1]
    simp only
    rw [h2]
  exact ho _ _ _ _ rfl hx

end HV
