import Verif.Props.MovedMass

/-!
# C167: how the densities enter the analysis
-/

namespace HV
open Spec Veh

namespace Spec

/-- The same component assessed with two densities. -/
def Reassessed (lib : Lib) (dens dens' : Dict String ℝ) (q q' : String × CompProps) : Prop :=
  q'.1 = q.1 ∧ q'.2.area = q.2.area ∧ ∃ M ρ ρ', dens.get? q.1 = some ρ ∧ dens'.get? q.1 = some ρ' ∧ lib.massProps M ρ = .ok q.2.props ∧
    lib.massProps M ρ' = .ok q'.2.props

end Spec

theorem reassessed_list (lib : Lib) (dens dens' : Dict String ℝ) (h g : Heap) (hg : SameBut h g) (l : List (String × ℕ)) :
    ∀ ps qs : List (String × CompProps), List.Forall₂ (AssessedAs lib dens h) l ps → List.Forall₂ (AssessedAs lib dens' g) l qs →
      List.Forall₂ (Reassessed lib dens dens') ps qs := by
  induction l with
  | nil => intro ps qs h1 h2; cases h1; cases h2; exact .nil
  | cons e l ih =>
    intro ps qs h1 h2
    cases h1 with
    | cons a1 b1 =>
      cases h2 with
      | cons a2 b2 =>
        refine .cons ?_ (ih _ _ b1 b2)
        obtain ⟨n1, M, c, ρ, m1, m2, m3, m4⟩ := a1
        obtain ⟨n2, M', c', ρ', k1, k2, k3, k4⟩ := a2
        obtain ⟨c'', k1⟩ := ((hg e.2).2 M').1 ⟨c', k1⟩
        rw [m1] at k1
        obtain rfl := Except.ok.inj (Prod.mk.inj k1).1
        exact ⟨by rw [n1, n2], by rw [m4, k4], M, ρ, ρ', by rw [n1]; exact m2, by rw [n1]; exact k2, m3, k3⟩

theorem analyse_same (lib : Lib) (depth : ℕ) (st st' : VState) (dens : Dict String ℝ) (a : Analysis) (hg : st.veh.generated = true)
    (h : analyse lib (depth + 1) st dens = (.ok a, st')) :
    SameBut st.heap st'.heap ∧ st'.veh.named = st.veh.named ∧ st'.veh.generated = true := by
  rw [analyse_generated lib depth st dens hg] at h
  unfold analyseGenerated at h
  rcases hc : assessAll lib dens st.heap st.veh.named with ⟨x | l, g⟩
  · rw [hc] at h; simp at h
  · rw [hc] at h
    simp only at h
    rcases hs : summarise l with x | b
    · rw [hs] at h; simp at h
    · rw [hs] at h
      simp only [Prod.mk.injEq, Except.ok.injEq] at h
      obtain ⟨-, rfl⟩ := h
      exact ⟨assessAll_same lib dens st.heap _ _ g (SameBut.refl _) l hc, rfl, hg⟩

/-- Two analyses of a vehicle, one after the other. -/
theorem two_analyses (lib : Lib) (depth depth' : ℕ) (st st1 st2 : VState) (dens dens' : Dict String ℝ) (a b : Analysis)
    (hg : st.veh.generated = true) (h : analyse lib (depth + 1) st dens = (.ok a, st1))
    (h' : analyse lib (depth' + 1) st1 dens' = (.ok b, st2)) :
    List.Forall₂ (Reassessed lib dens dens') a.components b.components ∧ summarise a.components = .ok a ∧ summarise b.components = .ok b ∧
      List.Forall₂ (AssessedAs lib dens st.heap) st.veh.named a.components := by
  obtain ⟨k1, k2, k3⟩ := analyse_same lib depth st st1 dens a hg h
  rw [analyse_generated lib depth st dens hg] at h
  rw [analyse_generated lib depth' st1 dens' k3] at h'
  obtain ⟨l, f1, s1⟩ := (analyseGenerated_ok lib st dens a).1 ⟨_, h⟩
  obtain ⟨l', f2, s2⟩ := (analyseGenerated_ok lib st1 dens' b).1 ⟨_, h'⟩
  rw [k2] at f2
  obtain ⟨e1, -⟩ := summarise_ok l a s1
  obtain ⟨e2, -⟩ := summarise_ok l' b s2
  rw [e1, e2]
  exact ⟨reassessed_list lib dens dens' _ _ k1 _ _ _ f1 f2, s1, s2, f1⟩

/-! ## Only the densities of the vehicle's own components matter -/

/-- C167: densities given for other names than those of the components do not matter, nor does the order of the dictionary: analysing again
with the same densities for the components reports the same. -/
theorem C167_only_named (lib : Lib) (depth depth' : ℕ) (st st1 st2 : VState) (dens dens' : Dict String ℝ) (a b : Analysis)
    (hg : st.veh.generated = true) (hd : ∀ n ∈ st.veh.named.map Prod.fst, dens'.get? n = dens.get? n)
    (h : analyse lib (depth + 1) st dens = (.ok a, st1)) (h' : analyse lib (depth' + 1) st1 dens' = (.ok b, st2)) : b = a := by
  obtain ⟨f, s1, s2, f1⟩ := two_analyses lib depth depth' st st1 st2 dens dens' a b hg h h'
  have hn : ∀ q ∈ a.components, dens'.get? q.1 = dens.get? q.1 := by
    intro q hq
    have : a.components.map Prod.fst = st.veh.named.map Prod.fst := by
      clear f s1 s2 hd h h'
      generalize st.veh.named = l at f1
      generalize a.components = ps at f1
      induction f1 with
      | nil => rfl
      | cons x _ ih => simp only [List.map_cons, ih, x.1]
    exact hd q.1 (by rw [← this]; exact List.mem_map_of_mem hq)
  have : b.components = a.components := by
    generalize a.components = ps at f hn
    generalize b.components = qs at f
    clear s1 s2 f1 h h' hd
    induction f with
    | nil => rfl
    | @cons q q' l l' x _ ih =>
      rw [ih fun q hq => hn q (List.mem_cons_of_mem _ hq)]
      obtain ⟨x1, x2, M, ρ, ρ', x3, x4, x5, x6⟩ := x
      have := hn q (by simp)
      rw [x3, x4] at this
      obtain rfl := Option.some.inj this
      rw [x5] at x6
      have : q' = q := Prod.ext x1 (by
        rcases q with ⟨n, ⟨p, r⟩⟩
        rcases q' with ⟨n', ⟨p', r'⟩⟩
        simp only at x2 x6 ⊢
        rw [x2, Except.ok.inj x6])
      rw [this]
  rw [this, s1] at s2
  exact (Except.ok.inj s2).symm

/-! ## One component, two densities -/

theorem reassessed_props (lib : Lib) (hl : NumpyStlInertia lib) (M : StlMesh) (ρ ρ' : ℝ) (p p' : MassProps) (h : lib.massProps M ρ = .ok p)
    (h' : lib.massProps M ρ' = .ok p') (hv : p.volume ≠ 0) :
    p'.volume = p.volume ∧ p.mass = ρ * p.volume ∧ p'.mass = ρ' * p.volume ∧ p'.cog = p.cog ∧ ∀ i j, ρ * p'.moi i j = ρ' * p.moi i j := by
  have e : p'.volume = p.volume := by rw [hl.volume M ρ p h, hl.volume M ρ' p' h']
  have hc : p'.cog = p.cog := by rw [hl.cog M ρ p h hv, hl.cog M ρ' p' h' (by rw [e]; exact hv), e]
  refine ⟨e, hl.mass M ρ p h, by rw [hl.mass M ρ' p' h', e], hc, fun i j => ?_⟩
  rw [hl.moi M ρ p h hv, hl.moi M ρ' p' h' (by rw [e]; exact hv), e, hc]
  unfold inertiaOf
  split <;> ring

theorem sum_forall₂ {α : Type} {R : α → α → Prop} {l l' : List α} (h : List.Forall₂ R l l') (f f' : α → ℝ)
    (hR : ∀ q ∈ l, ∀ q', R q q' → f q' = f' q) : (l'.map f).sum = (l.map f').sum := by
  induction h with
  | nil => rfl
  | @cons q q' l l' x _ ih =>
    simp only [List.map_cons, List.sum_cons]
    rw [hR q (by simp) q' x, ih fun q hq => hR q (List.mem_cons_of_mem _ hq)]

theorem sum_times {α : Type} (l : List α) (f : α → ℝ) (k : ℝ) : (l.map fun q => k * f q).sum = k * (l.map f).sum := by
  induction l with
  | nil => simp
  | cons q l ih => simp only [List.map_cons, List.sum_cons, ih]; ring

/-! ## All densities scaled -/

/-- C167: with all densities multiplied by the same factor (another unit of mass, say), volume, area and centre of gravity stay, mass and moment
of inertia are multiplied by the factor. -/
theorem C167_scaled (lib : Lib) (hl : NumpyStlInertia lib) (depth depth' : ℕ) (st st1 st2 : VState) (dens dens' : Dict String ℝ) (a b : Analysis)
    (k : ℝ) (hk : k ≠ 0) (hg : st.veh.generated = true)
    (hd : ∀ n ρ, dens.get? n = some ρ → dens'.get? n = some (k * ρ))
    (h : analyse lib (depth + 1) st dens = (.ok a, st1)) (h' : analyse lib (depth' + 1) st1 dens' = (.ok b, st2))
    (hv : ∀ q ∈ a.components, q.2.props.volume ≠ 0) :
    b.volume = a.volume ∧ b.area = a.area ∧ b.mass = k * a.mass ∧ b.cog = a.cog ∧ b.moi = a.moi.map fun I i j => k * I i j := by
  obtain ⟨f, s1, s2, -⟩ := two_analyses lib depth depth' st st1 st2 dens dens' a b hg h h'
  obtain ⟨-, -, v1, m1, r1, z1, g1⟩ := summarise_ok _ a s1
  obtain ⟨-, -, v2, m2, r2, z2, g2⟩ := summarise_ok _ b s2
  have key : ∀ q ∈ a.components, ∀ q', Reassessed lib dens dens' q q' → q'.2.props.volume = q.2.props.volume ∧ q'.2.props.mass = k * q.2.props.mass ∧
      q'.2.props.cog = q.2.props.cog ∧ ∀ i j, q'.2.props.moi i j = k * q.2.props.moi i j := by
    rintro q hq q' ⟨-, -, M, ρ, ρ', x3, x4, x5, x6⟩
    rw [hd _ _ x3] at x4
    obtain rfl := Option.some.inj x4
    obtain ⟨e1, e2, e3, e4, -⟩ := reassessed_props lib hl M ρ _ _ _ x5 x6 (hv q hq)
    refine ⟨e1, by rw [e3, e2]; ring, e4, fun i j => ?_⟩
    rw [hl.moi M ρ _ x5 (hv q hq), hl.moi M _ _ x6 (by rw [e1]; exact hv q hq), e1, e4]
    unfold inertiaOf
    split <;> ring
  have hm : b.mass = k * a.mass := by
    rw [m1, m2, sum_forall₂ f _ (fun q => k * q.2.props.mass) fun q hq q' x => (key q hq q' x).2.1, sum_times]
  have hc : b.cog = a.cog := by
    by_cases hz : a.mass = 0
    · rw [(z1 hz).1, (z2 (by rw [hm, hz, mul_zero])).1]
    · have hz' : b.mass ≠ 0 := by rw [hm]; exact mul_ne_zero hk hz
      obtain ⟨x, gx, -, ex⟩ := g1 hz
      obtain ⟨y, gy, -, ey⟩ := g2 hz'
      rw [gx, gy, ex, ey, vec_foldl, vec_foldl, hm]
      congr 1
      have hs : ∀ c : V → ℝ, (b.components.map fun e => e.2.props.mass * c e.2.props.cog).sum =
          k * (a.components.map fun e => e.2.props.mass * c e.2.props.cog).sum := fun c => by
        rw [sum_forall₂ f _ (fun q => k * (q.2.props.mass * c q.2.props.cog)) fun q hq q' x => by
          rw [(key q hq q' x).2.1, (key q hq q' x).2.2.1]; ring, sum_times]
      ext
      · simp only [Vec.mul_x, zero_add, hs fun v => v.x]; field_simp
      · simp only [Vec.mul_y, zero_add, hs fun v => v.y]; field_simp
      · simp only [Vec.mul_z, zero_add, hs fun v => v.z]; field_simp
  refine ⟨?_, ?_, hm, hc, ?_⟩
  · rw [v1, v2, sum_forall₂ f _ (fun q => q.2.props.volume) fun q hq q' x => (key q hq q' x).1]
  · rw [r1, r2, sum_forall₂ f _ (fun q => q.2.area) fun q hq q' x => x.2.1]
  · by_cases hz : a.mass = 0
    · rw [(z1 hz).2, (z2 (by rw [hm, hz, mul_zero])).2]; rfl
    · obtain ⟨x, gx, ix, -⟩ := g1 hz
      obtain ⟨y, gy, iy, -⟩ := g2 (by rw [hm]; exact mul_ne_zero hk hz)
      rw [hc, gx] at gy
      obtain rfl := Option.some.inj gy
      rw [ix, iy, Option.map_some]
      congr 1
      funext i j
      rw [moi_sum, moi_sum, ← sum_times]
      refine sum_forall₂ f _ _ fun q hq q' w => ?_
      obtain ⟨-, w2, w3, w4⟩ := key q hq q' w
      unfold adjusted
      rw [w2, w3, w4]; ring

/-! ## One density changed -/

theorem sum_change {α : Type} (l : List α) (f g : α → ℝ) : (l.map fun q => f q + g q).sum = (l.map f).sum + (l.map g).sum := by
  induction l with
  | nil => simp
  | cons q l ih => simp only [List.map_cons, List.sum_cons, ih]; ring

theorem sum_single {β : Type} (l : List (String × β)) (hn : (l.map Prod.fst).Nodup) (p : String × β) (hp : p ∈ l) (g : String × β → ℝ) :
    (l.map fun q => if q.1 = p.1 then g q else 0).sum = g p := by
  induction l with
  | nil => simp at hp
  | cons q l ih =>
    rw [List.map_cons, List.nodup_cons] at hn
    rw [List.map_cons, List.sum_cons]
    have hzero : ∀ m : List (String × β), (∀ r ∈ m, r.1 ≠ p.1) → (m.map fun q => if q.1 = p.1 then g q else 0).sum = 0 := by
      intro m hm
      induction m with
      | nil => simp
      | cons r m ih => simp [hm r (by simp), ih fun r hr => hm r (List.mem_cons_of_mem _ hr)]
    rcases List.mem_cons.1 hp with rfl | hp
    · rw [hzero l fun r hr e => hn.1 (by rw [← e]; exact List.mem_map_of_mem hr)]; simp
    · rw [ih hn.2 hp, if_neg fun e => hn.1 (by rw [e]; exact List.mem_map_of_mem hp), zero_add]

/-- C167: making one component denser by `δ` adds `δ` times its volume to the mass, and moves the centre of gravity straight towards the centre of
this component (away from it if mass is taken away): by the fraction `δ` times its volume over the new mass of the distance. -/
theorem C167_denser (lib : Lib) (hl : NumpyStlInertia lib) (depth depth' : ℕ) (st st1 st2 : VState) (dens dens' : Dict String ℝ) (a b : Analysis)
    (p : String × CompProps) (δ : ℝ) (hg : st.veh.generated = true) (hn : (st.veh.named.map Prod.fst).Nodup)
    (hd : ∀ n, n ≠ p.1 → dens'.get? n = dens.get? n) (hδ : ∀ ρ, dens.get? p.1 = some ρ → dens'.get? p.1 = some (ρ + δ))
    (h : analyse lib (depth + 1) st dens = (.ok a, st1)) (h' : analyse lib (depth' + 1) st1 dens' = (.ok b, st2))
    (hp : p ∈ a.components) (hv : ∀ q ∈ a.components, q.2.props.volume ≠ 0) :
    b.volume = a.volume ∧ b.area = a.area ∧ b.mass = a.mass + δ * p.2.props.volume ∧
      (a.mass ≠ 0 → b.mass ≠ 0 → ∃ g, a.cog = some g ∧ b.cog = some (g + (p.2.props.cog - g) * (δ * p.2.props.volume / b.mass))) := by
  obtain ⟨f, s1, s2, f1⟩ := two_analyses lib depth depth' st st1 st2 dens dens' a b hg h h'
  obtain ⟨-, -, v1, m1, r1, z1, g1⟩ := summarise_ok _ a s1
  obtain ⟨-, -, v2, m2, r2, z2, g2⟩ := summarise_ok _ b s2
  have hnd : (a.components.map Prod.fst).Nodup := by
    have : a.components.map Prod.fst = st.veh.named.map Prod.fst := by
      clear f s1 s2 h h' hp hv m1 v1 r1 z1 g1 hn
      generalize st.veh.named = l at f1
      generalize a.components = ps at f1
      induction f1 with
      | nil => rfl
      | cons x _ ih => simp only [List.map_cons, ih, x.1]
    rw [this]; exact hn
  have key : ∀ q ∈ a.components, ∀ q', Reassessed lib dens dens' q q' → q'.2.props.volume = q.2.props.volume ∧
      q'.2.props.mass = q.2.props.mass + (if q.1 = p.1 then δ * q.2.props.volume else 0) ∧ q'.2.props.cog = q.2.props.cog := by
    rintro q hq q' ⟨-, -, M, ρ, ρ', x3, x4, x5, x6⟩
    obtain ⟨e1, e2, e3, e4, -⟩ := reassessed_props lib hl M ρ _ _ _ x5 x6 (hv q hq)
    refine ⟨e1, ?_, e4⟩
    by_cases e : q.1 = p.1
    · rw [if_pos e]
      rw [e] at x3 x4
      rw [hδ _ x3] at x4
      obtain rfl := Option.some.inj x4
      rw [e2, e3]; ring
    · rw [if_neg e]
      rw [hd _ e, x3] at x4
      obtain rfl := Option.some.inj x4
      rw [e2, e3]; ring
  have hm : b.mass = a.mass + δ * p.2.props.volume := by
    rw [m1, m2, sum_forall₂ f _ _ fun q hq q' x => (key q hq q' x).2.1, sum_change,
      sum_single _ hnd p hp fun q => δ * q.2.props.volume]
  refine ⟨?_, ?_, hm, fun hz hz' => ?_⟩
  · rw [v1, v2, sum_forall₂ f _ (fun q => q.2.props.volume) fun q hq q' x => (key q hq q' x).1]
  · rw [r1, r2, sum_forall₂ f _ (fun q => q.2.area) fun q hq q' x => x.2.1]
  · obtain ⟨x, gx, -, ex⟩ := g1 hz
    obtain ⟨y, gy, -, ey⟩ := g2 hz'
    refine ⟨x, gx, ?_⟩
    rw [gy, ey, vec_foldl]
    rw [vec_foldl] at ex
    have hs : ∀ c : V → ℝ, (b.components.map fun e => e.2.props.mass * c e.2.props.cog).sum =
        (a.components.map fun e => e.2.props.mass * c e.2.props.cog).sum + δ * p.2.props.volume * c p.2.props.cog := fun c => by
      rw [sum_forall₂ f _ (fun q => q.2.props.mass * c q.2.props.cog + if q.1 = p.1 then δ * q.2.props.volume * c q.2.props.cog else 0)
        fun q hq q' x => by rw [(key q hq q' x).2.1, (key q hq q' x).2.2]; split <;> ring, sum_change,
        sum_single _ hnd p hp fun q => δ * q.2.props.volume * c q.2.props.cog]
    have hx : ∀ S w : ℝ, w = S * (1 / a.mass) → ∀ c : ℝ, (S + δ * p.2.props.volume * c) * (1 / b.mass) =
        w + (c - w) * (δ * p.2.props.volume / b.mass) := by
      intro S w e c
      have : S = w * a.mass := by rw [e]; field_simp
      rw [this]
      have e2 : a.mass = b.mass - δ * p.2.props.volume := by rw [hm]; ring
      rw [e2]
      field_simp
      ring
    congr 1
    ext
    · have := congrArg Vec.x ex
      simp only [Vec.mul_x, zero_add] at this
      simp only [Vec.mul_x, Vec.add_x, Vec.sub_x, zero_add, hs fun v => v.x]
      exact hx _ _ this _
    · have := congrArg Vec.y ex
      simp only [Vec.mul_y, zero_add] at this
      simp only [Vec.mul_y, Vec.add_y, Vec.sub_y, zero_add, hs fun v => v.y]
      exact hx _ _ this _
    · have := congrArg Vec.z ex
      simp only [Vec.mul_z, zero_add] at this
      simp only [Vec.mul_z, Vec.add_z, Vec.sub_z, zero_add, hs fun v => v.z]
      exact hx _ _ this _

/-! ## A component of density zero -/

/-- C167: a component of density zero does not count: mass, centre of gravity and moment of inertia are those reported for the vehicle in which this
component is not among the named ones (because it was added as a ghost, say). -/
theorem C167_weightless (lib : Lib) (hl : NumpyStlInertia lib) (depth depth' : ℕ) (st st1 st' st1' : VState) (dens : Dict String ℝ) (a b : Analysis)
    (n : String) (hg : st.veh.generated = true) (hg' : st'.veh.generated = true) (hh : st'.heap = st.heap)
    (hn : st'.veh.named = st.veh.named.filter fun e => e.1 ≠ n) (h0 : dens.get? n = some 0)
    (h : analyse lib (depth + 1) st dens = (.ok a, st1)) (h' : analyse lib (depth' + 1) st' dens = (.ok b, st1'))
    (hv : ∀ q ∈ a.components, q.2.props.volume ≠ 0) : a.mass = b.mass ∧ a.cog = b.cog ∧ a.moi = b.moi := by
  rw [analyse_generated lib depth st dens hg] at h
  rw [analyse_generated lib depth' st' dens hg'] at h'
  obtain ⟨l, f1, s1⟩ := (analyseGenerated_ok lib st dens a).1 ⟨_, h⟩
  obtain ⟨l', f2, s2⟩ := (analyseGenerated_ok lib st' dens b).1 ⟨_, h'⟩
  obtain ⟨e1, -, -, m1, -, z1, g1⟩ := summarise_ok l a s1
  obtain ⟨e2, -, -, m2, -, z2, g2⟩ := summarise_ok l' b s2
  rw [e1] at hv
  rw [hh, hn] at f2
  have hf : l' = l.filter fun q => q.1 ≠ n := by
    clear s1 s2 h h' m1 m2 z1 z2 g1 g2 e1 e2 hv hn
    generalize st.veh.named = es at f1 f2
    induction f1 generalizing l' with
    | nil => cases f2; rfl
    | @cons e q es ps x _ ih =>
      by_cases hen : e.1 = n
      · rw [List.filter_cons_of_neg (by simp [hen])] at f2
        rw [List.filter_cons_of_neg (by simp [x.1, hen])]
        exact ih l' f2
      · rw [List.filter_cons_of_pos (by simp [hen])] at f2
        rw [List.filter_cons_of_pos (by simp [x.1, hen])]
        cases f2 with
        | @cons _ q' _ qs y ys =>
          rw [ih qs ys]
          obtain ⟨x1, M, c, ρ, x2, x3, x4, x5⟩ := x
          obtain ⟨y1, M', c', ρ', y2, y3, y4, y5⟩ := y
          rw [x2] at y2
          obtain rfl := Except.ok.inj (Prod.mk.inj y2).1
          rw [x3] at y3
          obtain rfl := Option.some.inj y3
          rw [x4] at y4
          have : q' = q := Prod.ext (by rw [x1, y1]) (by
            rcases q with ⟨n, ⟨p, r⟩⟩
            rcases q' with ⟨n', ⟨p', r'⟩⟩
            simp only at x5 y4 y5 ⊢
            rw [x5, y5, Except.ok.inj y4])
          rw [this]
  have hw : ∀ q ∈ l, q.1 = n → q.2.props.mass = 0 ∧ ∀ i j, q.2.props.moi i j = 0 := by
    intro q hq e
    obtain ⟨x, hx, x1, M, c, ρ, x2, x3, x4, -⟩ : ∃ x ∈ st.veh.named, AssessedAs lib dens st.heap x q := by
      clear s1 s2 h h' m1 m2 z1 z2 g1 g2 e1 e2 hv hn hf f2
      generalize st.veh.named = es at f1
      induction f1 with
      | nil => simp at hq
      | @cons e' q' es ps x _ ih =>
        rcases List.mem_cons.1 hq with rfl | hq
        · exact ⟨e', by simp, x⟩
        · obtain ⟨x, hx, hx'⟩ := ih hq
          exact ⟨x, List.mem_cons_of_mem _ hx, hx'⟩
    rw [← x1, e, h0] at x3
    obtain rfl := Option.some.inj x3
    refine ⟨by rw [hl.mass M 0 _ x4, zero_mul], fun i j => ?_⟩
    rw [hl.moi M 0 _ x4 (hv q hq)]
    unfold inertiaOf
    split <;> ring
  have hs : ∀ f : String × CompProps → ℝ, (∀ q ∈ l, q.1 = n → f q = 0) → (l.map f).sum = (l'.map f).sum := by
    intro f hz
    rw [hf]
    clear s1 s2 h h' m1 m2 z1 z2 g1 g2 e1 e2 hv hw f1 f2 hf
    induction l with
    | nil => rfl
    | cons q l ih =>
      by_cases e : q.1 = n
      · rw [List.filter_cons_of_neg (by simp [e]), List.map_cons, List.sum_cons, hz q (by simp) e, zero_add,
          ih fun q hq => hz q (List.mem_cons_of_mem _ hq)]
      · rw [List.filter_cons_of_pos (by simp [e]), List.map_cons, List.sum_cons, List.map_cons, List.sum_cons,
          ih fun q hq => hz q (List.mem_cons_of_mem _ hq)]
  have hm : a.mass = b.mass := by rw [m1, m2]; exact hs _ fun q hq e => (hw q hq e).1
  by_cases hz : a.mass = 0
  · rw [(z1 hz).1, (z1 hz).2, (z2 (by rw [← hm]; exact hz)).1, (z2 (by rw [← hm]; exact hz)).2]
    exact ⟨hm, rfl, rfl⟩
  · obtain ⟨x, gx, ix, ex⟩ := g1 hz
    obtain ⟨y, gy, iy, ey⟩ := g2 (by rw [← hm]; exact hz)
    have hxy : x = y := by
      have hc : ∀ c : V → ℝ, (l.map fun e => e.2.props.mass * c e.2.props.cog).sum = (l'.map fun e => e.2.props.mass * c e.2.props.cog).sum :=
        fun c => hs _ fun q hq e => by rw [(hw q hq e).1, zero_mul]
      rw [ex, ey, vec_foldl, vec_foldl, hm, hc fun v => v.x, hc fun v => v.y, hc fun v => v.z]
    subst hxy
    refine ⟨hm, by rw [gx, gy], ?_⟩
    rw [ix, iy]
    congr 1
    funext i j
    rw [moi_sum, moi_sum]
    refine hs _ fun q hq e => ?_
    unfold adjusted
    rw [(hw q hq e).1, (hw q hq e).2, zero_mul, add_zero]

/-- Two prisms beside each other, of densities 1 and 2, and then of 1 and 3: the hypotheses of `C167_denser` are met. -/
example : ∃ st a st1 b st2 p, (st.veh.named.map Prod.fst).Nodup ∧ analyse numpyStlFull 1 st [("body", 1), ("right", 2)] = (.ok a, st1) ∧
    analyse numpyStlFull 1 st1 [("body", 1), ("right", 3)] = (.ok b, st2) ∧ p ∈ a.components ∧ p.1 = "right" ∧ p.2.props.volume = 1 ∧
    (∀ q ∈ a.components, q.2.props.volume ≠ 0) ∧ b.mass = a.mass + 1 := by
  obtain ⟨-, st, B, F, -, -, r, k4, ⟨M, c, k5, k5'⟩, ⟨M', c', k6, k6'⟩, k7, k8, k9, k10, -⟩ := two_parts 2 (by norm_num) numpyStlFull 0
  have hg : st.veh.generated = true := r.generated
  obtain ⟨a, st1, h1⟩ := analyse_succeeds numpyStlFull (fun M ρ => ⟨_, rfl⟩) st [("body", 1), ("right", 2)] 0 hg (by rw [k4]; simp)
    (by rw [k4]; simp only [List.mem_cons, List.not_mem_nil, or_false, forall_eq_or_imp, forall_eq]; exact ⟨⟨M, c, k5⟩, ⟨M', c', k6⟩⟩)
    (by rw [k4]; simp [Dict.get?])
  obtain ⟨n1, n2, n3⟩ := analyse_same numpyStlFull 0 st st1 _ a hg h1
  obtain ⟨d, k5d⟩ := ((n1 0).2 M).2 ⟨c, k5⟩
  obtain ⟨d', k6d⟩ := ((n1 1).2 M').2 ⟨c', k6⟩
  obtain ⟨b, st2, h2⟩ := analyse_succeeds numpyStlFull (fun M ρ => ⟨_, rfl⟩) st1 [("body", 1), ("right", 3)] 0 n3 (by rw [n2, k4]; simp)
    (by rw [n2, k4]; simp only [List.mem_cons, List.not_mem_nil, or_false, forall_eq_or_imp, forall_eq]; exact ⟨⟨M, d, k5d⟩, ⟨M', d', k6d⟩⟩)
    (by rw [n2, k4]; simp [Dict.get?])
  obtain ⟨-, -, -, f⟩ := two_analyses numpyStlFull 0 0 st st1 st2 _ _ a b hg h1 h2
  rw [k4] at f
  have hnd : (st.veh.named.map Prod.fst).Nodup := by rw [k4]; simp
  rcases hc : a.components with _ | ⟨p, _ | ⟨q, _ | ⟨r, l⟩⟩⟩ <;> rw [hc] at f
  · cases f
  · rcases f with _ | ⟨-, f⟩; cases f
  · rcases f with _ | ⟨⟨p1, P, e1, ρ, p2, -, p3, -⟩, f⟩
    rcases f with _ | ⟨⟨q1, Q, e2, ρ', q2, -, q3, -⟩, -⟩
    rw [k5] at p2
    rw [k6] at q2
    obtain rfl := Except.ok.inj (Prod.mk.inj p2).1
    obtain rfl := Except.ok.inj (Prod.mk.inj q2).1
    have vp : p.2.props.volume = 1 := by rw [numpyStlFull_ok.volume _ _ _ p3, k5', stlVolume_closed k7, k8]
    have vq : q.2.props.volume = 1 := by rw [numpyStlFull_ok.volume _ _ _ q3, k6', stlVolume_closed k9, k10]
    have hv : ∀ q ∈ a.components, q.2.props.volume ≠ 0 := by rw [hc]; simp [vp, vq]
    refine ⟨st, a, st1, b, st2, q, hnd, h1, h2, by rw [hc]; simp, q1, vq, hv, ?_⟩
    have := (C167_denser numpyStlFull numpyStlFull_ok 0 0 st st1 st2 _ _ a b q 1 hg hnd
      (by rw [q1]; intro n hn; simp [Dict.get?, Ne.symm hn]) (by rw [q1]; simp [Dict.get?]; norm_num) h1 h2 (by rw [hc]; simp) hv).2.2.1
    rw [this, vq, mul_one]
  · rcases f with _ | ⟨-, f⟩; rcases f with _ | ⟨-, f⟩; cases f

end HV
