import Verif.Lemmas.VehicleFrame
import Verif.Props.Component

/-!
# Generating and transforming vehicles: C70, C72, C73, C80
-/

namespace HV
open Spec Veh

namespace Spec

/-- The documented effect of a rotation or translation tuple on a point. -/
inductive Moved : Transf → V → V → Prop
  | rotate {angle axis i p q} : NamesAxis axis i →
      toF q = rodrigues (Pi.single i 1) (toF p) (angle * Real.pi / 180) → Moved (.rotate angle axis) p q
  | vector {v p q} : q.x = p.x + v.x → q.y = p.y + v.y → q.z = p.z + v.z → Moved (.translate (.vector v)) p q
  | callable {f d p q} : f p.x p.y p.z = .ok d → q.x = p.x + d.x → q.y = p.y + d.y → q.z = p.z + d.z →
      Moved (.translate (.callable f)) p q

/-- The effect of a list of rotations and translations, first to last. -/
inductive MovedAll : List Transf → V → V → Prop
  | nil (p : V) : MovedAll [] p p
  | cons {t ts p q r} : Moved t p q → MovedAll ts q r → MovedAll (t :: ts) p r

/-- Rotations about a coordinate axis and translations by a vector or by a function that does not raise. -/
inductive Plain : Transf → Prop
  | rotate (angle : ℝ) {axis : String} {i : Fin 3} : NamesAxis axis i → Plain (.rotate angle axis)
  | vector (v : V) : Plain (.translate (.vector v))
  | callable {f : OffFn} : (∀ x y z, ∃ d, f x y z = .ok d) → Plain (.translate (.callable f))

/-- The effect of the modifier. -/
def Modified : Option OffFn → V → V → Prop
  | none, p, q => q = p
  | some f, p, q => ∃ d, f p.x p.y p.z = .ok d ∧ q.x = p.x + d.x ∧ q.y = p.y + d.y ∧ q.z = p.z + d.z

/-- The effect of the curvatures. -/
def Curved : Option (List Curvature) → V → V → Prop
  | none, p, q => q = p
  | some l, p, q => CurvedAll l p q

/-- The effect of the reflection on a point of a patch, mirrored or not. -/
def Reflected (a : Option String) : Bool → V → V → Prop
  | false, p, q => q = p
  | true, p, q => ∃ s i, a = some s ∧ NamesAxis s i ∧ toF q = negCoord i (toF p)

/-- The way of a point of one of the component's own patches through `generate`. -/
def Way (c : Comp) (angle : ℝ) (vts : List Transf) (mirrored : Bool) (p q : V) : Prop :=
  ∃ p1 p2 p3 p4 p5, Modified c.modifier p p1 ∧ Curved c.curvatures p1 p2 ∧
    toF p3 = rodrigues (Pi.single 1 1) (toF p2) (angle * Real.pi / 180) ∧
    Reflected c.reflection_axis mirrored p3 p4 ∧ MovedAll c.transformations p4 p5 ∧ MovedAll vts p5 q

/-- Patch by patch, in order: the names are related by `N`, points by `R`, and a patch raises where the original does. -/
def PatchesRel (R : Bool → V → V → Prop) (l : List (Bool × String × Surf)) (l' : List (String × Surf)) : Prop :=
  List.Forall₂ (fun e e' => e'.1 = (if e.1 then e.2.1 ++ "_mirrored" else e.2.1) ∧
    (∀ r s p, e.2.2 r s = .ok p → ∃ q, e'.2 r s = .ok q ∧ R e.1 p q) ∧
    (∀ r s x, e.2.2 r s = .error x → e'.2 r s = .error x)) l l'

/-- The patches expected after reflection: the originals without an axis, the originals followed by the mirrored ones with an
axis, the mirrored ones only when reflections are not to be appended. -/
def expected (c : Comp) (own : List (String × Surf)) : List (Bool × String × Surf) :=
  if c.reflection_axis.isNone then own.map fun e => (false, e)
  else if c.append_reflection then own.map (fun e => (false, e)) ++ own.map fun e => (true, e)
  else own.map fun e => (true, e)

/-- The components differ in patches, patch resolutions and caches at most. -/
def SameOptions (c c' : Comp) : Prop :=
  ∃ P R S s m, c' = { c with patches := P, patch_res_r := R, patch_res_s := S, surfaces := s, mesh_ := m }

/-- The options of the component are usable: curvatures along x or y with total functions, a total modifier, a reflection
axis that names an axis, rotations and translations as transformations. -/
structure Usable (c : Comp) : Prop where
  modifier : ∀ f, c.modifier = some f → ∀ x y z, ∃ d, f x y z = .ok d
  curvatures : ∀ l, c.curvatures = some l → ∀ k ∈ l, (k.direction = "x" ∨ k.direction = "y") ∧
    ∀ x y, ∃ f m, k.fn x y = .ok f ∧ k.fn_dash x y = .ok m
  axis : ∀ a, c.reflection_axis = some a → ∃ i, NamesAxis a i
  transformations : ∀ t ∈ c.transformations, Plain t

end Spec

/-! ## Acting on patches -/

theorem acts_comp {R S : V → V → Prop} {a b c : Comp} (h : ActsOnPatches R a b) (h' : ActsOnPatches S b c) :
    ActsOnPatches (fun p r => ∃ q, R p q ∧ S q r) a c := by
  obtain ⟨e, f⟩ := h
  obtain ⟨e', f'⟩ := h'
  refine ⟨?_, ?_⟩
  · conv_rhs => rw [← e, ← e']
  · generalize a.patches = la at f
    generalize b.patches = lb at f f'
    generalize c.patches = lc at f'
    clear e e'
    induction f generalizing lc with
    | nil => cases f'; exact .nil
    | cons h1 _ ih =>
      cases f' with
      | cons h2 h3 =>
        refine .cons ⟨h2.1.trans h1.1, ?_, fun r s x hx => h2.2.2 _ _ _ (h1.2.2 _ _ _ hx)⟩ (ih _ h3)
        intro r s p hp
        obtain ⟨q, hq, hr⟩ := h1.2.1 r s p hp
        obtain ⟨q', hq', hr'⟩ := h2.2.1 r s q hq
        exact ⟨q', hq', q, hr, hr'⟩

theorem acts_mono {R S : V → V → Prop} {a b : Comp} (h : ActsOnPatches R a b) (hRS : ∀ p q, R p q → S p q) :
    ActsOnPatches S a b :=
  ⟨h.1, h.2.imp fun _ _ x => ⟨x.1, fun r s p hp => by
    obtain ⟨q, hq, hr⟩ := x.2.1 r s p hp
    exact ⟨q, hq, hRS _ _ hr⟩, x.2.2⟩⟩

theorem acts_refl (a : Comp) : ActsOnPatches (fun p q => q = p) a a := by
  refine ⟨rfl, ?_⟩
  induction a.patches with
  | nil => exact .nil
  | cons e l ih => exact .cons ⟨rfl, fun r s p hp => ⟨p, hp, rfl⟩, fun _ _ _ h => h⟩ ih

theorem acts_keys {R : V → V → Prop} {a b : Comp} (h : ActsOnPatches R a b) :
    b.patches.map Prod.fst = a.patches.map Prod.fst := by
  have := h.2
  generalize a.patches = la at this
  generalize b.patches = lb at this
  induction this with
  | nil => rfl
  | cons h1 _ ih => simp only [List.map_cons, h1.1, ih]

theorem total_fn {f : OffFn} (h : ∀ x y z, ∃ d, f x y z = .ok d) : ∃ g : ℝ → ℝ → ℝ → V, f = fun x y z => .ok (g x y z) := by
  choose g hg using h
  exact ⟨g, by funext x y z; exact hg x y z⟩

theorem applyTransf_plain (c : Comp) (t : Transf) (ht : Plain t) :
    ∃ c', c.applyTransf t = .ok c' ∧ ActsOnPatches (Moved t) c c' := by
  cases ht with
  | rotate angle ha => exact ⟨_, rfl, acts_mono (C49_rotate c angle _ _ ha) fun p q h => .rotate ha h⟩
  | vector v => exact ⟨_, rfl, acts_mono (C49_translate_vector c v) fun p q h => .vector h.1 h.2.1 h.2.2⟩
  | callable hf =>
    obtain ⟨g, rfl⟩ := total_fn hf
    exact ⟨_, rfl, acts_mono (C49_translate_function c g) fun p q h => .callable rfl h.1 h.2.1 h.2.2⟩

theorem applyAll_plain (ts : List Transf) (ht : ∀ t ∈ ts, Plain t) (c : Comp) :
    ∃ c', c.applyAll ts = (.ok (), c') ∧ ActsOnPatches (MovedAll ts) c c' := by
  induction ts generalizing c with
  | nil => exact ⟨c, rfl, acts_mono (acts_refl c) fun p q h => by rw [h]; exact .nil p⟩
  | cons t ts ih =>
    obtain ⟨c1, h1, h2⟩ := applyTransf_plain c t (ht t (by simp))
    obtain ⟨c2, h3, h4⟩ := ih (fun t h => ht t (by simp [h])) c1
    exact ⟨c2, by simp only [Comp.applyAll, h1, h3], acts_mono (acts_comp h2 h4) fun p r ⟨q, a, b⟩ => .cons a b⟩

theorem applyModifier_acts (c : Comp) (hm : ∀ f, c.modifier = some f → ∀ x y z, ∃ d, f x y z = .ok d) :
    ActsOnPatches (Modified c.modifier) c c.applyModifier := by
  rcases hc : c.modifier with _ | f
  · rw [(C49_modifier c).1 hc]; exact acts_refl c
  · obtain ⟨g, rfl⟩ := total_fn (hm f hc)
    exact acts_mono ((C49_modifier c).2 g hc) fun p q h => ⟨_, rfl, h⟩

theorem curve_acts (c : Comp) (hk : ∀ l, c.curvatures = some l → ∀ k ∈ l, (k.direction = "x" ∨ k.direction = "y") ∧
    ∀ x y, ∃ f m, k.fn x y = .ok f ∧ k.fn_dash x y = .ok m) : ActsOnPatches (Curved c.curvatures) c c.curve := by
  rcases hc : c.curvatures with _ | l
  · rw [(C49_curve c).1 hc]; exact acts_refl c
  · exact (C49_curve c).2 l hc (hk l hc)

/-! ## Transformations and caches -/

/-- The component with other caches. -/
def Comp.wc (c : Comp) (s : Option (Dict String (TriMesh ℝ))) (m : Option StlMesh) : Comp :=
  { c with surfaces := s, mesh_ := m }

theorem applyModifier_wc (c : Comp) (s : Option (Dict String (TriMesh ℝ))) (m : Option StlMesh) :
    (c.wc s m).applyModifier = c.applyModifier.wc s m := by
  have : (c.wc s m).modifier = c.modifier := rfl
  unfold Comp.applyModifier
  rw [this]
  rcases hc : c.modifier with _ | l <;> rfl

theorem curve_wc (c : Comp) (s : Option (Dict String (TriMesh ℝ))) (m : Option StlMesh) :
    (c.wc s m).curve = c.curve.wc s m := by
  have : (c.wc s m).curvatures = c.curvatures := rfl
  unfold Comp.curve
  rw [this]
  rcases hc : c.curvatures with _ | l <;> rfl

theorem reflect_wc (c : Comp) (a : Option String) (s : Option (Dict String (TriMesh ℝ))) (m : Option StlMesh) :
    (c.wc s m).reflect a = (c.reflect a).wc s m := by
  have h1 : (c.wc s m).reflection_axis = c.reflection_axis := rfl
  have h2 : (c.wc s m).append_reflection = c.append_reflection := rfl
  unfold Comp.reflect
  rw [h1, h2]
  rcases c.reflection_axis.or a with _ | b
  · rfl
  · dsimp only
    split <;> rfl

theorem applyTransf_wc (c : Comp) (t : Transf) (s : Option (Dict String (TriMesh ℝ))) (m : Option StlMesh) :
    (c.wc s m).applyTransf t = (c.applyTransf t).map fun c' => c'.wc s m := by
  cases t with
  | rotate => rfl
  | translate => rfl
  | reflect a => simp only [Comp.applyTransf, reflect_wc]; rfl
  | curve => simp only [Comp.applyTransf, curve_wc]; rfl
  | applyModifier => simp only [Comp.applyTransf, applyModifier_wc]; rfl
  | unknown => rfl

theorem applyAll_wc (ts : List Transf) (c : Comp) (s : Option (Dict String (TriMesh ℝ))) (m : Option StlMesh) :
    (c.wc s m).applyAll ts = ((c.applyAll ts).1, (c.applyAll ts).2.wc s m) := by
  induction ts generalizing c with
  | nil => rfl
  | cons t ts ih =>
    unfold Comp.applyAll
    rw [applyTransf_wc]
    rcases c.applyTransf t with x | c'
    · rfl
    · exact ih c'

theorem pipeline_wc (angle : ℝ) (c : Comp) (s : Option (Dict String (TriMesh ℝ))) (m : Option StlMesh) :
    pipeline angle (c.wc s m) = ((pipeline angle c).1, (pipeline angle c).2.wc s m) := by
  unfold pipeline Comp.transform
  have e : (((c.wc s m).applyModifier.curve).rotate angle "y").reflect none =
      (((c.applyModifier.curve).rotate angle "y").reflect none).wc s m := by
    rw [applyModifier_wc, curve_wc]
    have : ∀ c : Comp, (c.wc s m).rotate angle "y" = (c.rotate angle "y").wc s m := fun c => rfl
    rw [this, reflect_wc]
  rw [e, applyAll_wc]
  rfl

theorem applyAll_append (A B : List Transf) (c : Comp) :
    c.applyAll (A ++ B) = match c.applyAll A with
      | (.ok _, c') => c'.applyAll B
      | (.error x, c') => (.error x, c') := by
  induction A generalizing c with
  | nil => rfl
  | cons t A ih =>
    simp only [List.cons_append, Comp.applyAll]
    rcases c.applyTransf t with x | c'
    · rfl
    · exact ih c'

/-- Transformations raise for unknown names only. -/
theorem applyAll_known (ts : List Transf) (h : ∀ n, Transf.unknown n ∉ ts) (c : Comp) : (c.applyAll ts).1 = .ok () := by
  induction ts generalizing c with
  | nil => rfl
  | cons t ts ih =>
    have h' := fun c => ih (fun n hn => h n (by simp [hn])) c
    cases t with
    | unknown n => exact absurd (List.mem_cons_self) (h n)
    | _ => exact h' _

theorem applyAll_unknown (A B : List Transf) (n : String) (h : ∀ n, Transf.unknown n ∉ A) (c : Comp) :
    c.applyAll (A ++ .unknown n :: B) = (.error .attr, (c.applyAll A).2) := by
  rw [applyAll_append]
  have := applyAll_known A h c
  rcases hc : c.applyAll A with ⟨x, c'⟩
  rw [hc] at this
  simp only at this
  subst this
  rfl

theorem applyAll_fst (ts : List Transf) (c c' : Comp) : (c.applyAll ts).1 = (c'.applyAll ts).1 := by
  induction ts generalizing c c' with
  | nil => rfl
  | cons t ts ih =>
    cases t with
    | unknown n => rfl
    | _ => exact ih _ _

theorem transformAll_ok (h : Heap) (ts : List Transf) (ks : List ℕ) (ht : ∀ c : Comp, (c.applyAll ts).1 = .ok ()) :
    ∃ h', transformAll h ts ks = (.ok (), h') := by
  induction ks generalizing h with
  | nil => exact ⟨h, rfl⟩
  | cons k ks ih =>
    unfold transformAll transformOne
    have := ht (h k)
    rcases ha : (h k).applyAll ts with ⟨x, c⟩
    rw [ha] at this
    simp only at this
    subst this
    exact ih _

/-! ## C70 -/

/-- The component's state after its own `generate_patches`, run on the components as they were before `generate`. -/
def ownPatches (h : Heap) (k : ℕ) : Comp := (generatePatches h k).2 k

/-- C70 for arbitrary options: the patches after `generate` are the component's own patches, transformed by the public
methods `apply_modifier`, `curve`, `rotate`, `reflect`, `transform` and by the vehicle's transformations, in this order.
Options are unchanged. -/
theorem C70_steps (lib : Lib) (depth : ℕ) (st st' : VState) (hu : Unshared st.heap st.veh.components)
    (h : generate lib depth st = (.ok (), st')) (k : ℕ) (hk : k ∈ st.veh.components) :
    ∃ c4 c5 c6, (((ownPatches st.heap k).applyModifier.curve.rotate st.veh.angleOffset "y").reflect none) = c4 ∧
      c4.applyAll (st.heap k).transformations = (.ok (), c5) ∧
      c5.applyAll st.veh.transformations = (.ok (), c6) ∧
      (st'.heap k).patches = c6.patches ∧
      SameOptions (st.heap k) (st'.heap k) := by
  obtain ⟨h1, h2, hg, ht, -, hc, -⟩ := generate_steps lib depth st st' h
  obtain ⟨g, hgp, hpl⟩ := genAll_spec _ _ _ hu _ hg k hk
  have eo : ownPatches st.heap k = g k := by unfold ownPatches; rw [hgp]
  obtain ⟨P, R, S, eg⟩ := generatePatches_opts st.heap k (hu.notChild k hk k hk)
  rw [hgp] at eg
  simp only at eg
  obtain ⟨P1, e1⟩ := applyModifier_frame (g k)
  obtain ⟨P2, e2⟩ := curve_frame (g k).applyModifier
  obtain ⟨P3, e3⟩ := reflect_frame ((g k).applyModifier.curve.rotate st.veh.angleOffset "y") none
  have et : (((g k).applyModifier.curve.rotate st.veh.angleOffset "y").reflect none).transformations =
      (st.heap k).transformations := by
    rw [e3]; unfold Comp.rotate; rw [e2, e1, eg]
  unfold pipeline Comp.transform at hpl
  rw [et] at hpl
  obtain ⟨P5, e5⟩ := pipeline_frame st.veh.angleOffset (g k)
  unfold pipeline Comp.transform at e5
  rw [et, hpl] at e5
  simp only at e5
  obtain ⟨s, m, ec⟩ := hc k
  have hc6 : ∃ c6, (h1 k).applyAll st.veh.transformations = (.ok (), c6) ∧
      ∃ s m, h2 k = { c6 with surfaces := s, mesh_ := m } := by
    rcases ht with ⟨e, e'⟩ | ⟨_, hx⟩
    · rw [e, e']; exact ⟨h1 k, rfl, _, _, rfl⟩
    · obtain ⟨c, hc, e⟩ := (transformAll_spec _ _ _ hu.nodup _ hx).1 k hk
      exact ⟨c, hc, _, _, e⟩
  obtain ⟨c6, hc6, s', m', e6⟩ := hc6
  obtain ⟨P6, e6'⟩ := applyAll_frame st.veh.transformations (h1 k)
  rw [hc6] at e6'
  simp only at e6'
  refine ⟨_, _, c6, rfl, by rw [eo]; exact hpl, hc6, by rw [ec, e6], ?_⟩
  refine ⟨P6, R, S, s, m, ?_⟩
  rw [ec, e6, e6', e5, eg]

/-- C70, pointwise: with usable options, the patches after `generate` are those expected from the component's own patches,
in order, and every point has gone through modifier, curvatures, rotation about y by the vehicle's angle, reflection,
component transformations and vehicle transformations, in this order. -/
theorem C70_points (lib : Lib) (depth : ℕ) (st st' : VState) (hu : Unshared st.heap st.veh.components)
    (h : generate lib depth st = (.ok (), st')) (k : ℕ) (hk : k ∈ st.veh.components) (hus : Usable (st.heap k))
    (hv : ∀ t ∈ st.veh.transformations, Plain t)
    (hn : ((ownPatches st.heap k).patches.map Prod.fst).Nodup)
    (hc : ∀ n ∈ (ownPatches st.heap k).patches.map Prod.fst,
      n ++ "_mirrored" ∉ (ownPatches st.heap k).patches.map Prod.fst) :
    PatchesRel (Way (st.heap k) st.veh.angleOffset st.veh.transformations)
      (expected (st.heap k) (ownPatches st.heap k).patches) (st'.heap k).patches := by
  obtain ⟨c4, c5, c6, h4, h5, h6, e6, -⟩ := C70_steps lib depth st st' hu h k hk
  obtain ⟨P, R, S, eg⟩ := generatePatches_opts st.heap k (hu.notChild k hk k hk)
  change ownPatches st.heap k = _ at eg
  set o := ownPatches st.heap k with ho
  have om : o.modifier = (st.heap k).modifier := by rw [eg]
  have oc : o.curvatures = (st.heap k).curvatures := by rw [eg]
  have oa : o.reflection_axis = (st.heap k).reflection_axis := by rw [eg]
  have op : o.append_reflection = (st.heap k).append_reflection := by rw [eg]
  have a1 := applyModifier_acts o (by rw [om]; exact hus.modifier)
  obtain ⟨P1, e1⟩ := applyModifier_frame o
  have oc1 : o.applyModifier.curvatures = (st.heap k).curvatures := by rw [e1]; exact oc
  have a2 := curve_acts o.applyModifier (by rw [oc1]; exact hus.curvatures)
  have a3 := C49_rotate o.applyModifier.curve st.veh.angleOffset "y" 1 (.inl rfl)
  rw [om] at a1
  rw [oc1] at a2
  have a := acts_comp (acts_comp a1 a2) a3
  set c3 := o.applyModifier.curve.rotate st.veh.angleOffset "y" with hc3
  have c3a : c3.reflection_axis = (st.heap k).reflection_axis := by
    have := congrArg Comp.reflection_axis a.1
    exact this.trans oa
  have c3p : c3.append_reflection = (st.heap k).append_reflection := by
    have := congrArg Comp.append_reflection a.1
    exact this.trans op
  have ak := acts_keys a
  obtain ⟨c5', h5', a5⟩ := applyAll_plain (st.heap k).transformations hus.transformations c4
  rw [h5] at h5'
  obtain ⟨c6', h6', a6⟩ := applyAll_plain st.veh.transformations hv c5
  rw [h6] at h6'
  cases h5'
  cases h6'
  have a456 := acts_comp a5 a6
  rw [e6]
  -- reflection
  have hR : List.Forall₂ (fun (e : Bool × String × Surf) (e' : String × Surf) =>
      e'.1 = (if e.1 then e.2.1 ++ "_mirrored" else e.2.1) ∧
      (∀ r s p, e.2.2 r s = .ok p → ∃ q, e'.2 r s = .ok q ∧ ∃ p3,
        (∃ p2, (∃ p1, Modified (st.heap k).modifier p p1 ∧ Curved (st.heap k).curvatures p1 p2) ∧
          toF p3 = rodrigues (Pi.single 1 1) (toF p2) (st.veh.angleOffset * Real.pi / 180)) ∧
        Reflected (st.heap k).reflection_axis e.1 p3 q) ∧
      (∀ r s x, e.2.2 r s = .error x → e'.2 r s = .error x)) (expected (st.heap k) o.patches) c4.patches := by
    have plain : List.Forall₂ (fun (e : Bool × String × Surf) (e' : String × Surf) =>
      e'.1 = (if e.1 then e.2.1 ++ "_mirrored" else e.2.1) ∧
      (∀ r s p, e.2.2 r s = .ok p → ∃ q, e'.2 r s = .ok q ∧ ∃ p3,
        (∃ p2, (∃ p1, Modified (st.heap k).modifier p p1 ∧ Curved (st.heap k).curvatures p1 p2) ∧
          toF p3 = rodrigues (Pi.single 1 1) (toF p2) (st.veh.angleOffset * Real.pi / 180)) ∧
        Reflected (st.heap k).reflection_axis e.1 p3 q) ∧
      (∀ r s x, e.2.2 r s = .error x → e'.2 r s = .error x)) (o.patches.map fun e => (false, e)) c3.patches := by
      rw [List.forall₂_map_left_iff]
      refine a.2.imp fun e e' x => ⟨x.1, fun r s p hp => ?_, x.2.2⟩
      obtain ⟨q, hq, hr⟩ := x.2.1 r s p hp
      exact ⟨q, hq, q, hr, rfl⟩
    rcases hax : (st.heap k).reflection_axis with _ | ax
    · have : c4 = c3 := by rw [← h4]; exact C50_no_axis c3 none (c3a.trans hax) rfl
      rw [this]
      unfold expected
      rw [hax] at plain ⊢
      exact plain
    · obtain ⟨i, hi⟩ := hus.axis ax hax
      have hau : AxisUsed c3.reflection_axis none ax := by
        rw [c3a, hax]; exact .inl rfl
      have mir : List.Forall₂ (fun (e : Bool × String × Surf) (e' : String × Surf) =>
        e'.1 = (if e.1 then e.2.1 ++ "_mirrored" else e.2.1) ∧
        (∀ r s p, e.2.2 r s = .ok p → ∃ q, e'.2 r s = .ok q ∧ ∃ p3,
          (∃ p2, (∃ p1, Modified (st.heap k).modifier p p1 ∧ Curved (st.heap k).curvatures p1 p2) ∧
            toF p3 = rodrigues (Pi.single 1 1) (toF p2) (st.veh.angleOffset * Real.pi / 180)) ∧
          Reflected (st.heap k).reflection_axis e.1 p3 q) ∧
        (∀ r s x, e.2.2 r s = .error x → e'.2 r s = .error x)) (o.patches.map fun e => (true, e))
          (c3.patches.map fun e => (e.1 ++ "_mirrored", MirroredPatch e.2 ax)) := by
        rw [List.forall₂_map_left_iff, List.forall₂_map_right_iff]
        refine a.2.imp fun e e' x => ⟨by simp [x.1], fun r s p hp => ?_, fun r s y hy => ?_⟩
        · obtain ⟨q, hq, hr⟩ := x.2.1 r s p hp
          obtain ⟨q', hq', hr'⟩ := (C27_mirror_partial e'.2 ax i hi).1 r s q hq
          exact ⟨q', hq', q, hr, ax, i, hax, hi, hr'⟩
        · exact (C27_mirror_partial e'.2 ax i hi).2.1 r s y (x.2.2 r s y hy)
      have hn3 : (c3.patches.map Prod.fst).Nodup := by rw [ak]; exact hn
      unfold expected
      rw [hax] at plain mir ⊢
      simp only [Option.isNone_some, Bool.false_eq_true, if_false]
      by_cases hp : (st.heap k).append_reflection = true
      · have := C50_append_partial c3 none ax hau hn3 (c3p.trans hp) (by rw [ak]; exact hc)
        rw [h4] at this
        rw [if_pos hp, this]
        exact List.rel_append plain mir
      · have hp' : (st.heap k).append_reflection = false := by simpa using hp
        have := C50_replace c3 none ax hau hn3 (c3p.trans hp')
        rw [h4] at this
        rw [if_neg hp, this]
        exact mir
  unfold PatchesRel
  have a6 := a456.2
  generalize c4.patches = l4 at hR a6
  generalize c6.patches = l6 at a6
  generalize expected (st.heap k) o.patches = l0 at hR
  clear e6
  induction hR generalizing l6 with
  | nil => cases a6; exact .nil
  | cons x _ ih =>
    cases a6 with
    | cons y ys =>
      refine .cons ⟨y.1.trans x.1, fun r s p hp => ?_, fun r s z hz => y.2.2 _ _ _ (x.2.2 _ _ _ hz)⟩ (ih _ ys)
      obtain ⟨q, hq, p3, ⟨p2, ⟨p1, m1, m2⟩, m3⟩, m4⟩ := x.2.1 r s p hp
      obtain ⟨q', hq', p5, m5, m6⟩ := y.2.1 r s q hq
      exact ⟨q', hq', p1, p2, p3, q, p5, m1, m2, m3, m4, m5, m6⟩

/-- A component with every option. -/
noncomputable def demoGen : Comp :=
  { componenttype := "wing", gen := .into fun _ => { items := [("a", fun r s => .ok ⟨r, s, 0⟩)] },
    modifier := some fun _ _ _ => .ok ⟨0, 0, 1⟩, curvatures := some [⟨"x", fun x _ => .ok (x ^ 2), fun x _ => .ok (2 * x)⟩],
    reflection_axis := some "y", transformations := [.translate (.vector ⟨1, 2, 3⟩)] }

/-- A vehicle with two such components. -/
noncomputable def demoGenVehicle : VState := ⟨fun _ => demoGen, { components := [0, 1], angleOffset := 30, transformations := CART3D }⟩

theorem demoGen_unshared : Unshared demoGenVehicle.heap demoGenVehicle.veh.components := by
  refine ⟨by decide, ?_, ?_⟩ <;> intros <;> simp [demoGenVehicle, demoGen, Comp.children]

theorem cart3d_plain : ∀ t ∈ CART3D, Plain t := by
  intro t ht
  simp only [CART3D, List.mem_cons, List.not_mem_nil, or_false] at ht
  rcases ht with rfl | rfl
  · exact .rotate _ (i := 2) (.inl rfl)
  · exact .rotate _ (i := 0) (.inl rfl)

theorem demoGen_usable : Usable demoGen := by
  refine ⟨?_, ?_, ?_, ?_⟩
  · intro f hf; cases hf; exact fun _ _ _ => ⟨_, rfl⟩
  · intro l hl; cases hl
    intro k hk
    rw [List.mem_singleton] at hk
    subst hk
    exact ⟨.inl rfl, fun x y => ⟨_, _, rfl, rfl⟩⟩
  · intro a ha; cases ha; exact ⟨1, .inl rfl⟩
  · intro t ht
    simp only [demoGen, List.mem_singleton] at ht
    subst ht
    exact .vector _

/-- The hypotheses of `C70_steps` and `C70_points` are met by a vehicle whose components use every option. -/
example : ∃ st', generate ⟨fun _ _ => .error .exc, fun _ => 0⟩ 0 demoGenVehicle = (.ok (), st') ∧
    Unshared demoGenVehicle.heap demoGenVehicle.veh.components ∧ Usable (demoGenVehicle.heap 0) ∧
    (∀ t ∈ demoGenVehicle.veh.transformations, Plain t) ∧
    (ownPatches demoGenVehicle.heap 0).patches.map Prod.fst = ["a"] :=
  ⟨_, rfl, demoGen_unshared, demoGen_usable, cart3d_plain, rfl⟩

/-! ## C72 -/

/-- C72: before `generate`, `transform` raises and changes nothing. -/
theorem C72_before_generate (st : VState) (hg : st.veh.generated = false) (a : TransfArg) :
    ∃ x, transform st a = (.error x, st) := by
  simp [transform, hg]

example : ({} : Veh).generated = false := rfl

/-- C72: one tuple acts as the list consisting of it, in `transform` and in `add_vehicle_transformations`. -/
theorem C72_tuple (st : VState) (t : Transf) : transform st (.one t) = transform st (.many [t]) ∧
    addVehicleTransformations st.veh (.one t) = addVehicleTransformations st.veh (.many [t]) := ⟨rfl, rfl⟩

theorem transformAll_comp_eq (A B : List Transf) (ks : List ℕ) (hn : ks.Nodup) (h h1 h2 h2' : Heap)
    (ha : transformAll h A ks = (.ok (), h1)) (hb : transformAll h1 B ks = (.ok (), h2))
    (hc : transformAll h (A ++ B) ks = (.ok (), h2')) : h2 = h2' := by
  obtain ⟨a1, a2⟩ := transformAll_spec _ _ _ hn _ ha
  obtain ⟨b1, b2⟩ := transformAll_spec _ _ _ hn _ hb
  obtain ⟨c1, c2⟩ := transformAll_spec _ _ _ hn _ hc
  funext k
  by_cases hk : k ∈ ks
  · obtain ⟨x, hx, ex⟩ := a1 k hk
    obtain ⟨y, hy, ey⟩ := b1 k hk
    obtain ⟨z, hz, ez⟩ := c1 k hk
    rw [applyAll_append, hx] at hz
    simp only at hz
    have e : h1 k = x.wc none none := ex
    rw [e, applyAll_wc, hz] at hy
    simp only [Prod.mk.injEq, true_and] at hy
    rw [ey, ez, ← hy]
    rfl
  · rw [b2 k hk, a2 k hk, c2 k hk]

theorem transformAll_ok_inv (ts : List Transf) (ks : List ℕ) (h h' : Heap) (ht : transformAll h ts ks = (.ok (), h'))
    (hk : ks ≠ []) (c : Comp) : (c.applyAll ts).1 = .ok () := by
  rcases ks with _ | ⟨k, ks⟩
  · exact absurd rfl hk
  · unfold transformAll transformOne at ht
    rw [applyAll_fst ts c (h k)]
    rcases hc : (h k).applyAll ts with ⟨x | x, c'⟩
    · rw [hc] at ht; simp at ht
    · rfl

theorem transformAll_comp (A B : List Transf) (ks : List ℕ) (hn : ks.Nodup) (h h2 : Heap) :
    (∃ h1, transformAll h A ks = (.ok (), h1) ∧ transformAll h1 B ks = (.ok (), h2)) ↔
      transformAll h (A ++ B) ks = (.ok (), h2) := by
  rcases eq_or_ne ks [] with rfl | hne
  · simp [transformAll]
  · constructor
    · rintro ⟨h1, ha, hb⟩
      have h3 := transformAll_ok_inv A ks h h1 ha hne
      have h4 := transformAll_ok_inv B ks h1 h2 hb hne
      obtain ⟨h2', hc⟩ := transformAll_ok h (A ++ B) ks (fun c => by
        have := h3 c
        rw [applyAll_append]
        rcases hc : c.applyAll A with ⟨x, c'⟩
        rw [hc] at this
        simp only at this
        subst this
        exact h4 c')
      rw [hc, transformAll_comp_eq A B ks hn h h1 h2 h2' ha hb hc]
    · intro hc
      have h3 := transformAll_ok_inv _ ks h h2 hc hne
      obtain ⟨h1, ha⟩ := transformAll_ok h A ks (fun c => by
        have := h3 c
        rw [applyAll_append] at this
        rcases hx : c.applyAll A with ⟨x | x, c'⟩
        · rw [hx] at this; simp at this
        · rfl)
      obtain ⟨h2', hb⟩ := transformAll_ok h1 B ks (fun c => by
        have := h3 c
        rw [applyAll_append] at this
        rcases hx : c.applyAll A with ⟨x | x, c'⟩
        · rw [hx] at this; simp at this
        · rw [hx] at this
          rw [applyAll_fst B c c']
          exact this)
      exact ⟨h1, ha, transformAll_comp_eq A B ks hn h h1 h2' h2 ha hb hc ▸ hb⟩

theorem transform_ok_iff (st st' : VState) (a : TransfArg) : transform st a = (.ok (), st') ↔
    st.veh.generated = true ∧ transformAll st.heap a.toList st.veh.components = (.ok (), st'.heap) ∧ st'.veh = st.veh := by
  obtain ⟨h', v'⟩ := st'
  unfold transform
  split
  · rename_i hg
    constructor
    · intro h
      cases hp : transformAll st.heap a.toList st.veh.components with
      | mk x y =>
        rw [hp] at h
        cases h
        exact ⟨hg, rfl, rfl⟩
    · rintro ⟨_, h, rfl⟩
      rw [h]
  · simp_all

/-- C72, composition, for vehicles whose components are distinct objects: transforming by `A` and then by `B` gives the
same state as transforming by `A ++ B`; one succeeds if and only if the other does.  Missing: vehicles to which the same
object was added twice, see `C72_shared_violated`. -/
theorem C72_compose_partial (st : VState) (hn : st.veh.components.Nodup) (A B : List Transf) (st2 : VState) :
    (∃ st1, transform st (.many A) = (.ok (), st1) ∧ transform st1 (.many B) = (.ok (), st2)) ↔
      transform st (.many (A ++ B)) = (.ok (), st2) := by
  simp only [transform_ok_iff, TransfArg.toList]
  rw [← transformAll_comp A B st.veh.components hn]
  constructor
  · rintro ⟨st1, ⟨h1, h2, h3⟩, h4, h5, h6⟩
    rw [h3] at h5 h6
    exact ⟨h1, ⟨_, h2, h5⟩, h6⟩
  · rintro ⟨h1, ⟨g, h2, h3⟩, h4⟩
    exact ⟨⟨g, st.veh⟩, ⟨h1, h2, rfl⟩, h1, h3, h4⟩

theorem transformAll_nil (ks : List ℕ) (h : Heap) : ∃ h', transformAll h [] ks = (.ok (), h') ∧
    ∀ k, (h' k).patches = (h k).patches := by
  induction ks generalizing h with
  | nil => exact ⟨h, rfl, fun _ => rfl⟩
  | cons k0 ks ih =>
    obtain ⟨h', e, hp⟩ := ih (h.upd k0 { h k0 with surfaces := none, mesh_ := none })
    refine ⟨h', ?_, fun k => ?_⟩
    · rw [transformAll]
      exact e
    · rw [hp]
      by_cases hk : k = k0
      · subst hk; rw [upd_self]
      · rw [upd_ne _ _ _ _ hk]

/-- C72: transformations registered by several calls of `add_vehicle_transformations` are all applied by `generate`, in the
order of registration, as `transform` would apply them after generating without them. -/
theorem C72_registered (lib : Lib) (depth : ℕ) (st st' : VState) (a b : TransfArg) (ht : st.veh.transformations = [])
    (ha : st.veh.analyseOn = none)
    (h : generate lib depth ⟨st.heap, addVehicleTransformations (addVehicleTransformations st.veh a) b⟩ = (.ok (), st')) :
    ∃ s1 s2, generate lib depth st = (.ok (), s1) ∧ transform s1 (.many (a.toList ++ b.toList)) = (.ok (), s2) ∧
      ∀ k, (s2.heap k).patches = (st'.heap k).patches := by
  obtain ⟨h1, h2, hg, hx, hy, -, -⟩ := generate_steps lib depth _ st' h
  have e2 : st'.heap = h2 := by
    have : genAnalyse (analyse lib depth)
        ⟨h2, { addVehicleTransformations (addVehicleTransformations st.veh a) b with generated := true }⟩ =
        (.ok (), ⟨h2, { addVehicleTransformations (addVehicleTransformations st.veh a) b with generated := true }⟩) := by
      simp [genAnalyse, addVehicleTransformations, ha]
    rw [this] at hy
    simp only [Prod.mk.injEq, true_and] at hy
    rw [← hy]
  have e1 : generate lib depth st = (.ok (), ⟨h1, { st.veh with generated := true }⟩) := by
    unfold generate generateWith
    have hg' : genAll st.veh.angleOffset st.heap st.veh.components = (.ok (), h1) := hg
    rw [hg']
    simp only
    have : genTransform ⟨h1, { st.veh with generated := true }⟩ = (.ok (), ⟨h1, { st.veh with generated := true }⟩) := by
      simp [genTransform, ht]
    rw [this]
    simp [genAnalyse, ha]
  have et : (addVehicleTransformations (addVehicleTransformations st.veh a) b).transformations = a.toList ++ b.toList := by
    simp [addVehicleTransformations, ht]
  simp only [et] at hx
  rw [e2]
  rcases hx with ⟨hn, rfl⟩ | ⟨-, hx⟩
  · rw [hn]
    obtain ⟨h', he, hp⟩ := transformAll_nil st.veh.components h2
    exact ⟨_, ⟨h', { st.veh with generated := true }⟩, e1, by simp [transform, TransfArg.toList, he], hp⟩
  · refine ⟨_, ⟨h2, { st.veh with generated := true }⟩, e1, ?_, fun _ => rfl⟩
    have hx' : transformAll h1 (a.toList ++ b.toList) st.veh.components = (.ok (), h2) := hx
    rw [transform_ok_iff]
    exact ⟨rfl, hx', rfl⟩

/-- Two registrations on a vehicle with two components. -/
example : ∃ st', generate ⟨fun _ _ => .error .exc, fun _ => 0⟩ 0 ⟨demoGenVehicle.heap, addVehicleTransformations
      (addVehicleTransformations { components := [0, 1] } (.many CART3D)) (.one (.translate (.vector ⟨1, 0, 0⟩)))⟩ = (.ok (), st') :=
  ⟨_, rfl⟩

/-- A generated vehicle with two components. -/
noncomputable def demoGenerated : VState := ⟨fun _ => demoGen, { components := [0, 1], generated := true }⟩

example : demoGenerated.veh.components.Nodup ∧ demoGenerated.veh.generated = true ∧
    ∃ st', transform demoGenerated (.many (CART3D ++ [.translate (.vector ⟨1, 0, 0⟩)])) = (.ok (), st') :=
  ⟨by decide, rfl, _, rfl⟩

/-- A component with one patch, which is a point. -/
noncomputable def demoPoint : Comp :=
  { componenttype := "wing", gen := .into fun _ => { items := [] }, patches := [("a", fun _ _ => .ok ⟨0, 0, 0⟩)] }

/-- C72, composition, fails for a vehicle to which the same object was added twice: with the translation by (1, 0, 0) and
the doubling of the abscissa, applying one list after the other differs from applying both in one list. -/
theorem C72_shared_violated : ¬ ∀ (st : VState) (A B : List Transf) (st2 st2' : VState),
    (∃ st1, transform st (.many A) = (.ok (), st1) ∧ transform st1 (.many B) = (.ok (), st2)) →
      transform st (.many (A ++ B)) = (.ok (), st2') → ∀ k, (st2.heap k).patches = (st2'.heap k).patches := by
  intro H
  have := H ⟨fun _ => demoPoint, { components := [0, 0], generated := true }⟩
    [.translate (.vector ⟨1, 0, 0⟩)] [.translate (.callable fun x _ _ => .ok ⟨x, 0, 0⟩)] _ _ ⟨_, rfl, rfl⟩ rfl 0
  simp [demoPoint, Heap.upd, Comp.translate, Dict.mapVals, Comp.offsetFn, transformAll, transformOne, Comp.applyAll,
    Comp.applyTransf, TransfArg.toList] at this
  have h := congrFun (congrFun this 0) 0
  simp only [OffsetPatchFunction, bind, Except.bind, pure, Except.pure, Except.ok.injEq] at h
  have h' := congrArg Vec.x h
  norm_num at h'

/-- C72, meshes: reading the mesh of a component after a successful `transform` gives the mesh of its transformed
patches, whatever had been cached before. -/
theorem C72_meshes (st st' : VState) (hn : st.veh.components.Nodup) (a : TransfArg)
    (h : transform st a = (.ok (), st')) (k : ℕ) (hk : k ∈ st.veh.components) :
    (∃ c, (st.heap k).applyAll a.toList = (.ok (), c) ∧ (st'.heap k).patches = c.patches) ∧
    ∀ (n : ℕ), 1 ≤ n → (st.heap k).stl_resolution = .int n → (st'.heap k).patches ≠ [] →
      ((st'.heap k).patches.map Prod.fst).Nodup →
      (∀ m, MeshOf (st.heap k).clustering (fun _ => n) (fun _ => n) (st'.heap k).patches m →
        ∃ M c', (st'.heap k).mesh = (.ok M, c') ∧ M.tris = m) ∧
      (∀ M c', (st'.heap k).mesh = (.ok M, c') →
        MeshOf (st.heap k).clustering (fun _ => n) (fun _ => n) (st'.heap k).patches M.tris) := by
  obtain ⟨-, h, -⟩ := (transform_ok_iff _ _ _).1 h
  obtain ⟨b1, b2⟩ := transformAll_spec _ _ _ hn _ h
  obtain ⟨c, hc, e⟩ := b1 k hk
  refine ⟨⟨c, hc, by rw [e]⟩, ?_⟩
  intro n hn hr hne hnd
  obtain ⟨P, eP⟩ := applyAll_frame a.toList (st.heap k)
  rw [hc] at eP
  simp only at eP
  have hcl : (st'.heap k).clustering = (st.heap k).clustering := by rw [e, eP]
  obtain ⟨m1, m2⟩ := C52_mesh (st'.heap k) n hn (by rw [e, eP]; exact hr) (by rw [e]) (by rw [e]) hnd hne
  rw [hcl] at m1 m2
  exact ⟨fun m hm => by
    obtain ⟨M, c', h1, h2, -⟩ := m1 m hm
    exact ⟨M, c', h1, h2⟩, m2⟩

/-- `C72_meshes` applies to a vehicle with stale cached meshes. -/
example (M : StlMesh) : ∃ st', transform ⟨fun _ => { demoGen with patches := [("a", fun r s => .ok ⟨r, s, 0⟩)], mesh_ := some M },
    { components := [0, 1], generated := true }⟩ (.one (.rotate 90 "x")) = (.ok (), st') ∧
    ((st'.heap 0).patches.map Prod.fst).Nodup ∧ (st'.heap 0).patches ≠ [] := by
  refine ⟨_, rfl, ?_, ?_⟩
  · simp [transformAll, transformOne, Comp.applyAll, Comp.applyTransf, Heap.upd, Comp.rotate, Dict.mapVals, TransfArg.toList]
  · simp [transformAll, transformOne, Comp.applyAll, Comp.applyTransf, Heap.upd, Comp.rotate, Dict.mapVals, TransfArg.toList]

/-! ## C73 -/

/-- C73, as far as it holds: if `transform` raises because of an unknown name, then the first component has received the
transformations before the unknown one, every other object is as before, and so is the vehicle's record.  In particular nothing
has changed if the unknown transformation is the first one.  Missing: see `C73_violated`. -/
theorem C73_partial (st : VState) (hg : st.veh.generated = true) (A B : List Transf) (n : String)
    (hA : ∀ n, Transf.unknown n ∉ A) (k : ℕ) (ks : List ℕ) (hk : st.veh.components = k :: ks) :
    ∃ st', transform st (.many (A ++ .unknown n :: B)) = (.error .attr, st') ∧ st'.veh = st.veh ∧
      (∀ j, j ≠ k → st'.heap j = st.heap j) ∧ ((st.heap k).applyAll A) = (.ok (), st'.heap k) ∧
      (A = [] → st' = st) := by
  have e := applyAll_unknown A B n hA (st.heap k)
  have h1 : transform st (.many (A ++ .unknown n :: B)) = (.error .attr, ⟨st.heap.upd k ((st.heap k).applyAll A).2, st.veh⟩) := by
    unfold transform
    rw [if_pos hg, hk]
    simp only [TransfArg.toList, transformAll, transformOne, e]
  refine ⟨_, h1, rfl, fun j hj => upd_ne _ _ _ _ hj, ?_, ?_⟩
  · simp only [upd_self]
    exact Prod.ext (applyAll_known A hA _) rfl
  · rintro rfl
    obtain ⟨h, v⟩ := st
    simp only [Comp.applyAll, VState.mk.injEq, and_true]
    exact upd_eq_self h k

example : demoGenerated.veh.generated = true ∧ demoGenerated.veh.components = 0 :: [1] ∧
    ∀ n, Transf.unknown n ∉ CART3D := ⟨rfl, rfl, by simp [CART3D]⟩

/-- C73 fails: a known transformation before the unknown one is applied to the first component, and only to it. -/
theorem C73_violated : ¬ ∀ (st : VState) (ts : List Transf) (x : PyErr) (st' : VState),
    transform st (.many ts) = (.error x, st') → st.veh.generated = true → ∀ k, (st'.heap k).patches = (st.heap k).patches := by
  intro H
  have := H ⟨fun _ => demoPoint, { components := [0, 1], generated := true }⟩
    [.translate (.vector ⟨1, 0, 0⟩), .unknown "stretch"] _ _ rfl rfl 0
  simp [demoPoint, Heap.upd, Comp.translate, Dict.mapVals, Comp.offsetFn, transformAll, transformOne, Comp.applyAll,
    Comp.applyTransf, TransfArg.toList] at this
  have h := congrFun (congrFun this 0) 0
  simp only [OffsetPatchFunction, bind, Except.bind, pure, Except.pure, Except.ok.injEq] at h
  have h' := congrArg Vec.x h
  simp at h'

/-! ## C80 -/

/-- The stated change of axes. -/
def Spec.cart3d (p : V) : V := ⟨-p.x, -p.z, -p.y⟩

theorem moved_cart3d (p q : V) (h : MovedAll CART3D p q) : q = cart3d p := by
  have c90 : Real.cos (90 * Real.pi / 180) = 0 := by
    rw [show (90 : ℝ) * Real.pi / 180 = Real.pi / 2 by ring]; exact Real.cos_pi_div_two
  have s90 : Real.sin (90 * Real.pi / 180) = 1 := by
    rw [show (90 : ℝ) * Real.pi / 180 = Real.pi / 2 by ring]; exact Real.sin_pi_div_two
  have c180 : Real.cos (180 * Real.pi / 180) = -1 := by
    rw [show (180 : ℝ) * Real.pi / 180 = Real.pi by ring]; exact Real.cos_pi
  have s180 : Real.sin (180 * Real.pi / 180) = 0 := by
    rw [show (180 : ℝ) * Real.pi / 180 = Real.pi by ring]; exact Real.sin_pi
  unfold CART3D at h
  cases h with
  | cons h1 h2 =>
    cases h2 with
    | cons h2 h3 =>
      cases h3
      cases h1 with
      | rotate a1 e1 =>
        cases h2 with
        | rotate a2 e2 =>
          rename_i m i j
          have hi : i = 2 := by
            fin_cases i
            · exact absurd a1 (by simp [NamesAxis])
            · exact absurd a1 (by simp [NamesAxis])
            · rfl
          have hj : j = 0 := by
            fin_cases j
            · rfl
            · exact absurd a2 (by simp [NamesAxis])
            · exact absurd a2 (by simp [NamesAxis])
          subst hi hj
          unfold rodrigues at e1 e2
          rw [c180, s180] at e1
          rw [c90, s90] at e2
          have x1 := congrFun e1 0
          have y1 := congrFun e1 1
          have z1 := congrFun e1 2
          have x2 := congrFun e2 0
          have y2 := congrFun e2 1
          have z2 := congrFun e2 2
          obtain ⟨k0, k1, k2⟩ := cross_apply' (Pi.single 2 1) (toF p)
          obtain ⟨l0, l1, l2⟩ := cross_apply' (Pi.single 0 1) (toF m)
          simp only [Pi.add_apply, Pi.smul_apply, smul_eq_mul, k0, k1, k2, l0, l1, l2] at x1 y1 z1 x2 y2 z2
          simp [toF, dotProduct, Fin.sum_univ_three] at x1 y1 z1 x2 y2 z2
          ext
          · simp [cart3d]; linarith
          · simp [cart3d]; linarith
          · simp [cart3d]; linarith

/-- C80: transforming a generated vehicle by `CART3D` succeeds and maps every point of every patch of every component from
(x, y, z) to (-x, -z, -y); this map preserves distances and orientation. -/
theorem C80_cart3d (st : VState) (hg : st.veh.generated = true) (hn : st.veh.components.Nodup) :
    (∃ st', transform st (.many CART3D) = (.ok (), st') ∧ ∀ k ∈ st.veh.components,
      List.Forall₂ (fun e e' => e'.1 = e.1 ∧ ∀ r s p, e.2 r s = .ok p → e'.2 r s = .ok ⟨-p.x, -p.z, -p.y⟩)
        (st.heap k).patches (st'.heap k).patches) ∧
    (∀ p q : V, vdist (cart3d p) (cart3d q) = vdist p q) ∧
    ∀ a b c d : V, triple (cart3d a) (cart3d b) (cart3d c) (cart3d d) = triple a b c d := by
  refine ⟨?_, ?_, ?_⟩
  · obtain ⟨h', hh⟩ := transformAll_ok st.heap CART3D st.veh.components (fun c => by
      obtain ⟨c', h, -⟩ := applyAll_plain CART3D cart3d_plain c
      rw [h])
    refine ⟨⟨h', st.veh⟩, (transform_ok_iff _ _ _).2 ⟨hg, hh, rfl⟩, ?_⟩
    intro k hk
    obtain ⟨c, hc, e⟩ := (transformAll_spec _ _ _ hn _ hh).1 k hk
    obtain ⟨c', h, ha⟩ := applyAll_plain CART3D cart3d_plain (st.heap k)
    rw [hc] at h
    cases h
    show List.Forall₂ _ _ (h' k).patches
    rw [e]
    refine ha.2.imp fun x y hxy => ⟨hxy.1, fun r s p hp => ?_⟩
    obtain ⟨q, hq, hm⟩ := hxy.2.1 r s p hp
    rw [hq, moved_cart3d p q hm]
    rfl
  · intro p q
    apply vdist_eq_of_sq
    rw [vdist_sq, vdist_sq]
    simp only [cart3d]
    ring
  · intro a b c d
    simp [triple, cart3d, toF, cross_apply, dotProduct, Fin.sum_univ_three]
    ring

example : demoGenerated.veh.generated = true ∧ demoGenerated.veh.components.Nodup := ⟨rfl, by decide⟩

end HV
