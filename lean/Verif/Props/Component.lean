import Verif.Spec.Component
import Verif.Lemmas.Dict
import Verif.Lemmas.Grid
import Verif.Props.Rigid
import Verif.Props.Patches
import Verif.Props.Mesh

/-!
# C49-C54: components
-/

namespace HV
open Spec

/-- A one-patch component used in the examples. -/
noncomputable def demoComp : Comp :=
  { componenttype := "wing", gen := .into fun _ => ⟨[("a", fun r s => .ok ⟨r, s, 0⟩)], [], [], none⟩,
    patches := [("a", fun r s => .ok ⟨r, s, 0⟩)] }

theorem actsOnPatches_mapVals (R : V → V → Prop) (c : Comp) (F : Surf → Surf)
    (h1 : ∀ (surf : Surf) r s p, surf r s = .ok p → ∃ q, F surf r s = .ok q ∧ R p q)
    (h2 : ∀ (surf : Surf) r s x, surf r s = .error x → F surf r s = .error x) :
    ActsOnPatches R c { c with patches := c.patches.mapVals fun _ p => F p } := by
  refine ⟨rfl, ?_⟩
  show List.Forall₂ _ c.patches (c.patches.map _)
  rw [List.forall₂_map_right_iff, List.forall₂_same]
  exact fun e _ => ⟨rfl, h1 e.2, h2 e.2⟩

/-- C49 for `rotate`: every patch point is rotated by the given number of degrees about the named axis through the
origin; names, order and every other attribute stay. -/
theorem C49_rotate (c : Comp) (angle : ℝ) (axis : String) (i : Fin 3) (ha : NamesAxis axis i) :
    ActsOnPatches (fun p q => toF q = rodrigues (Pi.single i 1) (toF p) (angle * Real.pi / 180)) c (c.rotate angle axis) := by
  apply actsOnPatches_mapVals _ c fun p => RotatedPatch p (angle * (Real.pi / 180)) axis
  · intro surf r s p hp
    obtain ⟨q, hq, h⟩ := C25_rotation surf (angle * (Real.pi / 180)) axis i ⟨0, 0, 0⟩ ha r s p hp
    refine ⟨q, hq, ?_⟩
    have z : toF (⟨0, 0, 0⟩ : V) = 0 := by ext k; fin_cases k <;> rfl
    rw [h, z, zero_add, sub_zero, mul_div_assoc]
  · intro surf r s x hx
    simp [RotatedPatch, hx, bind, Except.bind]

/-- C49 for `rotate` with an unknown axis name: every patch raises when evaluated. -/
theorem C49_rotate_bad_axis (c : Comp) (angle : ℝ) (axis : String) (ha : ∀ i, ¬ NamesAxis axis i) :
    ∀ e ∈ (c.rotate angle axis).patches, ∀ r s, ∃ x, e.2 r s = .error x := by
  intro e he r s
  simp only [Comp.rotate, Dict.mapVals, List.mem_map] at he
  obtain ⟨e', _, rfl⟩ := he
  exact (C26_axis_names e'.2 _ _).2 axis ha r s

/-- C49 for `translate` by a vector. -/
theorem C49_translate_vector (c : Comp) (v : V) :
    ActsOnPatches (fun p q => q.x = p.x + v.x ∧ q.y = p.y + v.y ∧ q.z = p.z + v.z) c (c.translate (.vector v)) := by
  apply actsOnPatches_mapVals _ c fun p => OffsetPatchFunction p (Comp.offsetFn (.vector v))
  · intro surf r s p hp
    exact ⟨p + v, by simp [OffsetPatchFunction, hp, Comp.offsetFn, bind, Except.bind, pure, Except.pure], rfl, rfl, rfl⟩
  · intro surf r s x hx
    simp [OffsetPatchFunction, hx, bind, Except.bind]

/-- C49 for `translate` by a function that does not raise. -/
theorem C49_translate_function (c : Comp) (f : ℝ → ℝ → ℝ → V) :
    ActsOnPatches (fun p q => q.x = p.x + (f p.x p.y p.z).x ∧ q.y = p.y + (f p.x p.y p.z).y ∧
      q.z = p.z + (f p.x p.y p.z).z) c (c.translate (.callable fun x y z => .ok (f x y z))) := by
  apply actsOnPatches_mapVals _ c fun p => OffsetPatchFunction p (Comp.offsetFn (.callable fun x y z => .ok (f x y z)))
  · intro surf r s p hp
    exact ⟨p + f p.x p.y p.z, by simp [OffsetPatchFunction, hp, Comp.offsetFn, bind, Except.bind, pure, Except.pure],
      rfl, rfl, rfl⟩
  · intro surf r s x hx
    simp [OffsetPatchFunction, hx, bind, Except.bind]

/-- C49 for `apply_modifier`: the modifier offsets every point; without a modifier nothing changes. -/
theorem C49_modifier (c : Comp) :
    (c.modifier = none → c.applyModifier = c) ∧
    ∀ f : ℝ → ℝ → ℝ → V, c.modifier = some (fun x y z => .ok (f x y z)) →
      ActsOnPatches (fun p q => q.x = p.x + (f p.x p.y p.z).x ∧ q.y = p.y + (f p.x p.y p.z).y ∧
        q.z = p.z + (f p.x p.y p.z).z) c c.applyModifier := by
  constructor
  · intro h; simp [Comp.applyModifier, h]
  · intro f hf
    have := C49_translate_function c f
    have e : c.applyModifier = c.translate (.callable fun x y z => .ok (f x y z)) := by
      simp [Comp.applyModifier, hf, Comp.translate, Comp.offsetFn]
    rwa [e]

theorem curvedPatch_curvedTo (k : Curvature) (hd : k.direction = "x" ∨ k.direction = "y")
    (hk : ∀ x y, ∃ f m, k.fn x y = .ok f ∧ k.fn_dash x y = .ok m) (surf : Surf) (r s : ℝ) (p : V)
    (hp : surf r s = .ok p) :
    ∃ q, CurvedPatch surf (some k.direction) (some k.fn) (some k.fn_dash) r s = .ok q ∧ CurvedTo k p q := by
  obtain ⟨f, m, hf, hm⟩ := hk p.x p.y
  obtain ⟨q, ν, h1, h2, h3, h4, h5, h6, _⟩ := C28_curved surf k.direction k.fn k.fn_dash r s p f m hd hp hf hm
  exact ⟨q, h1, f, m, ν, hf, hm, h2, h3, h4, h5, h6⟩

/-- C49 for `curve`: every point is moved by the curvatures one after the other, the heights measured along the normals;
without curvatures nothing changes. -/
theorem C49_curve (c : Comp) :
    (c.curvatures = none → c.curve = c) ∧
    ∀ l : List Curvature, c.curvatures = some l →
      (∀ k ∈ l, (k.direction = "x" ∨ k.direction = "y") ∧ ∀ x y, ∃ f m, k.fn x y = .ok f ∧ k.fn_dash x y = .ok m) →
      ActsOnPatches (CurvedAll l) c c.curve := by
  constructor
  · intro h; simp [Comp.curve, h]
  · intro l hl hk
    have key : ∀ (l : List Curvature), (∀ k ∈ l, (k.direction = "x" ∨ k.direction = "y") ∧
        ∀ x y, ∃ f m, k.fn x y = .ok f ∧ k.fn_dash x y = .ok m) → ∀ d : Dict String Surf,
        List.Forall₂ (fun e e' => e'.1 = e.1 ∧ (∀ r s p, e.2 r s = .ok p → ∃ q, e'.2 r s = .ok q ∧ CurvedAll l p q) ∧
          (∀ r s x, e.2 r s = .error x → e'.2 r s = .error x)) d (l.foldl (fun (d : Dict String Surf) k =>
          d.mapVals fun _ p => CurvedPatch p (some k.direction) (some k.fn) (some k.fn_dash)) d) := by
      intro l
      induction l with
      | nil =>
        intro _ d
        rw [List.foldl_nil, List.forall₂_same]
        exact fun e _ => ⟨rfl, fun r s p hp => ⟨p, hp, .nil p⟩, fun r s x hx => hx⟩
      | cons k l ih =>
        intro hk d
        rw [List.foldl_cons]
        have h := ih (fun k' hk' => hk k' (List.mem_cons_of_mem _ hk'))
          (d.mapVals fun _ p => CurvedPatch p (some k.direction) (some k.fn) (some k.fn_dash))
        rw [show (Dict.mapVals (fun _ p => CurvedPatch p (some k.direction) (some k.fn) (some k.fn_dash)) d) =
          d.map (fun e => (e.1, CurvedPatch e.2 (some k.direction) (some k.fn) (some k.fn_dash))) from rfl] at h ⊢
        rw [List.forall₂_map_left_iff] at h
        refine h.imp fun e e' ⟨h1, h2, h3⟩ => ⟨h1, ?_, ?_⟩
        · intro r s p hp
          obtain ⟨hd, hf⟩ := hk k (by simp)
          obtain ⟨q, hq, hc⟩ := curvedPatch_curvedTo k hd hf e.2 r s p hp
          obtain ⟨q', hq', hc'⟩ := h2 r s q hq
          exact ⟨q', hq', .cons hc hc'⟩
        · intro r s x hx
          apply h3
          simp [CurvedPatch, hx, bind, Except.bind]
    have e : c.curve = { c with patches := l.foldl (fun d k =>
        d.mapVals fun _ p => CurvedPatch p (some k.direction) (some k.fn) (some k.fn_dash)) c.patches } := by
      simp [Comp.curve, hl]
    rw [e]
    exact ⟨rfl, key l hk c.patches⟩

/-- A component meeting the hypotheses of C49. -/
example : NamesAxis "y" 1 ∧ demoComp.patches ≠ [] ∧
    ∃ l, ({ demoComp with curvatures := some [⟨"x", fun x _ => .ok (x ^ 2), fun x _ => .ok (2 * x)⟩] } : Comp).curvatures = some l ∧
      ∀ k ∈ l, (k.direction = "x" ∨ k.direction = "y") ∧ ∀ x y, ∃ f m, k.fn x y = .ok f ∧ k.fn_dash x y = .ok m := by
  refine ⟨.inl rfl, by simp [demoComp], _, rfl, ?_⟩
  intro k hk
  rw [List.mem_singleton] at hk
  subst hk
  exact ⟨.inl rfl, fun x y => ⟨_, _, rfl, rfl⟩⟩

/-! ## C50 -/

theorem append_right_inj' {a b c : String} (h : a ++ c = b ++ c) : a = b := by
  have := congrArg String.toList h
  simp only [String.toList_append] at this
  exact String.toList_inj.1 (List.append_cancel_right this)

theorem mirrored_inj {a b : String} (h : a ++ "_mirrored" = b ++ "_mirrored") : a = b := by
  have := congrArg String.toList h
  simp only [String.toList_append] at this
  exact String.toList_inj.1 (List.append_cancel_right this)

theorem foldl_mirrored (axis : String) (l : Dict String Surf) (d : Dict String Surf) :
    l.foldl (fun d e => d.set (e.1 ++ "_mirrored") (MirroredPatch e.2 axis)) d =
      d.setAll (l.map fun e => (e.1 ++ "_mirrored", MirroredPatch e.2 axis)) := by
  induction l generalizing d with
  | nil => rfl
  | cons e l ih => rw [List.foldl_cons, ih]; rfl

theorem mirrored_nodup (axis : String) (l : Dict String Surf) (hn : l.keys.Nodup) :
    ((l.map fun e => (e.1 ++ "_mirrored", MirroredPatch e.2 axis)).map Prod.fst).Nodup := by
  rw [List.map_map]
  have : (Prod.fst ∘ fun e : String × Surf => (e.1 ++ "_mirrored", MirroredPatch e.2 axis)) =
      (fun k => k ++ "_mirrored") ∘ Prod.fst := rfl
  rw [this, ← List.map_map]
  exact hn.map fun a b h => mirrored_inj h

theorem reflect_eq (c : Comp) (axis : Option String) (a : String)
    (ha : c.reflection_axis.or axis = some a) (hn : c.patches.keys.Nodup) :
    c.reflect axis = if c.append_reflection
      then { c with patches := c.patches.setAll (c.patches.map fun e => (e.1 ++ "_mirrored", MirroredPatch e.2 a)) }
      else { c with patches := c.patches.map fun e => (e.1 ++ "_mirrored", MirroredPatch e.2 a) } := by
  unfold Comp.reflect
  simp only [ha]
  rw [foldl_mirrored, Dict.setAll_nil_nodup _ (mirrored_nodup a _ hn)]

/-- `reflect(axis)` uses the axis `a`: the stored one if there is one, else the argument. -/
def Spec.AxisUsed (stored axis : Option String) (a : String) : Prop :=
  stored = some a ∨ (stored = none ∧ axis = some a)

theorem axisUsed_eq {c : Comp} {axis : Option String} {a : String} (h : AxisUsed c.reflection_axis axis a) :
    c.reflection_axis.or axis = some a := by
  rcases h with h | ⟨h, h'⟩ <;> simp [*]

/-- C50, replacing: the component consists of exactly the mirrored patches, in order. -/
theorem C50_replace (c : Comp) (axis : Option String) (a : String) (ha : AxisUsed c.reflection_axis axis a)
    (hn : (c.patches.map Prod.fst).Nodup) (hr : c.append_reflection = false) :
    c.reflect axis = { c with patches := c.patches.map fun e => (e.1 ++ "_mirrored", MirroredPatch e.2 a) } := by
  rw [reflect_eq c axis a (axisUsed_eq ha) hn, hr]; simp

/-- C50: without an axis nothing happens. -/
theorem C50_no_axis (c : Comp) (axis : Option String) (ha : c.reflection_axis = none) (ha' : axis = none) :
    c.reflect axis = c := by
  unfold Comp.reflect
  rw [ha, ha']; rfl

/-- C50, appending, as far as it holds: if no patch bears the mirrored name of another one, the mirrored patches are
appended in order and the originals kept.  Missing: components that already have such names, see `C50_violated`. -/
theorem C50_append_partial (c : Comp) (axis : Option String) (a : String) (ha : AxisUsed c.reflection_axis axis a)
    (hn : (c.patches.map Prod.fst).Nodup) (hr : c.append_reflection = true)
    (hc : ∀ k ∈ c.patches.map Prod.fst, k ++ "_mirrored" ∉ c.patches.map Prod.fst) :
    c.reflect axis =
      { c with patches := c.patches ++ c.patches.map fun e => (e.1 ++ "_mirrored", MirroredPatch e.2 a) } := by
  rw [reflect_eq c axis a (axisUsed_eq ha) hn, hr, if_pos rfl]
  rw [Dict.setAll_disjoint _ _ (mirrored_nodup a _ hn)]
  intro k hk
  simp only [List.map_map, List.mem_map, Function.comp] at hk
  obtain ⟨e, he, rfl⟩ := hk
  exact hc e.1 (List.mem_map_of_mem he)

/-- C50, appending, for every component: the patch named `k` afterwards is the mirror image of `k'` if `k` is
`k'_mirrored`, and the old patch otherwise; no other attribute changes. -/
theorem C50_lookup (c : Comp) (axis : Option String) (a : String) (ha : AxisUsed c.reflection_axis axis a)
    (hn : (c.patches.map Prod.fst).Nodup) (hr : c.append_reflection = true) :
    { c.reflect axis with patches := c.patches } = c ∧
    (∀ k p, (k, p) ∈ c.patches → (k ++ "_mirrored", MirroredPatch p a) ∈ (c.reflect axis).patches) ∧
    (∀ k p, (k, p) ∈ c.patches → (∀ k' ∈ c.patches.map Prod.fst, k ≠ k' ++ "_mirrored") → (k, p) ∈ (c.reflect axis).patches) ∧
    (∀ k p, (k, p) ∈ (c.reflect axis).patches →
      (∃ k' p', (k', p') ∈ c.patches ∧ k = k' ++ "_mirrored" ∧ p = MirroredPatch p' a) ∨ (k, p) ∈ c.patches) := by
  rw [reflect_eq c axis a (axisUsed_eq ha) hn, if_pos hr]
  set l := c.patches.map fun e => (e.1 ++ "_mirrored", MirroredPatch e.2 a) with hl
  have hln : (l.map Prod.fst).Nodup := mirrored_nodup a _ hn
  have hN := Dict.nodup_setAll c.patches l hn
  refine ⟨rfl, ?_, ?_, ?_⟩
  · intro k p h
    show _ ∈ c.patches.setAll l
    rw [← Dict.get?_iff_mem hN, Dict.get?_setAll _ _ hln]
    have : Dict.get? l (k ++ "_mirrored") = some (MirroredPatch p a) :=
      Dict.get?_of_mem hln (List.mem_map.2 ⟨(k, p), h, rfl⟩)
    simp [this]
  · intro k p h hk
    show _ ∈ c.patches.setAll l
    rw [← Dict.get?_iff_mem hN, Dict.get?_setAll _ _ hln]
    have : Dict.get? l k = none := by
      rw [Dict.get?_eq_none]
      intro hm
      simp only [hl, Dict.keys, List.map_map, List.mem_map, Function.comp] at hm
      obtain ⟨e, he, rfl⟩ := hm
      exact hk e.1 (List.mem_map_of_mem he) rfl
    rw [this, Dict.get?_of_mem hn h]; rfl
  · intro k p h
    replace h : (k, p) ∈ c.patches.setAll l := h
    rw [← Dict.get?_iff_mem hN, Dict.get?_setAll _ _ hln] at h
    cases hg : Dict.get? l k with
    | none =>
      rw [hg] at h
      exact .inr (Dict.mem_of_get? (by simpa using h))
    | some q =>
      rw [hg] at h
      simp only [Option.some_or, Option.some.injEq] at h
      subst h
      have := Dict.mem_of_get? hg
      obtain ⟨e, he, h⟩ := List.mem_map.1 this
      cases h
      exact .inl ⟨e.1, e.2, he, rfl, rfl⟩

/-- C50 fails: reflecting in `x` and then in `y` loses a patch.  The patch mirrored in `x` is overwritten by the patch
mirrored in `y`, so of the four quarters of a body only three remain. -/
theorem C50_violated :
    ¬ ∀ (c : Comp) (axis : Option String) (a : String), AxisUsed c.reflection_axis axis a →
      (c.patches.map Prod.fst).Nodup → c.append_reflection = true →
      (c.reflect axis).patches.length = 2 * c.patches.length := by
  intro h
  have h1 := h (demoComp.reflect (some "x")) (some "y") "y" (.inr ⟨rfl, rfl⟩)
  have e : (demoComp.reflect (some "x")).patches.map Prod.fst = ["a", "a_mirrored"] := by
    rw [C50_append_partial demoComp (some "x") "x" (.inr ⟨rfl, rfl⟩) (by simp [demoComp]) rfl (by simp [demoComp])]
    rfl
  have h2 := h1 (by rw [e]; decide) rfl
  have hk : (demoComp.reflect (some "x")).patches = [("a", (fun r s => .ok ⟨r, s, 0⟩ : Surf)),
      ("a_mirrored", MirroredPatch (fun r s => .ok ⟨r, s, 0⟩) "x")] := by
    rw [C50_append_partial demoComp (some "x") "x" (.inr ⟨rfl, rfl⟩) (by simp [demoComp]) rfl (by simp [demoComp])]
    rfl
  rw [reflect_eq _ (some "y") "y" rfl (by show List.Nodup (List.map _ _); rw [e]; decide)] at h2
  have ha : (demoComp.reflect (some "x")).append_reflection = true := rfl
  rw [ha, if_pos rfl] at h2
  simp only [hk] at h2
  revert h2
  simp [Dict.setAll, Dict.set]

/-! ## C52: surfaces and mesh -/

theorem forall2_fst {α β γ : Type} {R : α → γ → Prop} {f : α → β} {l : List α} {m : List (β × γ)}
    (h : List.Forall₂ (fun a b => b.1 = f a ∧ R a b.2) l m) :
    m.map Prod.fst = l.map f ∧ List.Forall₂ R l (m.map Prod.snd) := by
  induction h with
  | nil => simp
  | cons h _ ih => exact ⟨by simp [h.1, ih.1], .cons h.2 ih.2⟩

theorem wrapper_ok {o : MeshOpts} {k : String × Surf × ℕ × ℕ} {x : String × TriMesh ℝ} :
    Comp.wrapper o k = .ok x ↔ x.1 = k.1 ∧ surfceToStl k.2.1 k.2.2.1 k.2.2.2 o = .ok x.2 := by
  unfold Comp.wrapper
  rw [bind_ok]
  constructor
  · rintro ⟨m, h, h'⟩
    rw [pure_ok] at h'
    subst h'
    exact ⟨rfl, h⟩
  · rintro ⟨h, h'⟩
    exact ⟨x.2, h', by rw [pure_ok, ← h]⟩

theorem surfaceLoop_eq (o : MeshOpts) (ks : List (String × Surf × ℕ × ℕ)) (acc : Dict String (TriMesh ℝ)) :
    match ks.mapM (Comp.wrapper o) with
    | .ok l => Comp.surfaceLoop o acc ks = (.ok (), acc.setAll l)
    | .error e => ∃ d, Comp.surfaceLoop o acc ks = (.error e, d) := by
  induction ks generalizing acc with
  | nil => rfl
  | cons k ks ih =>
    rw [List.mapM_cons]
    unfold Comp.surfaceLoop
    cases hw : Comp.wrapper o k with
    | error e => exact ⟨_, rfl⟩
    | ok r =>
      rw [ok_bind]
      have := ih (acc.set r.1 r.2)
      cases hm : ks.mapM (Comp.wrapper o) with
      | error e => rw [hm] at this; exact this
      | ok l => rw [hm] at this; exact this

theorem mesh_eq_of_none (c : Comp) (hm : c.mesh_ = none) (hs : c.surfaces = none) :
    c.mesh = match c.surface with
      | (.error e, c') => (.error e, c')
      | (.ok _, c') => c'.combine := by
  unfold Comp.mesh Comp.buildMesh
  simp only [hm, hs]
  rcases c.surface with ⟨_ | _, _⟩ <;> rfl

theorem combine_eq (c : Comp) (l : Dict String (TriMesh ℝ)) (h : c.surfaces = some l) (hl : l ≠ []) :
    c.combine = (.ok (StlMesh.ofTris (l.map Prod.snd).flatten),
      { c with mesh_ := some (StlMesh.ofTris (l.map Prod.snd).flatten) }) := by
  obtain ⟨x, xs, rfl⟩ := List.exists_cons_of_ne_nil hl
  unfold Comp.combine
  simp only [h]

/-- The mesh of a component without cached data, when the resolutions `n`, `n'` are known. -/
theorem mesh_spec (c : Comp) (n n' : String → ℕ) (hm : c.mesh_ = none) (hs : c.surfaces = none)
    (hn : c.patches.keys.Nodup) (hne : c.patches ≠ [])
    (hc : c.patches.mapM (c.caseOf c.stl_resolution) = .ok (c.patches.map fun e => (e.1, e.2, n e.1, n' e.1))) :
    (∀ m, MeshOf c.clustering n n' c.patches m → ∃ c', c.mesh = (.ok (StlMesh.ofTris m), c') ∧
      c'.mesh_ = some (StlMesh.ofTris m) ∧ { c' with mesh_ := c.mesh_, surfaces := c.surfaces } = c) ∧
    ((¬ ∃ m, MeshOf c.clustering n n' c.patches m) → ∃ e c', c.mesh = (.error e, c')) := by
  have hlen : c.patches.length ≠ 0 := by simpa using hne
  have hmap : ∀ l, (c.patches.map fun e => (e.1, e.2, n e.1, n' e.1)).mapM (Comp.wrapper c.clustering) = .ok l →
      l.map Prod.fst = c.patches.keys ∧
      List.Forall₂ (fun (e : String × Surf) part => surfceToStl e.2 (n e.1) (n' e.1) c.clustering = .ok part) c.patches
        (l.map Prod.snd) := by
    intro l hl
    rw [mapM_ok_iff, List.forall₂_map_left_iff] at hl
    exact forall2_fst (f := Prod.fst) (hl.imp fun e x h => wrapper_ok.1 h)
  have hloop := surfaceLoop_eq c.clustering (c.patches.map fun e => (e.1, e.2, n e.1, n' e.1)) []
  have hmesh := mesh_eq_of_none c hm hs
  have hsurf : c.surface = if c.multiprocess then
        match (c.patches.map fun e => (e.1, e.2, n e.1, n' e.1)).mapM (Comp.wrapper c.clustering) with
        | .error e => (.error e, { c with surfaces := some [] })
        | .ok l => (.ok (), { c with surfaces := some (Dict.setAll [] l) })
      else
        ((Comp.surfaceLoop c.clustering [] (c.patches.map fun e => (e.1, e.2, n e.1, n' e.1))).1,
          { c with surfaces := some (Comp.surfaceLoop c.clustering [] (c.patches.map fun e => (e.1, e.2, n e.1, n' e.1))).2 }) := by
    unfold Comp.surface
    rw [if_neg hlen, Option.getD_none, hc]
    rfl
  constructor
  · rintro m ⟨parts, hp, rfl⟩
    obtain ⟨l, hl⟩ : ∃ l, (c.patches.map fun e => (e.1, e.2, n e.1, n' e.1)).mapM (Comp.wrapper c.clustering) = .ok l := by
      refine ⟨List.zip c.patches.keys parts, ?_⟩
      rw [mapM_ok_iff, List.forall₂_map_left_iff]
      have : ∀ (ps : List (String × Surf)) (parts : List (TriMesh ℝ)), List.Forall₂
          (fun (e : String × Surf) part => surfceToStl e.2 (n e.1) (n' e.1) c.clustering = .ok part) ps parts →
          List.Forall₂ (fun (e : String × Surf) b => Comp.wrapper c.clustering (e.1, e.2, n e.1, n' e.1) = .ok b) ps
            ((ps.map Prod.fst).zip parts) := by
        intro ps parts h
        induction h with
        | nil => simp
        | cons h _ ih => simpa using ⟨wrapper_ok.2 ⟨rfl, h⟩, ih⟩
      exact this _ _ hp
    obtain ⟨hf, h2⟩ := hmap l hl
    have hparts : l.map Prod.snd = parts := by
      have : ∀ (ps : List (String × Surf)) (a b : List (TriMesh ℝ)), List.Forall₂
          (fun (e : String × Surf) part => surfceToStl e.2 (n e.1) (n' e.1) c.clustering = .ok part) ps a → List.Forall₂
          (fun (e : String × Surf) part => surfceToStl e.2 (n e.1) (n' e.1) c.clustering = .ok part) ps b → a = b := by
        intro ps a b ha hb
        induction ha generalizing b with
        | nil => cases hb; rfl
        | cons h _ ih =>
          cases hb with
          | cons h' hb' =>
            rw [h] at h'
            cases h'
            rw [ih _ hb']
      exact this _ _ _ h2 hp
    have hset : Dict.setAll [] l = l := Dict.setAll_nil_nodup l (by rw [hf]; exact hn)
    have hsurf' : c.surface = (.ok (), { c with surfaces := some l }) := by
      rw [hsurf, hl]
      rw [hl] at hloop
      simp only at hloop
      rw [hloop]
      simp only [hset, ite_self]
    have hl0 : l ≠ [] := by
      rintro rfl
      simp only [List.map_nil] at hf
      exact hne (by simpa [Dict.keys] using hf.symm)
    rw [hmesh, hsurf']
    refine ⟨{ c with surfaces := some l, mesh_ := some (StlMesh.ofTris parts.flatten) }, ?_, rfl, rfl⟩
    rw [← hparts]
    exact combine_eq { c with surfaces := some l } l rfl hl0
  · intro hno
    cases hl : (c.patches.map fun e => (e.1, e.2, n e.1, n' e.1)).mapM (Comp.wrapper c.clustering) with
    | ok l => exact absurd ⟨_, _, (hmap l hl).2, rfl⟩ hno
    | error e =>
      rw [hl] at hloop
      simp only at hloop
      obtain ⟨d, hd⟩ := hloop
      rw [hmesh, hsurf, hl, hd]
      split <;> rename_i h <;> simp only at h
      · cases hmp : c.multiprocess <;> rw [hmp] at h <;> simp at h <;> exact ⟨_, _, rfl⟩
      · cases hmp : c.multiprocess <;> rw [hmp] at h <;> simp at h

theorem caseOf_int (c : Comp) (n : ℕ) (hr : c.stl_resolution = .int n) :
    c.patches.mapM (c.caseOf c.stl_resolution) =
      .ok (c.patches.map fun e => (e.1, e.2, (fun _ : String => n) e.1, (fun _ : String => n) e.1)) :=
  mapM_ok _ _ _ fun e _ => by rw [hr]; rfl

theorem meshOf_length (o : MeshOpts) (n : ℕ) (hn : 1 ≤ n) (ps : List (String × Surf)) (m : TriMesh ℝ)
    (h : MeshOf o (fun _ => n) (fun _ => n) ps m) : m.length = ps.length * (4 * n ^ 2) := by
  obtain ⟨parts, hp, rfl⟩ := h
  induction hp with
  | nil => simp
  | cons h _ ih =>
    have : ∀ (surf : Surf) (part : TriMesh ℝ), surfceToStl surf n n o = .ok part → part.length = 4 * n ^ 2 := by
      intro surf part h
      unfold surfceToStl at h
      obtain ⟨rL, _, h⟩ := bind_ok.1 h
      obtain ⟨sL, _, h⟩ := bind_ok.1 h
      rw [(C37_layout _ _ surf n n hn hn rL sL part h).1]; ring
    simp only [List.flatten_cons, List.length_append, List.length_cons, ih, this _ _ h]; ring

/-- C52: the mesh of a component with integer resolution `n` is the concatenation of its patch meshes in patch order, each
patch once, so it has `4 n²` triangles per patch; it is computed exactly when every patch can be meshed, in both
multiprocessing modes. -/
theorem C52_mesh (c : Comp) (n : ℕ) (hn : 1 ≤ n) (hr : c.stl_resolution = .int n) (hm : c.mesh_ = none)
    (hs : c.surfaces = none) (hk : (c.patches.map Prod.fst).Nodup) (hne : c.patches ≠ []) :
    (∀ m, MeshOf c.clustering (fun _ => n) (fun _ => n) c.patches m →
      ∃ M c', c.mesh = (.ok M, c') ∧ M.tris = m ∧ M.tris.length = c.patches.length * (4 * n ^ 2)) ∧
    (∀ M c', c.mesh = (.ok M, c') → MeshOf c.clustering (fun _ => n) (fun _ => n) c.patches M.tris) := by
  obtain ⟨h1, h2⟩ := mesh_spec c (fun _ => n) (fun _ => n) hm hs hk hne (caseOf_int c n hr)
  constructor
  · intro m h
    obtain ⟨c', hc, _⟩ := h1 m h
    exact ⟨_, c', hc, rfl, meshOf_length _ n hn _ m h⟩
  · intro M c' hM
    by_cases h : ∃ m, MeshOf c.clustering (fun _ => n) (fun _ => n) c.patches m
    · obtain ⟨m, h⟩ := h
      obtain ⟨c'', hc, _⟩ := h1 m h
      rw [hM] at hc
      cases hc
      exact h
    · obtain ⟨e, c'', hc⟩ := h2 h
      rw [hM] at hc
      cases hc

/-- C52: a component without patches raises. -/
theorem C52_no_patches (c : Comp) (res : Option Reso) (h : c.patches = []) (hm : c.mesh_ = none) (hs : c.surfaces = none) :
    (c.surface res).1 = .error .exc ∧ c.mesh.1 = .error .exc := by
  have e : ∀ r, c.surface r = (.error .exc, c) := by
    intro r; simp [Comp.surface, h]
  constructor
  · rw [e]
  · rw [mesh_eq_of_none c hm hs, e]

example : ∃ m, MeshOf demoComp.clustering (fun _ => 3) (fun _ => 3) demoComp.patches m := by
  obtain ⟨rL, sL, m, _, _, h, _⟩ := C40_default_mesh (fun r s => ⟨r, s, 0⟩) 3 3 (by norm_num) (by norm_num) {} rfl rfl
    one_pos one_pos
  exact ⟨_, [m], by simpa [demoComp] using h, rfl⟩

/-! ## C53: per-edge resolutions -/

/-- C53 as far as it holds: with a resolution dictionary and a recorded `r` resolution for every patch, the mesh consists of
the patch meshes with the `r` resolution along both parameters; so a patch with equal recorded `r` and `s` resolutions is
meshed as requested.  Missing: different resolutions, and reflected components, see the two theorems below. -/
theorem C53_partial (c : Comp) (d : Dict String ℕ) (n : String → ℕ) (hr : c.stl_resolution = .dict d) (hm : c.mesh_ = none)
    (hs : c.surfaces = none) (hk : (c.patches.map Prod.fst).Nodup) (hne : c.patches ≠ [])
    (hres : ∀ k ∈ c.patches.map Prod.fst, c.patch_res_r.get? k = some (n k)) (m : TriMesh ℝ)
    (h : MeshOf c.clustering n n c.patches m) : ∃ M c', c.mesh = (.ok M, c') ∧ M.tris = m := by
  have hc : c.patches.mapM (c.caseOf c.stl_resolution) = .ok (c.patches.map fun e => (e.1, e.2, n e.1, n e.1)) := by
    apply mapM_ok
    intro e he
    rw [hr]
    have := hres e.1 (List.mem_map_of_mem he)
    simp [Comp.caseOf, Dict.get, this, bind, Except.bind, pure, Except.pure]
  obtain ⟨c', hc', _⟩ := (mesh_spec c n n hm hs hk hne hc).1 m h
  exact ⟨_, c', hc', rfl⟩

/-- C53 fails: the `s` resolution is ignored.  Whatever is recorded in `patch_res_s`, the mesh is the same. -/
theorem C53_s_violated (c : Comp) (s : Dict String ℕ) (d : Dict String ℕ) (hm : c.mesh_ = none) (hs : c.surfaces = none)
    (hr : c.stl_resolution = .dict d) :
    ({ c with patch_res_s := s } : Comp).mesh.1 = c.mesh.1 := by
  have e : ∀ x, ({ c with patch_res_s := s } : Comp).caseOf x = c.caseOf x := fun x => rfl
  have hsf : ({ c with patch_res_s := s } : Comp).surface =
      (c.surface.1, { c.surface.2 with patch_res_s := s }) := by
    unfold Comp.surface
    simp only [Option.getD_none, e]
    split
    · rfl
    · cases List.mapM (c.caseOf c.stl_resolution) c.patches with
      | error x => rfl
      | ok l =>
        simp only
        unfold Comp.surfaceCases
        simp only
        split
        · cases List.mapM (Comp.wrapper c.clustering) l <;> rfl
        · rfl
  rw [mesh_eq_of_none c hm hs, mesh_eq_of_none { c with patch_res_s := s } hm hs, hsf]
  rcases hx : c.surface with ⟨r, c'⟩
  cases r with
  | error x => rfl
  | ok u =>
    simp only
    unfold Comp.combine
    simp only
    cases c'.surfaces with
    | none => rfl
    | some l => cases l <;> rfl

/-- C53 fails: a patch recorded with 1 cell along `r` and 2 cells along `s` is meshed with one cell. -/
theorem C53_violated :
    ¬ ∀ (c : Comp) (d : Dict String ℕ) (n n' : String → ℕ) (m : TriMesh ℝ), c.stl_resolution = .dict d → c.mesh_ = none →
      c.surfaces = none → (c.patches.map Prod.fst).Nodup → c.patches ≠ [] →
      (∀ k ∈ c.patches.map Prod.fst, c.patch_res_r.get? k = some (n k) ∧ c.patch_res_s.get? k = some (n' k)) →
      MeshOf c.clustering n n' c.patches m → ∃ M c', c.mesh = (.ok M, c') ∧ M.tris = m := by
  intro h
  set c : Comp := { demoComp with patch_res_r := [("a", 1)], patch_res_s := [("a", 2)], stl_resolution := .dict [] } with hc
  obtain ⟨_, _, m1, _, _, h1, h1'⟩ := C40_default_mesh (fun r s => ⟨r, s, 0⟩) 1 1 (by norm_num) (by norm_num) {} rfl rfl
    one_pos one_pos
  obtain ⟨_, _, m2, _, _, h2, h2'⟩ := C40_default_mesh (fun r s => ⟨r, s, 0⟩) 1 2 (by norm_num) (by norm_num) {} rfl rfl
    one_pos one_pos
  have l1 := (C37_layout _ _ _ 1 1 (by norm_num) (by norm_num) _ _ m1 h1').1
  have l2 := (C37_layout _ _ _ 1 2 (by norm_num) (by norm_num) _ _ m2 h2').1
  obtain ⟨M, c', hM, hm⟩ := h c [] (fun _ => 1) (fun _ => 2) m2 rfl rfl rfl (by simp [hc, demoComp]) (by simp [hc, demoComp])
    (by simp [hc, demoComp, Dict.get?]) ⟨[m2], by simpa [hc, demoComp] using h2, by simp⟩
  obtain ⟨M', c'', hM', hm'⟩ := C53_partial c [] (fun _ => 1) rfl rfl rfl (by simp [hc, demoComp]) (by simp [hc, demoComp])
    (by simp [hc, demoComp, Dict.get?]) m1 ⟨[m1], by simpa [hc, demoComp] using h1, by simp⟩
  rw [hM] at hM'
  cases hM'
  rw [← hm', hm] at l1
  omega

/-- C53 fails for reflected components: with a resolution dictionary, a mirrored patch without recorded resolution makes
meshing raise `KeyError`. -/
theorem C53_reflected_violated (c : Comp) (d : Dict String ℕ) (a : String) (hr : c.stl_resolution = .dict d)
    (hm : c.mesh_ = none) (hs : c.surfaces = none) (hk : (c.patches.map Prod.fst).Nodup) (hne : c.patches ≠ [])
    (hax : AxisUsed c.reflection_axis none a)
    (hres : ∀ k ∈ c.patches.map Prod.fst, k ++ "_mirrored" ∉ c.patch_res_r.map Prod.fst) :
    (c.reflect none).mesh.1 = .error .key := by
  have hsub : ∃ e ∈ (c.reflect none).patches, ∃ k ∈ c.patches.map Prod.fst, e.1 = k ++ "_mirrored" := by
    obtain ⟨⟨k, p⟩, hp⟩ := List.exists_mem_of_ne_nil _ hne
    cases happ : c.append_reflection with
    | true =>
      exact ⟨_, (C50_lookup c none a hax hk happ).2.1 k p hp, k, List.mem_map_of_mem hp, rfl⟩
    | false =>
      rw [C50_replace c none a hax hk happ]
      exact ⟨_, List.mem_map_of_mem hp, k, List.mem_map_of_mem hp, rfl⟩
  have hpr : (c.reflect none).patch_res_r = c.patch_res_r ∧ (c.reflect none).mesh_ = none ∧
      (c.reflect none).surfaces = none ∧ (c.reflect none).stl_resolution = .dict d := by
    rw [reflect_eq c none a (axisUsed_eq hax) hk]
    split <;> exact ⟨rfl, hm, hs, hr⟩
  obtain ⟨h1, h2, h3, h4⟩ := hpr
  generalize c.reflect none = c' at *
  have hne' : c'.patches.length ≠ 0 := by
    obtain ⟨e, he, _⟩ := hsub
    intro h0
    rw [List.length_eq_zero_iff] at h0
    simp [h0] at he
  have hcase : ∀ l : List (String × Surf), (∃ e ∈ l, ∃ k ∈ c.patches.map Prod.fst, e.1 = k ++ "_mirrored") →
      l.mapM (c'.caseOf (.dict d)) = .error .key := by
    intro l hl
    induction l with
    | nil => simp at hl
    | cons e l ih =>
      rw [List.mapM_cons]
      cases hg : c'.patch_res_r.get? e.1 with
      | none => simp [Comp.caseOf, Dict.get, hg, bind, Except.bind]
      | some v =>
        have : c'.caseOf (.dict d) e = .ok (e.1, e.2, v, v) := by
          simp [Comp.caseOf, Dict.get, hg, bind, Except.bind, pure, Except.pure]
        rw [this, ok_bind]
        obtain ⟨e', he', k, hk', hek⟩ := hl
        rcases List.mem_cons.1 he' with rfl | he'
        · exfalso
          have hn : c'.patch_res_r.get? e'.1 = none := by
            rw [Dict.get?_eq_none, hek, h1]
            exact hres k hk'
          rw [hn] at hg
          cases hg
        · rw [ih ⟨e', he', k, hk', hek⟩]; rfl
  rw [mesh_eq_of_none _ h2 h3]
  unfold Comp.surface
  simp only [Option.getD_none, if_neg hne', h4, hcase _ hsub]

/-! ## C51: orientation after reflection -/

/-- The mirror image of a point in the plane orthogonal to axis `i`. -/
def Spec.mirrorV (i : Fin 3) (p : V) : V :=
  ⟨if i = 0 then -p.x else p.x, if i = 1 then -p.y else p.y, if i = 2 then -p.z else p.z⟩

theorem mirrorAlong_eq (a : String) (i : Fin 3) (ha : NamesAxis a i) (p : V) :
    mirrorAlong (axisOf a) p = mirrorV i p := by
  rw [namesAxis_iff] at ha
  rw [ha]
  fin_cases i <;> simp [mirrorAlong, mirrorV, Ax.ofFin]

theorem signedVolume_mirrorV (i : Fin 3) (m : TriMesh ℝ) : signedVolume (mapVerts (mirrorV i) m) = -signedVolume m := by
  induction m with
  | nil => simp [signedVolume, mapVerts]
  | cons t m ih =>
    have e1 : signedVolume (t :: m) = det3 t.v0 t.v1 t.v2 / 6 + signedVolume m := by simp [signedVolume]
    have e2 : signedVolume (mapVerts (mirrorV i) (t :: m)) =
        det3 (mirrorV i t.v0) (mirrorV i t.v1) (mirrorV i t.v2) / 6 + signedVolume (mapVerts (mirrorV i) m) := by
      simp [signedVolume, mapVerts]
    rw [e1, e2, ih]
    fin_cases i <;> simp [det3, mirrorV] <;> ring

theorem signedVolume_append (m m' : TriMesh ℝ) : signedVolume (m ++ m') = signedVolume m + signedVolume m' := by
  simp [signedVolume]

/-- Meshing a mirrored patch gives the mirrored mesh. -/
theorem surfceToStl_mirrored (surf : Surf) (a : String) (i : Fin 3) (ha : NamesAxis a i) (ni nj : ℕ) (hi : 1 ≤ ni)
    (hj : 1 ≤ nj) (o : MeshOpts) (m : TriMesh ℝ) (h : surfceToStl surf ni nj o = .ok m) :
    surfceToStl (MirroredPatch surf a) ni nj o = .ok (mapVerts (mirrorV i) m) := by
  unfold surfceToStl at h ⊢
  obtain ⟨rL, hr, h⟩ := bind_ok.1 h
  obtain ⟨sL, hs, h⟩ := bind_ok.1 h
  rw [hr, ok_bind, hs, ok_bind]
  obtain ⟨P, hP, rfl⟩ := meshFromLists_inv _ _ surf ni nj hi hj rL sL m h
  rw [meshFromLists_eq _ o.mirror_y _ ni nj rL sL (fun i' j' => mirrorV i (P i' j'))]
  · congr 1
    simp only [gridMesh, mapVerts, List.map_flatten, List.map_map]
    congr 1
    apply List.map_congr_left
    intro i' _
    simp only [Function.comp, List.map_flatten, List.map_map]
    congr 1
    apply List.map_congr_left
    intro j' _
    have hv : ∀ p : V, meshVertex MeshArith.real o.mirror_y (mirrorV i p) = mirrorV i (meshVertex MeshArith.real o.mirror_y p) := by
      intro p
      fin_cases i <;> simp [meshVertex, MeshArith.real, mirrorV]
    have hc : ∀ p q u v : V, cellCentre MeshArith.real (mirrorV i p) (mirrorV i q) (mirrorV i u) (mirrorV i v) =
        mirrorV i (cellCentre MeshArith.real p q u v) := by
      intro p q u v
      fin_cases i <;> simp [cellCentre, MeshArith.real, mirrorV] <;> ring
    simp only [Function.comp, cellTris, hv, hc, List.map_cons, List.map_nil]
  · intro i' hi' j' hj'
    obtain ⟨r, s, h1, h2, h3⟩ := pointAt_ok.1 (hP i' hi' j' hj')
    rw [pointAt_ok]
    refine ⟨r, s, h1, h2, ?_⟩
    simp only [MirroredPatch, h3, bind, Except.bind, pure, Except.pure, mirrorAlong_eq a i ha]

theorem meshOf_append (o : MeshOpts) (n n' : String → ℕ) (ps ps' : List (String × Surf)) (m m' : TriMesh ℝ)
    (h : MeshOf o n n' ps m) (h' : MeshOf o n n' ps' m') : MeshOf o n n' (ps ++ ps') (m ++ m') := by
  obtain ⟨a, ha, rfl⟩ := h
  obtain ⟨b, hb, rfl⟩ := h'
  exact ⟨a ++ b, List.rel_append ha hb, by simp⟩

theorem meshOf_mirrored (o : MeshOpts) (n : ℕ) (hn : 1 ≤ n) (a : String) (i : Fin 3) (ha : NamesAxis a i)
    (ps : List (String × Surf)) (m : TriMesh ℝ) (h : MeshOf o (fun _ => n) (fun _ => n) ps m) :
    MeshOf o (fun _ => n) (fun _ => n) (ps.map fun e => (e.1 ++ "_mirrored", MirroredPatch e.2 a)) (mapVerts (mirrorV i) m) := by
  obtain ⟨parts, hp, rfl⟩ := h
  refine ⟨parts.map (mapVerts (mirrorV i)), ?_, ?_⟩
  · rw [List.forall₂_map_left_iff, List.forall₂_map_right_iff]
    exact hp.imp fun e part h => surfceToStl_mirrored e.2 a i ha n n hn hn o part h
  · rw [mapVerts, List.map_flatten]; rfl

/-- C51 fails for every component: the mirrored patches are oriented inwards, so after appending a reflection the signed
volume is zero whatever the body is.  (The mesh `m` is that of the component before reflecting.) -/
theorem C51_violated (c : Comp) (a : String) (i : Fin 3) (ha : NamesAxis a i) (n : ℕ) (hn : 1 ≤ n)
    (hr : c.stl_resolution = .int n) (hm : c.mesh_ = none) (hs : c.surfaces = none)
    (hk : (c.patches.map Prod.fst).Nodup) (hc : ∀ k ∈ c.patches.map Prod.fst, k ++ "_mirrored" ∉ c.patches.map Prod.fst)
    (hax : AxisUsed c.reflection_axis none a) (happ : c.append_reflection = true) (M : StlMesh) (c' : Comp)
    (hM : c.mesh = (.ok M, c')) :
    ∃ M' c'', (c.reflect none).mesh = (.ok M', c'') ∧ M'.tris = M.tris ++ mapVerts (mirrorV i) M.tris ∧
      signedVolume M'.tris = 0 := by
  have hne : c.patches ≠ [] := by
    intro h
    have := (C52_no_patches c none h hm hs).2
    rw [hM] at this
    cases this
  have hmo := (C52_mesh c n hn hr hm hs hk hne).2 M c' hM
  have hmm := meshOf_append _ _ _ _ _ _ _ hmo (meshOf_mirrored c.clustering n hn a i ha c.patches M.tris hmo)
  have hR := C50_append_partial c none a hax hk happ hc
  have := (C52_mesh (c.reflect none) n hn (by rw [hR]; exact hr) (by rw [hR]; exact hm) (by rw [hR]; exact hs)
    (by
      rw [hR]
      show (List.map _ (c.patches ++ _)).Nodup
      rw [List.map_append, List.nodup_append]
      refine ⟨hk, mirrored_nodup a _ hk, ?_⟩
      rintro x hx y hy rfl
      simp only [List.map_map, List.mem_map, Function.comp] at hy
      obtain ⟨e, he, rfl⟩ := hy
      exact hc e.1 (List.mem_map_of_mem he) hx)
    (by rw [hR]; simp [hne])).1 (M.tris ++ mapVerts (mirrorV i) M.tris) (by rw [hR]; exact hmm)
  obtain ⟨M', c'', h1, h2, _⟩ := this
  refine ⟨M', c'', h1, h2, ?_⟩
  rw [h2, signedVolume_append, signedVolume_mirrorV]; ring

/-- C51 as far as it holds: replacing a component by its reflection keeps the enclosed volume up to its sign (which is
reversed: the surface is turned inside out).  Missing: orientation. -/
theorem C51_replace_partial (c : Comp) (a : String) (i : Fin 3) (ha : NamesAxis a i) (n : ℕ) (hn : 1 ≤ n)
    (hr : c.stl_resolution = .int n) (hm : c.mesh_ = none) (hs : c.surfaces = none)
    (hk : (c.patches.map Prod.fst).Nodup)
    (hax : AxisUsed c.reflection_axis none a) (happ : c.append_reflection = false) (M : StlMesh) (c' : Comp)
    (hM : c.mesh = (.ok M, c')) :
    ∃ M' c'', (c.reflect none).mesh = (.ok M', c'') ∧ M'.tris = mapVerts (mirrorV i) M.tris ∧
      signedVolume M'.tris = -signedVolume M.tris := by
  have hne : c.patches ≠ [] := by
    intro h
    have := (C52_no_patches c none h hm hs).2
    rw [hM] at this
    cases this
  have hmo := (C52_mesh c n hn hr hm hs hk hne).2 M c' hM
  have hR := C50_replace c none a hax hk happ
  have := (C52_mesh (c.reflect none) n hn (by rw [hR]; exact hr) (by rw [hR]; exact hm) (by rw [hR]; exact hs)
    (by rw [hR]; exact mirrored_nodup a _ hk) (by rw [hR]; simp [hne])).1 (mapVerts (mirrorV i) M.tris)
    (by rw [hR]; exact meshOf_mirrored c.clustering n hn a i ha c.patches M.tris hmo)
  obtain ⟨M', c'', h1, h2, _⟩ := this
  exact ⟨M', c'', h1, h2, by rw [h2, signedVolume_mirrorV]⟩

/-- The hypotheses of the two theorems above are met by a flat component reflected in the `x` plane. -/
example : NamesAxis "x" 0 ∧ (demoComp.patches.map Prod.fst).Nodup ∧
    (∀ k ∈ demoComp.patches.map Prod.fst, k ++ "_mirrored" ∉ demoComp.patches.map Prod.fst) ∧
    AxisUsed ({ demoComp with reflection_axis := some "x" } : Comp).reflection_axis none "x" ∧
    ∃ M c', ({ demoComp with reflection_axis := some "x" } : Comp).mesh = (.ok M, c') := by
  refine ⟨.inl rfl, by simp [demoComp], by simp [demoComp], .inl rfl, ?_⟩
  obtain ⟨rL, sL, m, _, _, h, _⟩ := C40_default_mesh (fun r s => ⟨r, s, 0⟩) 2 2 (by norm_num) (by norm_num) {} rfl rfl
    one_pos one_pos
  obtain ⟨M, c', h, _⟩ := (C52_mesh { demoComp with reflection_axis := some "x" } 2 (by norm_num) rfl rfl rfl
    (by simp [demoComp]) (by simp [demoComp])).1 m ⟨[m], by simpa [demoComp] using h, by simp⟩
  exact ⟨M, c', h⟩

/-! ## C54: the cached mesh -/

/-- C54 as far as it holds: reading the mesh leaves the patches and options alone, and reading it again gives the same
mesh; with the caches cleared (as `Vehicle.transform` does) the mesh is that of the current patches, see `C52_mesh`.
Missing: operations between the two reads, see `C54_violated`. -/
theorem C54_partial (c : Comp) (n : ℕ) (hn : 1 ≤ n) (hr : c.stl_resolution = .int n) (hm : c.mesh_ = none)
    (hs : c.surfaces = none) (hk : (c.patches.map Prod.fst).Nodup) (M : StlMesh) (c' : Comp) (hM : c.mesh = (.ok M, c')) :
    { c' with mesh_ := c.mesh_, surfaces := c.surfaces } = c ∧ c'.mesh = (.ok M, c') ∧
    MeshOf c'.clustering (fun _ => n) (fun _ => n) c'.patches M.tris := by
  have hne : c.patches ≠ [] := by
    intro h
    have := (C52_no_patches c none h hm hs).2
    rw [hM] at this
    cases this
  have hmo := (C52_mesh c n hn hr hm hs hk hne).2 M c' hM
  obtain ⟨c'', h1, h2, h3⟩ := (mesh_spec c (fun _ => n) (fun _ => n) hm hs hk hne (caseOf_int c n hr)).1 M.tris hmo
  rw [hM] at h1
  have e1 : M = StlMesh.ofTris M.tris := by
    have := congrArg Prod.fst h1
    exact Except.ok.inj this
  have e2 : c' = c'' := congrArg Prod.snd h1
  subst e2
  have hlen := meshOf_length _ n hn _ _ hmo
  have hpos : M.tris.length ≠ 0 := by
    rw [hlen]
    have : c.patches.length ≠ 0 := by simpa using hne
    positivity
  refine ⟨h3, ?_, ?_⟩
  · unfold Comp.mesh
    rw [h2, ← e1]
    simp only [if_pos hpos]
  · have hp : c'.patches = c.patches ∧ c'.clustering = c.clustering := by
      rw [← h3]; exact ⟨rfl, rfl⟩
    rw [hp.1, hp.2]
    exact hmo

/-- C54 fails for every component: once the mesh has been read, neither rotation, translation, reflection, curving,
modifiers nor changed clustering options have any effect on it. -/
theorem C54_stale (c : Comp) (M : StlMesh) (hM : c.mesh_ = some M) (hpos : M.tris ≠ []) (t : Transf) (c' : Comp)
    (ht : c.applyTransf t = .ok c') (i j : Option (ℝ → Res ℝ)) :
    c'.mesh.1 = .ok M ∧ (c.addClusteringOptions i j).mesh.1 = .ok M := by
  have key : ∀ d : Comp, d.mesh_ = some M → d.mesh.1 = .ok M := by
    intro d hd
    unfold Comp.mesh
    rw [hd]
    have : M.tris.length ≠ 0 := by simpa using hpos
    simp only [if_pos this]
  constructor
  · apply key
    cases t <;> simp only [Comp.applyTransf, Except.ok.injEq, reduceCtorEq] at ht <;> subst ht
    · exact hM
    · exact hM
    · unfold Comp.reflect
      split
      · exact hM
      · dsimp only; split <;> exact hM
    · unfold Comp.curve; split <;> exact hM
    · unfold Comp.applyModifier; split <;> exact hM
  · apply key
    cases i <;> cases j <;> exact hM

/-- C54 fails: the mesh read after a translation is still that of the untranslated patch. -/
theorem C54_violated :
    ¬ ∀ (c : Comp) (n : ℕ) (M : StlMesh) (c' : Comp), c.stl_resolution = .int n → c.mesh = (.ok M, c') →
      MeshOf c.clustering (fun _ => n) (fun _ => n) c.patches M.tris := by
  intro h
  obtain ⟨_, _, m, _, _, h1, h1'⟩ := C40_default_mesh (fun r s => ⟨r, s, 0⟩) 2 2 (by norm_num) (by norm_num) {} rfl rfl
    one_pos one_pos
  have l1 := (C37_layout _ _ _ 2 2 (by norm_num) (by norm_num) _ _ m h1').1
  obtain ⟨M, c1, hM, hm, _⟩ := (C52_mesh demoComp 2 (by norm_num) rfl rfl rfl (by simp [demoComp]) (by simp [demoComp])).1 m
    ⟨[m], by simpa [demoComp] using h1, by simp⟩
  obtain ⟨c2, hM2, hc1, hc1'⟩ := (mesh_spec demoComp (fun _ => 2) (fun _ => 2) rfl rfl (by simp [demoComp, Dict.keys])
    (by simp [demoComp]) (caseOf_int _ 2 rfl)).1 m ⟨[m], by simpa [demoComp] using h1, by simp⟩
  rw [hM] at hM2
  cases hM2
  have hne : m ≠ [] := by rintro rfl; simp at l1
  obtain ⟨st, _⟩ := C54_stale c1 (StlMesh.ofTris m) hc1 hne (.translate (.vector ⟨0, 0, 1⟩)) _ rfl none none
  have hp : c1.patches = demoComp.patches ∧ c1.clustering = demoComp.clustering ∧ c1.stl_resolution = .int 2 := by
    have := hc1'
    have a1 := congrArg Comp.patches hc1'
    have a2 := congrArg Comp.clustering hc1'
    have a3 := congrArg Comp.stl_resolution hc1'
    exact ⟨a1, a2, a3⟩
  have := h (c1.translate (.vector ⟨0, 0, 1⟩)) 2 (StlMesh.ofTris m) (c1.translate (.vector ⟨0, 0, 1⟩)).mesh.2 hp.2.2
    (by rw [← st])
  obtain ⟨parts, hparts, hflat⟩ := this
  simp only [Comp.translate, hp.1, hp.2.1, demoComp, Dict.mapVals, List.map_cons, List.map_nil] at hparts
  cases hparts with
  | cons hpart hnil =>
    cases hnil
    rename_i part
    have hz : OffsetPatchFunction (fun r s => .ok ⟨r, s, 0⟩) (Comp.offsetFn (.vector ⟨0, 0, 1⟩)) =
        fun r s => .ok ⟨r, s, 1⟩ := by
      funext r s
      simp only [OffsetPatchFunction, Comp.offsetFn, bind, Except.bind, pure, Except.pure]
      congr 1
      ext <;> simp
    rw [hz] at hpart
    have e0 : ∀ t ∈ m, t.v0.z = 0 := by
      intro t ht
      obtain ⟨i, hi, j, hj, r, r', s, s', p00, p10, p01, p11, _, _, _, _, g1, g2, g3, g4, hv, _⟩ :=
        C39_on_surface _ 2 2 (by norm_num) (by norm_num) _ _ m h1' t ht
      cases g1; cases g2; cases g3; cases g4
      rcases hv with hv | hv | hv | hv <;> simp only [Prod.mk.injEq] at hv <;> rw [hv.1]
    have e1 : ∀ t ∈ part, t.v0.z = 1 := by
      unfold surfceToStl at hpart
      obtain ⟨rL, _, hpart⟩ := bind_ok.1 hpart
      obtain ⟨sL, _, hpart⟩ := bind_ok.1 hpart
      intro t ht
      obtain ⟨i, hi, j, hj, r, r', s, s', p00, p10, p01, p11, _, _, _, _, g1, g2, g3, g4, hv, _⟩ :=
        C39_on_surface _ 2 2 (by norm_num) (by norm_num) _ _ part hpart t ht
      cases g1; cases g2; cases g3; cases g4
      rcases hv with hv | hv | hv | hv <;> simp only [Prod.mk.injEq] at hv <;> rw [hv.1]
    obtain ⟨t, ht⟩ := List.exists_mem_of_ne_nil _ hne
    have ht' : t ∈ part := by
      have : (StlMesh.ofTris m).tris = m := rfl
      rw [this] at hflat
      rw [hflat] at ht
      simpa using ht
    have := e0 t ht
    rw [e1 t ht'] at this
    norm_num at this

end HV
