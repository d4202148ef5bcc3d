import Verif.Lemmas.ScaleParts
import Verif.Model.Vehicle
import Verif.Spec.Mesh
import Verif.Lemmas.VehicleFrame

/-!
# Components and vehicles under a change of the unit of length
-/

namespace HV

namespace Spec

/-- Dictionaries with the same keys in the same order and related values. -/
def DictRel {ν μ : Type} (R : ν → μ → Prop) : Dict String ν → Dict String μ → Prop :=
  List.Forall₂ fun e e' => e'.1 = e.1 ∧ R e.2 e'.2

/-- Triangles measured in another unit. -/
def MeshScaled (k : ℝ) (m m' : TriMesh ℝ) : Prop := m' = mapVerts (fun v => v * k) m

/-- Meshes measured in another unit; normals are products of two lengths. -/
structure StlScaled (k : ℝ) (m m' : StlMesh) : Prop where
  tris : MeshScaled k m.tris m'.tris
  normals : m'.normals = m.normals.map fun v : V => v * (k * k)

/-- A curvature measured in another unit: the function returns a length, its derivative is a slope. -/
structure CurvatureScaled (k : ℝ) (c c' : Curvature) : Prop where
  direction : c'.direction = c.direction
  fn : ∀ x y, Follows (LengthScaled k) (c.fn x y) (c'.fn (x * k) (y * k))
  fn_dash : ∀ x y, Follows Eq (c.fn_dash x y) (c'.fn_dash (x * k) (y * k))

/-- A transformation measured in another unit. -/
inductive TransfScaled (k : ℝ) : Transf → Transf → Prop
  | rotate (a : ℝ) (axis : String) : TransfScaled k (.rotate a axis) (.rotate a axis)
  | vector {v v' : V} : PointScaled k v v' → TransfScaled k (.translate (.vector v)) (.translate (.vector v'))
  | callable {f f' : OffFn} : OffFnScaled k f f' → TransfScaled k (.translate (.callable f)) (.translate (.callable f'))
  | reflect (axis : Option String) : TransfScaled k (.reflect axis) (.reflect axis)
  | curve : TransfScaled k .curve .curve
  | applyModifier : TransfScaled k .applyModifier .applyModifier
  | unknown (n : String) : TransfScaled k (.unknown n) (.unknown n)

/-- Generators that make the same patches measured in another unit. -/
inductive GenScaled (k : ℝ) : GenKind → GenKind → Prop
  | into {o o' : Reso → GenOut} : (∀ r, GenOutScaled k (o r) (o' r)) → GenScaled k (.into o) (.into o')
  | replace {o o' : Reso → GenOut} : (∀ r, GenOutScaled k (o r) (o' r)) → GenScaled k (.replace o) (.replace o')
  | composite (l : List ℕ) : GenScaled k (.composite l) (.composite l)

/-- The same component measured in another unit of length. -/
structure CompScaled (k : ℝ) (c c' : Comp) : Prop where
  componenttype : c'.componenttype = c.componenttype
  gen : GenScaled k c.gen c'.gen
  patches : DictRel (SurfScaled k) c.patches c'.patches
  patch_res_r : c'.patch_res_r = c.patch_res_r
  patch_res_s : c'.patch_res_s = c.patch_res_s
  surfaces : Option.Rel (DictRel (MeshScaled k)) c.surfaces c'.surfaces
  stl_resolution : c'.stl_resolution = c.stl_resolution
  mesh_ : Option.Rel (StlScaled k) c.mesh_ c'.mesh_
  curvatures : Option.Rel (List.Forall₂ (CurvatureScaled k)) c.curvatures c'.curvatures
  clustering : c'.clustering = c.clustering
  transformations : List.Forall₂ (TransfScaled k) c.transformations c'.transformations
  modifier : Option.Rel (OffFnScaled k) c.modifier c'.modifier
  reflection_axis : c'.reflection_axis = c.reflection_axis
  append_reflection : c'.append_reflection = c.append_reflection
  ghost : c'.ghost = c.ghost
  name : c'.name = c.name
  multiprocess : c'.multiprocess = c.multiprocess

/-- Mass properties measured in another unit of length, the numbers given as densities being the same. -/
structure PropsScaled (k : ℝ) (p p' : MassProps) : Prop where
  volume : p'.volume = p.volume * k ^ 3
  mass : p'.mass = p.mass * k ^ 3
  cog : PointScaled k p.cog p'.cog
  moi : ∀ i j, p'.moi i j = p.moi i j * k ^ 5

/-- The mass properties of a component measured in another unit of length. -/
structure CompPropsScaled (k : ℝ) (p p' : CompProps) : Prop where
  props : PropsScaled k p.props p'.props
  area : p'.area = p.area * k ^ 2

/-- The results of an analysis measured in another unit of length. -/
structure AnalysisScaled (k : ℝ) (a a' : Analysis) : Prop where
  volume : a'.volume = a.volume * k ^ 3
  mass : a'.mass = a.mass * k ^ 3
  area : a'.area = a.area * k ^ 2
  cog : Option.Rel (PointScaled k) a.cog a'.cog
  moi : Option.Rel (fun I I' : _root_.Fin 3 → _root_.Fin 3 → ℝ => ∀ i j, I' i j = I i j * k ^ 5) a.moi a'.moi
  components : DictRel (CompPropsScaled k) a.components a'.components

/-- A mesh library whose results have the dimensions of the quantities they stand for. -/
structure LibScaled (k : ℝ) (lib : Lib) : Prop where
  massProps : ∀ m m' ρ, StlScaled k m m' → Follows (PropsScaled k) (lib.massProps m ρ) (lib.massProps m' ρ)
  area : ∀ m m', StlScaled k m m' → lib.area m' = lib.area m * k ^ 2

/-- The same vehicle measured in another unit of length. -/
structure VehScaled (k : ℝ) (v v' : Veh) : Prop where
  components : v'.components = v.components
  name : v'.name = v.name
  angleOffset : v'.angleOffset = v.angleOffset
  properties : v'.properties = v.properties
  analysisResults : Option.Rel (AnalysisScaled k) v.analysisResults v'.analysisResults
  analysis : Option.Rel (AnalysisScaled k) v.analysis v'.analysis
  generated : v'.generated = v.generated
  named : v'.named = v.named
  transformations : List.Forall₂ (TransfScaled k) v.transformations v'.transformations
  analyseOn : v'.analyseOn = v.analyseOn

/-- The same vehicle and components measured in another unit of length. -/
structure StateScaled (k : ℝ) (st st' : VState) : Prop where
  heap : ∀ id, CompScaled k (st.heap id) (st'.heap id)
  veh : VehScaled k st.veh st'.veh

/-- No condition on the values returned. -/
def Any {α β : Type} : α → β → Prop := fun _ _ => True

/-- If the first run returns, so does the second, with related results and states. -/
def Does {α β σ τ : Type} (Q : α → β → Prop) (R : σ → τ → Prop) (r : Res α × σ) (r' : Res β × τ) : Prop :=
  ∀ a, r.1 = .ok a → ∃ b, r'.1 = .ok b ∧ Q a b ∧ R r.2 r'.2

end Spec

open Spec

section
variable {k : ℝ}

/-! ## Dictionaries -/

section
variable {ν μ : Type} {R : ν → μ → Prop} {d : Dict String ν} {d' : Dict String μ}

theorem dictRel_set (h : DictRel R d d') (n : String) {v : ν} {w : μ} (hv : R v w) : DictRel R (d.set n v) (d'.set n w) := by
  induction h with
  | nil => exact .cons ⟨rfl, hv⟩ .nil
  | @cons e e' l l' he hl ih =>
    obtain ⟨a, x⟩ := e
    obtain ⟨b, y⟩ := e'
    obtain ⟨h1, h2⟩ := he
    simp only at h1
    subst h1
    simp only [Dict.set]
    split
    · exact .cons ⟨rfl, hv⟩ hl
    · exact .cons ⟨rfl, h2⟩ ih

theorem dictRel_setAll {l : Dict String ν} {l' : Dict String μ} (hl : DictRel R l l') :
    ∀ {d : Dict String ν} {d' : Dict String μ}, DictRel R d d' → DictRel R (d.setAll l) (d'.setAll l') := by
  induction hl with
  | nil => exact fun h => h
  | @cons e e' l l' he _ ih =>
    intro d d' h
    obtain ⟨h1, h2⟩ := he
    have := ih (dictRel_set h e.1 h2)
    rw [← h1] at this
    unfold Dict.setAll at this ⊢
    rw [List.foldl_cons, List.foldl_cons]
    convert this using 2
    rw [h1]

theorem dictRel_mapVals {ν' μ' : Type} {R' : ν' → μ' → Prop} (h : DictRel R d d') {f : String → ν → ν'} {g : String → μ → μ'}
    (hf : ∀ n v w, R v w → R' (f n v) (g n w)) : DictRel R' (d.mapVals f) (d'.mapVals g) := by
  unfold DictRel Dict.mapVals
  rw [List.forall₂_map_left_iff, List.forall₂_map_right_iff]
  exact h.imp fun e e' he => ⟨he.1, by rw [he.1]; exact hf _ _ _ he.2⟩

theorem optionRel_eq {α : Type} {a b : Option α} (h : Option.Rel Eq a b) : b = a := by
  cases h with
  | none => rfl
  | some h => rw [h]

end

/-! ## Meshes -/

theorem vertex_scaled (m : Bool) {p p' : V} (h : PointScaled k p p') :
    meshVertex MeshArith.real m p' = meshVertex MeshArith.real m p * k := by
  rw [PointScaled] at h
  subst h
  unfold meshVertex MeshArith.real
  ext <;> simp

theorem centre_scaled {a b c d a' b' c' d' : V} (ha : PointScaled k a a') (hb : PointScaled k b b') (hc : PointScaled k c c')
    (hd : PointScaled k d d') : PointScaled k (cellCentre MeshArith.real a b c d) (cellCentre MeshArith.real a' b' c' d') := by
  rw [PointScaled] at *
  subst ha hb hc hd
  unfold cellCentre MeshArith.real
  ext <;> simp <;> ring

theorem cellTris_scaled (m : Bool) {a b c d a' b' c' d' : V} (ha : PointScaled k a a') (hb : PointScaled k b b') (hc : PointScaled k c c')
    (hd : PointScaled k d d') : MeshScaled k (cellTris MeshArith.real m a b c d) (cellTris MeshArith.real m a' b' c' d') := by
  unfold MeshScaled cellTris mapVerts
  simp only [List.map_cons, List.map_nil, vertex_scaled m ha, vertex_scaled m hb, vertex_scaled m hc, vertex_scaled m hd,
    vertex_scaled m (centre_scaled ha hb hc hd)]

theorem meshScaled_flatten {l l' : List (TriMesh ℝ)} (h : List.Forall₂ (MeshScaled k) l l') : MeshScaled k l.flatten l'.flatten := by
  induction h with
  | nil => rfl
  | cons h _ ih =>
    unfold MeshScaled at *
    rw [List.flatten_cons, List.flatten_cons, h, ih]
    simp [mapVerts]

theorem surfceToStl_scaled {S T : Surf} (h : SurfScaled k S T) (ni nj : ℕ) (o : MeshOpts) :
    Follows (MeshScaled k) (surfceToStl S ni nj o) (surfceToStl T ni nj o) := by
  unfold surfceToStl
  refine follows_bind (follows_refl _) fun r r' hr => follows_bind (follows_refl _) fun s s' hs => ?_
  subst hr hs
  unfold meshFromLists
  refine follows_bind (R := List.Forall₂ (List.Forall₂ (MeshScaled k))) (follows_mapM _ fun i _ => follows_mapM _ fun j _ => ?_)
    fun rows rows' hrows => follows_pure ?_
  · unfold cellAt
    have key : ∀ i j, Follows (PointScaled k) (do S (← SweptPatch.getIdx r i) (← SweptPatch.getIdx s j))
        (do T (← SweptPatch.getIdx r i) (← SweptPatch.getIdx s j)) := fun i j =>
      follows_bind (follows_refl _) fun a a' ha => follows_bind (follows_refl _) fun b b' hb => by subst ha hb; exact h _ _
    have e : ∀ {α β : Type} (a : Res ℝ) (b : Res ℝ) (f : ℝ → ℝ → Res α) (g : α → Res β),
        (do let x ← a; let y ← b; let z ← f x y; g z) = (do let z ← (do f (← a) (← b)); g z) := by
      intro α β a b f g
      simp only [bind_assoc]
    rw [e, e (SweptPatch.getIdx r i)]
    refine follows_bind (key i j) fun p0 p0' h0 => ?_
    rw [e, e (SweptPatch.getIdx r (i + 1))]
    refine follows_bind (key _ _) fun p1 p1' h1 => ?_
    rw [e, e (SweptPatch.getIdx r i)]
    refine follows_bind (key _ _) fun p2 p2' h2 => ?_
    rw [e, e (SweptPatch.getIdx r (i + 1))]
    exact follows_bind (key _ _) fun p3 p3' h3 => follows_pure (cellTris_scaled _ h0 h1 h2 h3)
  · apply meshScaled_flatten
    rw [List.forall₂_map_left_iff, List.forall₂_map_right_iff]
    exact hrows.imp fun _ _ => meshScaled_flatten

theorem ofTris_scaled {m m' : TriMesh ℝ} (h : MeshScaled k m m') : StlScaled k (.ofTris m) (.ofTris m') := by
  refine ⟨h, ?_⟩
  unfold MeshScaled at h
  subst h
  unfold StlMesh.ofTris mapVerts
  simp only [List.map_map]
  congr 1
  funext t
  ext <;> simp [Tri.normal, Vec.cross] <;> ring

/-! ## Component methods -/

theorem with_patches_scaled {c c' : Comp} (h : CompScaled k c c') {P P' : Dict String Surf} (hP : DictRel (SurfScaled k) P P') :
    CompScaled k { c with patches := P } { c' with patches := P' } := { h with patches := hP }

theorem with_surfaces_scaled {c c' : Comp} (h : CompScaled k c c') {P P' : Dict String (TriMesh ℝ)} (hP : DictRel (MeshScaled k) P P') :
    CompScaled k { c with surfaces := some P } { c' with surfaces := some P' } := { h with surfaces := .some hP }

theorem curve_none {c : Comp} (h : c.curvatures = none) : c.curve = c := by unfold Comp.curve; rw [h]

theorem curve_some {c : Comp} {l : List Curvature} (h : c.curvatures = some l) : 
    c.curve = { c with
      patches := l.foldl (fun d k => d.mapVals fun _ p => CurvedPatch p (some k.direction) (some k.fn) (some k.fn_dash)) c.patches } := by
  unfold Comp.curve; rw [h]

theorem curve_scaled {c c' : Comp} (h : CompScaled k c c') : CompScaled k c.curve c'.curve := by
  have hc := h.curvatures
  rcases e : c.curvatures with _ | l <;> rcases e' : c'.curvatures with _ | l' <;> rw [e, e'] at hc
  · rw [curve_none e, curve_none e']
    exact h
  · cases hc
  · cases hc
  · cases hc with
    | some hl =>
      rw [curve_some e, curve_some e']
      refine with_patches_scaled h ?_
      have hp := h.patches
      clear e e'
      generalize c.patches = P at hp
      generalize c'.patches = P' at hp
      induction hl generalizing P P' with
      | nil => exact hp
      | @cons a b l l' hab _ ih =>
        exact ih _ _ (dictRel_mapVals hp fun n v w hvw => by rw [hab.direction]; exact curved_scaled hvw _ hab.fn hab.fn_dash)

theorem rotate_scaled {c c' : Comp} (h : CompScaled k c c') (a : ℝ) (axis : String) : CompScaled k (c.rotate a axis) (c'.rotate a axis) :=
  { h with patches := dictRel_mapVals h.patches fun _ _ _ hvw => rotated_scaled hvw _ _ scaled_zero }

theorem translate_scaled {c c' : Comp} (h : CompScaled k c c') {o o' : Offset} (ho : OffFnScaled k (Comp.offsetFn o) (Comp.offsetFn o')) :
    CompScaled k (c.translate o) (c'.translate o') :=
  { h with patches := dictRel_mapVals h.patches fun _ _ _ hvw => offsetPatch_scaled hvw ho }

theorem modifier_none {c : Comp} (h : c.modifier = none) : c.applyModifier = c := by unfold Comp.applyModifier; rw [h]

theorem modifier_some {c : Comp} {f : OffFn} (h : c.modifier = some f) :
    c.applyModifier = { c with patches := c.patches.mapVals fun _ p => OffsetPatchFunction p f } := by
  unfold Comp.applyModifier; rw [h]

theorem applyModifier_scaled {c c' : Comp} (h : CompScaled k c c') : CompScaled k c.applyModifier c'.applyModifier := by
  have hm := h.modifier
  rcases e : c.modifier with _ | f <;> rcases e' : c'.modifier with _ | f' <;> rw [e, e'] at hm
  · rw [modifier_none e, modifier_none e']
    exact h
  · cases hm
  · cases hm
  · cases hm with
    | some hf =>
      rw [modifier_some e, modifier_some e']
      exact with_patches_scaled h (dictRel_mapVals h.patches fun _ _ _ hvw => offsetPatch_scaled hvw hf)

theorem reflect_none' {c : Comp} {axis : Option String} (h : c.reflection_axis.or axis = none) : c.reflect axis = c := by
  unfold Comp.reflect; rw [h]

theorem reflect_some' {c : Comp} {axis : Option String} {a : String} (h : c.reflection_axis.or axis = some a) :
    c.reflect axis = { c with
      patches := if c.append_reflection then
          Dict.setAll c.patches (c.patches.foldl (fun d e => Dict.set d (e.1 ++ "_mirrored") (MirroredPatch e.2 a)) [])
        else c.patches.foldl (fun d e => Dict.set d (e.1 ++ "_mirrored") (MirroredPatch e.2 a)) [] } := by
  unfold Comp.reflect; rw [h]
  cases h : c.append_reflection <;> simp [h]

theorem reflect_scaled {c c' : Comp} (h : CompScaled k c c') (axis : Option String) : CompScaled k (c.reflect axis) (c'.reflect axis) := by
  have e := h.reflection_axis
  cases e1 : c.reflection_axis.or axis with
  | none =>
    rw [reflect_none' e1, reflect_none' (by rw [e, e1])]
    exact h
  | some a =>
    rw [reflect_some' e1, reflect_some' (c := c') (a := a) (by rw [e, e1])]
    have key : ∀ {P P' : Dict String Surf} (_ : DictRel (SurfScaled k) P P') {d d' : Dict String Surf}, DictRel (SurfScaled k) d d' →
        DictRel (SurfScaled k) (P.foldl (fun d e => d.set (e.1 ++ "_mirrored") (MirroredPatch e.2 a)) d)
          (P'.foldl (fun d e => d.set (e.1 ++ "_mirrored") (MirroredPatch e.2 a)) d') := by
      intro P P' hP
      induction hP with
      | nil => exact fun h => h
      | cons he _ ih =>
        intro d d' hd
        apply ih
        simp only
        rw [he.1]
        exact dictRel_set hd _ (mirrored_scaled he.2 a)
    have hm := key h.patches (d := []) (d' := []) .nil
    apply with_patches_scaled h
    rw [h.append_reflection]
    split
    · exact dictRel_setAll hm h.patches
    · exact hm

theorem applyTransf_scaled {c c' : Comp} (h : CompScaled k c c') {t t' : Transf} (ht : TransfScaled k t t') :
    Follows (CompScaled k) (c.applyTransf t) (c'.applyTransf t') := by
  cases ht with
  | rotate a axis => exact follows_ok (rotate_scaled h a axis)
  | vector hv => exact follows_ok (translate_scaled h fun _ _ _ => follows_ok hv)
  | callable hf => exact follows_ok (translate_scaled h hf)
  | reflect axis => exact follows_ok (reflect_scaled h axis)
  | curve => exact follows_ok (curve_scaled h)
  | applyModifier => exact follows_ok (applyModifier_scaled h)
  | unknown n => exact follows_error

theorem applyAll_scaled {ts ts' : List Transf} (ht : List.Forall₂ (TransfScaled k) ts ts') :
    ∀ {c c' : Comp}, CompScaled k c c' → Does Any (CompScaled k) (c.applyAll ts) (c'.applyAll ts') := by
  induction ht with
  | nil => exact fun h _ _ => ⟨(), rfl, trivial, h⟩
  | cons h1 _ ih =>
    intro c c' h a ha
    unfold Comp.applyAll at ha ⊢
    cases e : c.applyTransf _ with
    | error x => rw [e] at ha; cases ha
    | ok d =>
      obtain ⟨d', e', hd⟩ := applyTransf_scaled h h1 d e
      rw [e] at ha
      rw [e']
      exact ih hd a ha

theorem pipeline_scaled (angle : ℝ) {c c' : Comp} (h : CompScaled k c c') :
    Does Any (CompScaled k) (pipeline angle c) (pipeline angle c') := by
  have := reflect_scaled (rotate_scaled (curve_scaled (applyModifier_scaled h)) angle "y") none
  exact applyAll_scaled this.transformations this

theorem surfaceCases_par {c : Comp} (hmp : c.multiprocess = true) {cases_ : List (String × Surf × ℕ × ℕ)} {l : List (String × TriMesh ℝ)}
    (h : cases_.mapM (Comp.wrapper c.clustering) = .ok l) :
    c.surfaceCases cases_ = (.ok (), { c with surfaces := some (Dict.setAll [] l) }) := by
  unfold Comp.surfaceCases
  rw [if_pos hmp, h]

theorem surfaceCases_seq {c : Comp} (hmp : ¬ c.multiprocess = true) (cases_ : List (String × Surf × ℕ × ℕ)) :
    c.surfaceCases cases_ = ((Comp.surfaceLoop c.clustering [] cases_).1, { c with surfaces := some (Comp.surfaceLoop c.clustering [] cases_).2 }) := by
  unfold Comp.surfaceCases
  rw [if_neg hmp]

theorem surface_scaled {c c' : Comp} (h : CompScaled k c c') (r : Option Reso) :
    Does Any (CompScaled k) (c.surface r) (c'.surface r) := by
  intro a ha
  unfold Comp.surface at ha ⊢
  rw [← h.patches.length_eq, h.stl_resolution]
  split at ha
  · cases ha
  rename_i hl
  rw [if_neg hl, if_neg hl]
  have hcase : Follows (List.Forall₂ fun e e' : String × Surf × ℕ × ℕ => e'.1 = e.1 ∧ SurfScaled k e.2.1 e'.2.1 ∧ e'.2.2 = e.2.2)
      (c.patches.mapM (c.caseOf (r.getD c.stl_resolution))) (c'.patches.mapM (c'.caseOf (r.getD c.stl_resolution))) := by
    refine follows_mapM₂ h.patches fun e e' he => ?_
    unfold Comp.caseOf
    split
    · exact follows_ok ⟨he.1, he.2, rfl⟩
    · rw [h.patch_res_r, he.1]
      exact follows_bind (follows_refl _) fun x x' hx => follows_bind (follows_refl _) fun y y' hy => by
        subst hx hy; exact follows_pure ⟨rfl, he.2, rfl⟩
  cases e : c.patches.mapM (c.caseOf (r.getD c.stl_resolution)) with
  | error x => rw [e] at ha; cases ha
  | ok cases_ =>
    obtain ⟨cases', e', hc⟩ := hcase _ e
    rw [e] at ha
    rw [e']
    simp only at ha ⊢
    have hw : ∀ {x x' : String × Surf × ℕ × ℕ}, (x'.1 = x.1 ∧ SurfScaled k x.2.1 x'.2.1 ∧ x'.2.2 = x.2.2) →
        Follows (fun y y' => y'.1 = y.1 ∧ MeshScaled k y.2 y'.2) (Comp.wrapper c.clustering x) (Comp.wrapper c'.clustering x') := by
      intro x x' hx
      unfold Comp.wrapper
      rw [h.clustering, hx.1, hx.2.2]
      exact follows_bind (surfceToStl_scaled hx.2.1 _ _ _) fun _ _ hm => follows_pure ⟨rfl, hm⟩
    by_cases hmp : c.multiprocess = true
    · have hmp' : c'.multiprocess = true := by rw [h.multiprocess, hmp]
      cases e1 : cases_.mapM (Comp.wrapper c.clustering) with
      | error x => simp [Comp.surfaceCases, hmp, e1] at ha
      | ok l =>
        obtain ⟨l', e2, hl'⟩ := follows_mapM₂ hc (fun x x' hx => hw hx) l e1
        rw [surfaceCases_par hmp e1, surfaceCases_par hmp' e2]
        exact ⟨(), rfl, trivial, with_surfaces_scaled h (dictRel_setAll hl' .nil)⟩
    · have hmp' : ¬ c'.multiprocess = true := by rw [h.multiprocess]; exact hmp
      rw [surfaceCases_seq hmp] at ha ⊢
      rw [surfaceCases_seq hmp']
      have key : ∀ {l l' : List (String × Surf × ℕ × ℕ)}, List.Forall₂ (fun e e' : String × Surf × ℕ × ℕ => e'.1 = e.1 ∧
          SurfScaled k e.2.1 e'.2.1 ∧ e'.2.2 = e.2.2) l l' → ∀ {d d' : Dict String (TriMesh ℝ)}, DictRel (MeshScaled k) d d' →
          Does Any (DictRel (MeshScaled k)) (Comp.surfaceLoop c.clustering d l) (Comp.surfaceLoop c'.clustering d' l') := by
        intro l l' hll
        induction hll with
        | nil => exact fun hd _ _ => ⟨(), rfl, trivial, hd⟩
        | @cons x x' l l' hx _ ih =>
          intro d d' hd a ha
          unfold Comp.surfaceLoop at ha ⊢
          cases ex : Comp.wrapper c.clustering x with
          | error y => rw [ex] at ha; cases ha
          | ok y =>
            obtain ⟨y', ey, hy⟩ := hw hx y ex
            rw [ex] at ha
            rw [ey]
            show ∃ b, (Comp.surfaceLoop c'.clustering (d'.set y'.1 y'.2) l').1 = _ ∧ Any a b ∧ DictRel _ (Comp.surfaceLoop c.clustering (d.set y.1 y.2) l).2
              (Comp.surfaceLoop c'.clustering (d'.set y'.1 y'.2) l').2
            rw [hy.1]
            exact ih (dictRel_set hd _ hy.2) a ha
      obtain ⟨b, hb, -, hs⟩ := key hc (d := []) (d' := []) .nil a ha
      exact ⟨b, hb, trivial, with_surfaces_scaled h hs⟩

theorem combine_cons {c : Comp} {x : String × TriMesh ℝ} {d : Dict String (TriMesh ℝ)} (h : c.surfaces = some (x :: d)) :
    c.combine = (.ok (StlMesh.ofTris ((x :: d).map Prod.snd).flatten), { c with mesh_ := some (StlMesh.ofTris ((x :: d).map Prod.snd).flatten) }) := by
  unfold Comp.combine
  rw [h]

theorem combine_scaled {c c' : Comp} (h : CompScaled k c c') : Does (StlScaled k) (CompScaled k) c.combine c'.combine := by
  intro a ha
  have hs := h.surfaces
  rcases e : c.surfaces with _ | _ | ⟨x, d⟩ <;> rcases e' : c'.surfaces with _ | _ | ⟨x', d'⟩ <;> rw [e, e'] at hs <;>
    first | (exfalso; rcases hs with ⟨⟨⟩⟩ | _; done) | (unfold Comp.combine at ha; rw [e] at ha; exfalso; cases ha; done) | skip
  rw [combine_cons e] at ha ⊢
  rw [combine_cons e']
  cases ha
  cases hs with
  | some hd =>
    have hm := ofTris_scaled (meshScaled_flatten (l := (x :: d).map Prod.snd) (l' := (x' :: d').map Prod.snd)
      (by rw [List.forall₂_map_left_iff, List.forall₂_map_right_iff]; exact hd.imp fun _ _ h => h.2))
    exact ⟨_, rfl, hm, { h with mesh_ := .some hm }⟩

theorem buildMesh_scaled {c c' : Comp} (h : CompScaled k c c') : Does (StlScaled k) (CompScaled k) c.buildMesh c'.buildMesh := by
  intro a ha
  unfold Comp.buildMesh at ha ⊢
  rcases hs : c.surfaces with _ | d <;> rcases hs' : c'.surfaces with _ | d'
  · rw [hs] at ha
    simp only at ha ⊢
    rcases e : c.surface with ⟨_ | u, d⟩
    · rw [e] at ha; cases ha
    · rw [e] at ha
      obtain ⟨b, hb, -, hd⟩ := surface_scaled h none u (by rw [e])
      rw [e] at hd
      rcases e' : c'.surface with ⟨_ | u', d'⟩
      · rw [e'] at hb; cases hb
      · rw [e'] at hd
        exact combine_scaled hd a ha
  · have := h.surfaces; rw [hs, hs'] at this; cases this
  · have := h.surfaces; rw [hs, hs'] at this; cases this
  · rw [hs] at ha
    exact combine_scaled h a ha

theorem mesh_scaled {c c' : Comp} (h : CompScaled k c c') : Does (StlScaled k) (CompScaled k) c.mesh c'.mesh := by
  unfold Comp.mesh
  have hm := h.mesh_
  rcases e : c.mesh_ with _ | m <;> rcases e' : c'.mesh_ with _ | m' <;> rw [e, e'] at hm
  · exact buildMesh_scaled h
  · cases hm
  · cases hm
  · cases hm with
    | some hm =>
      have hl : m'.tris.length = m.tris.length := by
        rw [show m'.tris = _ from hm.tris]; simp [mapVerts]
      simp only [hl]
      split
      · intro a ha
        cases ha
        exact ⟨_, rfl, hm, h⟩
      · exact buildMesh_scaled h

theorem toStl_scaled {c c' : Comp} (h : CompScaled k c c') (f : Option String) :
    Does (Option.Rel fun x y => y.1 = x.1 ∧ StlScaled k x.2 y.2) (CompScaled k) (c.toStl f) (c'.toStl f) := by
  unfold Comp.toStl
  rw [h.ghost]
  split
  · intro a ha
    cases ha
    exact ⟨none, rfl, .none, h⟩
  · have hm := mesh_scaled h
    intro a ha
    rcases e : c.mesh with ⟨_ | m, d⟩ <;> rw [e] at ha hm
    · cases ha
    · cases ha
      obtain ⟨m', e', hm, hd⟩ := hm m rfl
      rcases e2 : c'.mesh with ⟨_ | n, d'⟩ <;> rw [e2] at e' hd
      · cases e'
      · cases e'
        refine ⟨_, rfl, ?_, hd⟩
        cases f with
        | none => exact .none
        | some f => exact .some ⟨rfl, hm⟩

/-! ## The heap -/

theorem upd_scaled {h h' : Heap} (hh : ∀ id, CompScaled k (h id) (h' id)) (id : ℕ) {c c' : Comp} (hc : CompScaled k c c') (j : ℕ) :
    CompScaled k (h.upd id c j) (h'.upd id c' j) := by
  unfold Heap.upd
  split
  · exact hc
  · exact hh j

theorem genLeaf_scaled {h h' : Heap} (hh : ∀ id, CompScaled k (h id) (h' id)) (id : ℕ) :
    Does Any (fun g g' : Heap => ∀ id, CompScaled k (g id) (g' id)) (Composite.genLeaf h id) (Composite.genLeaf h' id) := by
  have hc := hh id
  intro a ha
  unfold Composite.genLeaf at ha ⊢
  rw [hc.stl_resolution]
  have hg := hc.gen
  rcases e : (h id).gen with o | o | l <;> rcases e' : (h' id).gen with o' | o' | l' <;> rw [e, e'] at hg <;> try (exfalso; cases hg; done)
  · cases hg with
    | into hg =>
      rw [e] at ha
      simp only [Comp.genInto] at ha ⊢
      cases he : (o (h id).stl_resolution).err with
      | some x => rw [he] at ha; cases ha
      | none =>
        obtain ⟨h1, h2, h3, h4⟩ := hg _ he
        rw [h1, h3, h4]
        refine ⟨(), rfl, trivial, upd_scaled hh id ?_⟩
        exact { hc with
          patches := dictRel_setAll h2 hc.patches
          patch_res_r := by simp only; rw [hc.patch_res_r]
          patch_res_s := by simp only; rw [hc.patch_res_s] }
  · cases hg with
    | replace hg =>
      rw [e] at ha
      simp only [Comp.genReplace] at ha ⊢
      cases he : (o (h id).stl_resolution).err with
      | some x => rw [he] at ha; cases ha
      | none =>
        obtain ⟨h1, h2, h3, h4⟩ := hg _ he
        rw [h1]
        simp only
        refine ⟨(), trivial, trivial, upd_scaled hh id ?_⟩
        exact { hc with patches := dictRel_setAll h2 .nil }
  · rw [e] at ha
    cases ha

theorem genChildren_scaled (l : List ℕ) : ∀ {h h' : Heap}, (∀ id, CompScaled k (h id) (h' id)) →
    Does Any (fun g g' : Heap => ∀ id, CompScaled k (g id) (g' id)) (Composite.genChildren h l) (Composite.genChildren h' l) := by
  induction l with
  | nil => exact fun hh _ _ => ⟨(), rfl, trivial, hh⟩
  | cons i l ih =>
    intro h h' hh a ha
    have hl := genLeaf_scaled hh i
    unfold Composite.genChildren at ha ⊢
    rcases e : Composite.genLeaf h i with ⟨_ | u, g⟩ <;> rw [e] at ha hl
    · cases ha
    · obtain ⟨b, hb, -, hg⟩ := hl u rfl
      rcases e' : Composite.genLeaf h' i with ⟨_ | u', g'⟩ <;> rw [e'] at hb hg
      · cases hb
      · exact ih hg a ha

theorem merged_scaled {h h' : Heap} (hh : ∀ id, CompScaled k (h id) (h' id)) (l : List ℕ) : ∀ ix,
    DictRel (SurfScaled k) (Composite.mergedItems h ix l) (Composite.mergedItems h' ix l) := by
  induction l with
  | nil => exact fun _ => .nil
  | cons i l ih =>
    intro ix
    refine List.rel_append ?_ (ih _)
    rw [List.forall₂_map_left_iff, List.forall₂_map_right_iff]
    exact (hh i).patches.imp fun e e' he => ⟨by rw [he.1], he.2⟩

theorem generatePatches_scaled {h h' : Heap} (hh : ∀ id, CompScaled k (h id) (h' id)) (id : ℕ) :
    Does Any (fun g g' : Heap => ∀ id, CompScaled k (g id) (g' id)) (generatePatches h id) (generatePatches h' id) := by
  have hg := (hh id).gen
  unfold generatePatches
  rcases e : (h id).gen with o | o | l <;> rcases e' : (h' id).gen with o' | o' | l' <;> rw [e, e'] at hg <;> try (exfalso; cases hg; done)
  · exact genLeaf_scaled hh id
  · exact genLeaf_scaled hh id
  · cases hg
    intro a ha
    have hc := genChildren_scaled l hh
    simp only [Composite.generatePatches] at ha ⊢
    rcases e1 : Composite.genChildren h l with ⟨_ | u, g⟩ <;> rw [e1] at ha hc
    · cases ha
    · obtain ⟨b, hb, -, hg⟩ := hc u rfl
      rcases e2 : Composite.genChildren h' l with ⟨_ | u', g'⟩ <;> rw [e2] at hb hg
      · cases hb
      · refine ⟨(), rfl, trivial, upd_scaled hg id ?_⟩
        exact { hg id with patches := dictRel_setAll (merged_scaled hg l 0) .nil }

/-! ## Vehicles -/

theorem genOne_scaled (angle : ℝ) {h h' : Heap} (hh : ∀ id, CompScaled k (h id) (h' id)) (id : ℕ) :
    Does Any (fun g g' : Heap => ∀ id, CompScaled k (g id) (g' id)) (Veh.genOne angle h id) (Veh.genOne angle h' id) := by
  intro a ha
  have hc := generatePatches_scaled hh id
  rw [genOne_eq] at ha ⊢
  rw [genOne_eq]
  rcases e1 : generatePatches h id with ⟨_ | u, g⟩ <;> rw [e1] at ha hc
  · cases ha
  · obtain ⟨b, hb, -, hg⟩ := hc u rfl
    rcases e2 : generatePatches h' id with ⟨_ | u', g'⟩ <;> rw [e2] at hb hg
    · cases hb
    · obtain ⟨b, h1, -, h2⟩ := pipeline_scaled angle (hg id) a ha
      exact ⟨b, h1, trivial, upd_scaled hg id h2⟩

theorem genAll_scaled (angle : ℝ) (l : List ℕ) : ∀ {h h' : Heap}, (∀ id, CompScaled k (h id) (h' id)) →
    Does Any (fun g g' : Heap => ∀ id, CompScaled k (g id) (g' id)) (Veh.genAll angle h l) (Veh.genAll angle h' l) := by
  induction l with
  | nil => exact fun hh _ _ => ⟨(), rfl, trivial, hh⟩
  | cons i l ih =>
    intro h h' hh a ha
    have hl := genOne_scaled angle hh i
    unfold Veh.genAll at ha ⊢
    rcases e : Veh.genOne angle h i with ⟨_ | u, g⟩ <;> rw [e] at ha hl
    · cases ha
    · obtain ⟨b, hb, -, hg⟩ := hl u rfl
      rcases e' : Veh.genOne angle h' i with ⟨_ | u', g'⟩ <;> rw [e'] at hb hg
      · cases hb
      · exact ih hg a ha

theorem transformAll_scaled {ts ts' : List Transf} (ht : List.Forall₂ (TransfScaled k) ts ts') (l : List ℕ) :
    ∀ {h h' : Heap}, (∀ id, CompScaled k (h id) (h' id)) →
    Does Any (fun g g' : Heap => ∀ id, CompScaled k (g id) (g' id)) (Veh.transformAll h ts l) (Veh.transformAll h' ts' l) := by
  induction l with
  | nil => exact fun hh _ _ => ⟨(), rfl, trivial, hh⟩
  | cons i l ih =>
    intro h h' hh a ha
    have hl := applyAll_scaled ht (hh i)
    unfold Veh.transformAll Veh.transformOne at ha ⊢
    rcases e : (h i).applyAll ts with ⟨_ | u, g⟩ <;> rw [e] at ha hl
    · cases ha
    · obtain ⟨b, hb, -, hg⟩ := hl u rfl
      rcases e' : (h' i).applyAll ts' with ⟨_ | u', g'⟩ <;> rw [e'] at hb hg
      · cases hb
      · have hg' : CompScaled k { g with surfaces := none, mesh_ := none } { g' with surfaces := none, mesh_ := none } :=
          { hg with surfaces := .none, mesh_ := .none }
        exact ih (upd_scaled hh i hg') a ha

theorem vtransform_scaled {st st' : VState} (h : StateScaled k st st') {t t' : Veh.TransfArg} (ht : List.Forall₂ (TransfScaled k) t.toList t'.toList) :
    Does Any (StateScaled k) (Veh.transform st t) (Veh.transform st' t') := by
  unfold Veh.transform
  rw [h.veh.generated, h.veh.components]
  split
  · intro a ha
    obtain ⟨b, h1, -, h2⟩ := transformAll_scaled ht st.veh.components h.heap a ha
    exact ⟨b, h1, trivial, h2, h.veh⟩
  · intro a ha
    cases ha

theorem genTransform_scaled {st st' : VState} (h : StateScaled k st st') : Does Any (StateScaled k) (Veh.genTransform st) (Veh.genTransform st') := by
  unfold Veh.genTransform
  have : st'.veh.transformations = [] ↔ st.veh.transformations = [] := by
    rw [← List.length_eq_zero_iff, ← List.length_eq_zero_iff, h.veh.transformations.length_eq]
  simp only [this]
  split
  · exact fun a _ => ⟨(), rfl, trivial, h⟩
  · exact vtransform_scaled h h.veh.transformations

/-- What an analysis method does, measured in another unit. -/
def AnalyserScaled (k : ℝ) (an : Veh.Analyser) : Prop := ∀ st st' dens, StateScaled k st st' →
  Does (AnalysisScaled k) (StateScaled k) (an st dens) (an st' dens)

theorem generateWith_scaled {an : Veh.Analyser} (han : AnalyserScaled k an) {st st' : VState} (h : StateScaled k st st') :
    Does Any (StateScaled k) (Veh.generateWith an st) (Veh.generateWith an st') := by
  intro a ha
  have hc := genAll_scaled st.veh.angleOffset st.veh.components h.heap
  unfold Veh.generateWith at ha ⊢
  rw [h.veh.angleOffset, h.veh.components]
  rcases e1 : Veh.genAll st.veh.angleOffset st.heap st.veh.components with ⟨_ | u, g⟩ <;> rw [e1] at ha hc
  · cases ha
  obtain ⟨b, hb, -, hg⟩ := hc u rfl
  rcases e2 : Veh.genAll st.veh.angleOffset st'.heap st.veh.components with ⟨_ | u', g'⟩ <;> rw [e2] at hb hg
  · cases hb
  have hs : StateScaled k ⟨g, { st.veh with generated := true }⟩ ⟨g', { st'.veh with generated := true }⟩ :=
    ⟨hg, { h.veh with generated := rfl }⟩
  have ht := genTransform_scaled hs
  simp only at ha ⊢
  rcases e3 : Veh.genTransform ⟨g, { st.veh with generated := true }⟩ with ⟨_ | u2, s⟩ <;> rw [e3] at ha ht
  · cases ha
  obtain ⟨b2, hb2, -, hs2⟩ := ht u2 rfl
  rcases e4 : Veh.genTransform ⟨g', { st'.veh with generated := true }⟩ with ⟨_ | u3, s'⟩ <;> rw [e4] at hb2 hs2
  · cases hb2
  simp only at ha ⊢ hs2
  unfold Veh.genAnalyse at ha ⊢
  rw [hs2.veh.analyseOn]
  rcases e5 : s.veh.analyseOn with _ | _ | ⟨x, d⟩ <;> rw [e5] at ha <;> simp only at ha ⊢
  · exact ⟨(), trivial, trivial, hs2⟩
  · exact ⟨(), trivial, trivial, hs2⟩
  · have hx := han s s' (x :: d) hs2
    rcases e6 : an s (x :: d) with ⟨_ | r, w⟩ <;> rw [e6] at ha hx
    · cases ha
    obtain ⟨b3, hb3, hr, hw⟩ := hx r rfl
    rcases e7 : an s' (x :: d) with ⟨_ | r', w'⟩ <;> rw [e7] at hb3 hw
    · cases hb3
    cases hb3
    exact ⟨(), rfl, trivial, hw.heap, { hw.veh with analysisResults := .some hr }⟩

theorem assessOne_scaled {lib : Lib} (hlib : LibScaled k lib) (dens : Dict String ℝ) {h h' : Heap} (hh : ∀ id, CompScaled k (h id) (h' id))
    (e : String × ℕ) : Does (CompPropsScaled k) (fun g g' : Heap => ∀ id, CompScaled k (g id) (g' id))
      (Veh.assessOne lib dens h e) (Veh.assessOne lib dens h' e) := by
  intro a ha
  have hm := mesh_scaled (hh e.2)
  unfold Veh.assessOne at ha ⊢
  rcases e1 : (h e.2).mesh with ⟨_ | m, c⟩ <;> rw [e1] at ha hm
  · cases ha
  obtain ⟨b, hb, hmm, hc⟩ := hm m rfl
  rcases e2 : (h' e.2).mesh with ⟨_ | m', c'⟩ <;> rw [e2] at hb hc
  · cases hb
  cases hb
  simp only at ha ⊢ hc
  rcases e3 : dens.get e.1 with _ | ρ <;> rw [e3] at ha
  · cases ha
  simp only at ha ⊢
  have hp := hlib.massProps m b ρ hmm
  rcases e4 : lib.massProps m ρ with _ | p <;> rw [e4] at ha hp
  · cases ha
  obtain ⟨p', e5, hpp⟩ := hp p rfl
  rw [e5]
  simp only at ha ⊢
  have hm2 := mesh_scaled hc
  rcases e6 : c.mesh with ⟨_ | n, d⟩ <;> rw [e6] at ha hm2
  · cases ha
  obtain ⟨b, hb, hnn, hd⟩ := hm2 n rfl
  rcases e7 : c'.mesh with ⟨_ | n', d'⟩ <;> rw [e7] at hb hd
  · cases hb
  cases hb
  cases ha
  exact ⟨_, rfl, ⟨hpp, hlib.area n _ hnn⟩, upd_scaled hh e.2 hd⟩

theorem assessAll_scaled {lib : Lib} (hlib : LibScaled k lib) (dens : Dict String ℝ) (l : List (String × ℕ)) :
    ∀ {h h' : Heap}, (∀ id, CompScaled k (h id) (h' id)) → Does (DictRel (CompPropsScaled k))
      (fun g g' : Heap => ∀ id, CompScaled k (g id) (g' id)) (Veh.assessAll lib dens h l) (Veh.assessAll lib dens h' l) := by
  induction l with
  | nil =>
    intro h h' hh a ha
    cases ha
    exact ⟨[], rfl, .nil, hh⟩
  | cons i l ih =>
    intro h h' hh a ha
    have hl := assessOne_scaled hlib dens hh i
    unfold Veh.assessAll at ha ⊢
    rcases e : Veh.assessOne lib dens h i with ⟨_ | u, g⟩ <;> rw [e] at ha hl
    · cases ha
    obtain ⟨b, hb, hu, hg⟩ := hl u rfl
    rcases e' : Veh.assessOne lib dens h' i with ⟨_ | u', g'⟩ <;> rw [e'] at hb hg
    · cases hb
    cases hb
    have hi := ih hg
    simp only at ha ⊢
    rcases e2 : Veh.assessAll lib dens g l with ⟨_ | v, w⟩ <;> rw [e2] at ha hi
    · cases ha
    obtain ⟨b, hb, hv, hw⟩ := hi v rfl
    rcases e3 : Veh.assessAll lib dens g' l with ⟨_ | v', w'⟩ <;> rw [e3] at hb hw
    · cases hb
    cases hb
    cases ha
    exact ⟨_, rfl, .cons ⟨rfl, hu⟩ hv, hw⟩

theorem foldl_scaled {l l' : Dict String CompProps} (h : DictRel (CompPropsScaled k) l l') {f : CompProps → ℝ} {c : ℝ}
    (hf : ∀ p p', CompPropsScaled k p p' → f p' = f p * c) :
    ∀ {a a' : ℝ}, a' = a * c → l'.foldl (fun a e => a + f e.2) a' = l.foldl (fun a e => a + f e.2) a * c := by
  induction h with
  | nil => exact fun h => h
  | cons he _ ih =>
    intro a a' ha
    exact ih (by simp only; rw [ha, hf _ _ he.2]; ring)

theorem summarise_scaled (hk : 0 < k) {l l' : Dict String CompProps} (h : DictRel (CompPropsScaled k) l l') :
    Follows (AnalysisScaled k) (Veh.summarise l) (Veh.summarise l') := by
  have hmass : l'.foldl (fun a e => a + e.2.props.mass) 0 = l.foldl (fun a e => a + e.2.props.mass) 0 * k ^ 3 :=
    foldl_scaled h (f := fun p => p.props.mass) (fun _ _ h => h.props.mass) (by simp)
  have hvol : l'.foldl (fun a e => a + e.2.props.volume) 0 = l.foldl (fun a e => a + e.2.props.volume) 0 * k ^ 3 :=
    foldl_scaled h (f := fun p => p.props.volume) (fun _ _ h => h.props.volume) (by simp)
  have harea : l'.foldl (fun a e => a + e.2.area) 0 = l.foldl (fun a e => a + e.2.area) 0 * k ^ 2 :=
    foldl_scaled h (f := fun p => p.area) (fun _ _ h => h.area) (by simp)
  have hcog : ∀ {l l' : Dict String CompProps}, DictRel (CompPropsScaled k) l l' → ∀ {a a' : V}, a' = a * k ^ 4 →
      l'.foldl (fun a e => a + e.2.props.cog * e.2.props.mass) a' = l.foldl (fun a e => a + e.2.props.cog * e.2.props.mass) a * k ^ 4 := by
    intro l l' hl
    induction hl with
    | nil => exact fun h => h
    | cons he _ ih =>
      intro a a' ha
      refine ih ?_
      simp only
      rw [ha, he.2.props.mass, show _ = _ from he.2.props.cog]
      ext <;> simp <;> ring
  have hmoi : ∀ {l l' : Dict String CompProps}, DictRel (CompPropsScaled k) l l' → ∀ {c c' : V}, PointScaled k c c' →
      ∀ {a a' : _root_.Fin 3 → _root_.Fin 3 → ℝ}, (∀ i j, a' i j = a i j * k ^ 5) → ∀ i j,
      l'.foldl (fun a e => fun i j => a i j + Veh.adjusted e.2.props c' i j) a' i j =
        l.foldl (fun a e => fun i j => a i j + Veh.adjusted e.2.props c i j) a i j * k ^ 5 := by
    intro l l' hl c c' hc
    induction hl with
    | nil => exact fun h => h
    | cons he _ ih =>
      intro a a' ha
      refine ih fun i j => ?_
      simp only
      rw [ha]
      unfold Veh.adjusted
      rw [he.2.props.moi, he.2.props.mass, show _ = _ from he.2.props.cog, show c' = _ from hc]
      fin_cases j <;> simp <;> ring
  unfold Veh.summarise
  refine follows_bind (R := Option.Rel (PointScaled k)) ?_ fun g g' hg => follows_pure ?_
  · unfold Veh.compositeCog
    rw [hmass]
    cases h with
    | nil => exact follows_error
    | @cons e e' l l' he hl =>
      have := hcog (.cons he hl) (a := ⟨0, 0, 0⟩) (a' := ⟨0, 0, 0⟩) (by ext <;> simp)
      simp only [mul_eq_zero, pow_eq_zero_iff (show 3 ≠ 0 by norm_num), hk.ne', or_false]
      split
      · exact follows_ok .none
      · refine follows_ok (.some ?_)
        rw [this, PointScaled]
        have hk0 := hk.ne'
        rename_i h0
        ext <;> simp <;> field_simp
  · refine ⟨hvol, hmass, harea, hg, ?_, h⟩
    cases hg with
    | none => exact .none
    | some hg => exact .some (hmoi h hg (by simp))

theorem analyseGenerated_scaled (hk : 0 < k) {lib : Lib} (hlib : LibScaled k lib) : AnalyserScaled k (Veh.analyseGenerated lib) := by
  intro st st' dens h a ha
  have hl := assessAll_scaled hlib dens st.veh.named h.heap
  unfold Veh.analyseGenerated at ha ⊢
  rw [h.veh.named]
  rcases e : Veh.assessAll lib dens st.heap st.veh.named with ⟨_ | u, g⟩ <;> rw [e] at ha hl
  · cases ha
  obtain ⟨b, hb, hu, hg⟩ := hl u rfl
  rcases e' : Veh.assessAll lib dens st'.heap st.veh.named with ⟨_ | u', g'⟩ <;> rw [e'] at hb hg
  · cases hb
  cases hb
  simp only at ha ⊢ hg
  have hs := summarise_scaled hk hu
  rcases e2 : Veh.summarise u with _ | r <;> rw [e2] at ha hs
  · cases ha
  obtain ⟨r', e3, hr⟩ := hs r rfl
  rw [e3]
  cases ha
  exact ⟨_, rfl, hr, hg, { h.veh with analysis := .some hr }⟩

theorem analyse_scaled (hk : 0 < k) {lib : Lib} (hlib : LibScaled k lib) (depth : ℕ) : AnalyserScaled k (Veh.analyse lib depth) := by
  induction depth with
  | zero =>
    intro st st' dens h a ha
    cases ha
  | succ n ih =>
    intro st st' dens h
    unfold Veh.analyse Veh.analyseWith
    rw [h.veh.generated]
    split
    · exact analyseGenerated_scaled hk hlib st st' dens h
    · intro a ha
      have hg := generateWith_scaled ih h
      rcases e : Veh.generateWith (Veh.analyse lib n) st with ⟨_ | u, g⟩ <;> rw [e] at ha hg
      · cases ha
      obtain ⟨b, hb, -, hs⟩ := hg u rfl
      rcases e' : Veh.generateWith (Veh.analyse lib n) st' with ⟨_ | u', g'⟩ <;> rw [e'] at hb hs
      · cases hb
      exact analyseGenerated_scaled hk hlib g g' dens hs a ha

theorem generate_scaled (hk : 0 < k) {lib : Lib} (hlib : LibScaled k lib) (depth : ℕ) {st st' : VState} (h : StateScaled k st st') :
    Does Any (StateScaled k) (Veh.generate lib depth st) (Veh.generate lib depth st') :=
  generateWith_scaled (analyse_scaled hk hlib depth) h

end
end HV
