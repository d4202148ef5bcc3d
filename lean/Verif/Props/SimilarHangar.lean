import Verif.Props.Similar
import Verif.Props.Finner
import Verif.Props.D21
import Verif.Props.RevolvedComposite

/-!
# C127: the vehicles of the hangar at other sizes
-/

namespace HV

namespace Spec

/-- The optional arguments of `add_component` measured in another unit. -/
structure OptsScaled (k : ℝ) (o o' : AddOpts) : Prop where
  name : o'.name = o.name
  reflection_axis : o'.reflection_axis = o.reflection_axis
  append_reflection : o'.append_reflection = o.append_reflection
  curvatures : Option.Rel (List.Forall₂ (CurvatureScaled k)) o.curvatures o'.curvatures
  clustering : o'.clustering = o.clustering
  transformations : Option.Rel (List.Forall₂ (TransfScaled k)) o.transformations o'.transformations
  modifier : Option.Rel (OffFnScaled k) o.modifier o'.modifier
  ghost : o'.ghost = o.ghost

/-- The same vehicle measured in another unit, including the counters used when components are added. -/
structure AddScaled (k : ℝ) (st st' : VState) : Prop where
  state : StateScaled k st st'
  counts : st'.veh.counts = st.veh.counts
  verbosity : st'.veh.verbosity = st.veh.verbosity

end Spec

open Spec

section
variable {k : ℝ}

/-! ## Adding components -/

theorem optsScaled_plain (o : AddOpts) (h1 : o.curvatures = none) (h2 : o.transformations = none) (h3 : o.modifier = none) : OptsScaled k o o := by
  obtain ⟨n, r, a, c, cl, t, m, g⟩ := o
  simp only at h1 h2 h3
  subst h1 h2 h3
  exact ⟨rfl, rfl, rfl, .none, rfl, .none, .none, rfl⟩

theorem Spec.CompScaled.withCurvatures {c c' : Comp} (h : CompScaled k c c') {l l' : List Curvature} (hl : List.Forall₂ (CurvatureScaled k) l l') :
    CompScaled k { c with curvatures := some l } { c' with curvatures := some l' } :=
  ⟨h.componenttype, h.gen, h.patches, h.patch_res_r, h.patch_res_s, h.surfaces, h.stl_resolution, h.mesh_, .some hl, h.clustering,
    h.transformations, h.modifier, h.reflection_axis, h.append_reflection, h.ghost, h.name, h.multiprocess⟩

theorem Spec.CompScaled.withTransformations {c c' : Comp} (h : CompScaled k c c') {l l' : List Transf} (hl : List.Forall₂ (TransfScaled k) l l') :
    CompScaled k { c with transformations := l } { c' with transformations := l' } :=
  ⟨h.componenttype, h.gen, h.patches, h.patch_res_r, h.patch_res_s, h.surfaces, h.stl_resolution, h.mesh_, h.curvatures, h.clustering,
    hl, h.modifier, h.reflection_axis, h.append_reflection, h.ghost, h.name, h.multiprocess⟩

theorem Spec.CompScaled.withVerbosity {c c' : Comp} (h : CompScaled k c c') (v v' : ℤ) :
    CompScaled k { c with verbosity := v } { c' with verbosity := v' } :=
  ⟨h.componenttype, h.gen, h.patches, h.patch_res_r, h.patch_res_s, h.surfaces, h.stl_resolution, h.mesh_, h.curvatures, h.clustering,
    h.transformations, h.modifier, h.reflection_axis, h.append_reflection, h.ghost, h.name, h.multiprocess⟩

theorem Spec.CompScaled.withReflection {c c' : Comp} (h : CompScaled k c c') (a : Option String) (b : Bool) :
    CompScaled k { c with reflection_axis := a, append_reflection := b } { c' with reflection_axis := a, append_reflection := b } :=
  ⟨h.componenttype, h.gen, h.patches, h.patch_res_r, h.patch_res_s, h.surfaces, h.stl_resolution, h.mesh_, h.curvatures, h.clustering,
    h.transformations, h.modifier, rfl, rfl, h.ghost, h.name, h.multiprocess⟩

theorem Spec.CompScaled.withClustering {c c' : Comp} (h : CompScaled k c c') (v : MeshOpts) :
    CompScaled k { c with clustering := v } { c' with clustering := v } :=
  ⟨h.componenttype, h.gen, h.patches, h.patch_res_r, h.patch_res_s, h.surfaces, h.stl_resolution, h.mesh_, h.curvatures, rfl,
    h.transformations, h.modifier, h.reflection_axis, h.append_reflection, h.ghost, h.name, h.multiprocess⟩

theorem Spec.CompScaled.withModifier {c c' : Comp} (h : CompScaled k c c') {f f' : OffFn} (hf : OffFnScaled k f f') :
    CompScaled k { c with modifier := some f } { c' with modifier := some f' } :=
  ⟨h.componenttype, h.gen, h.patches, h.patch_res_r, h.patch_res_s, h.surfaces, h.stl_resolution, h.mesh_, h.curvatures, h.clustering,
    h.transformations, .some hf, h.reflection_axis, h.append_reflection, h.ghost, h.name, h.multiprocess⟩

theorem Spec.CompScaled.withGhost {c c' : Comp} (h : CompScaled k c c') (g : Bool) :
    CompScaled k { c with ghost := g } { c' with ghost := g } :=
  ⟨h.componenttype, h.gen, h.patches, h.patch_res_r, h.patch_res_s, h.surfaces, h.stl_resolution, h.mesh_, h.curvatures, h.clustering,
    h.transformations, h.modifier, h.reflection_axis, h.append_reflection, rfl, h.name, h.multiprocess⟩

theorem Spec.CompScaled.withTag {c c' : Comp} (h : CompScaled k c c') (n : Option String) :
    CompScaled k { c with name := n } { c' with name := n } :=
  ⟨h.componenttype, h.gen, h.patches, h.patch_res_r, h.patch_res_s, h.surfaces, h.stl_resolution, h.mesh_, h.curvatures, h.clustering,
    h.transformations, h.modifier, h.reflection_axis, h.append_reflection, h.ghost, rfl, h.multiprocess⟩

theorem Spec.CompScaled.withGen {c c' : Comp} (h : CompScaled k c c') {g g' : GenKind} (hg : GenScaled k g g') :
    CompScaled k { c with gen := g } { c' with gen := g' } :=
  ⟨h.componenttype, hg, h.patches, h.patch_res_r, h.patch_res_s, h.surfaces, h.stl_resolution, h.mesh_, h.curvatures, h.clustering,
    h.transformations, h.modifier, h.reflection_axis, h.append_reflection, h.ghost, h.name, h.multiprocess⟩

theorem setCommon_scaled {c c' : Comp} (h : CompScaled k c c') (v v' : ℤ) {o o' : AddOpts} (ho : OptsScaled k o o') :
    CompScaled k (c.setCommon v o) (c'.setCommon v' o') := by
  obtain ⟨n, r, a, cu, cl, t, m, g⟩ := o
  obtain ⟨n', r', a', cu', cl', t', m', g'⟩ := o'
  obtain ⟨h1, h2, h3, h4, h5, h6, h7, h8⟩ := ho
  simp only at h1 h2 h3 h4 h5 h6 h7 h8
  subst h1 h2 h3 h5 h8
  unfold Comp.setCommon
  have e1 : CompScaled k (if v = 0 then { c with verbosity := 0 } else { c with verbosity := max c.verbosity v })
      (if v' = 0 then { c' with verbosity := 0 } else { c' with verbosity := max c'.verbosity v' }) := by
    split <;> split <;> exact h.withVerbosity _ _
  generalize (if v = 0 then { c with verbosity := 0 } else { c with verbosity := max c.verbosity v }) = d at e1 ⊢
  generalize (if v' = 0 then { c' with verbosity := 0 } else { c' with verbosity := max c'.verbosity v' }) = d' at e1 ⊢
  clear h
  cases h4 <;> cases h6 <;> cases r' <;>
    exact ⟨e1.componenttype, e1.gen, e1.patches, e1.patch_res_r, e1.patch_res_s, e1.surfaces, e1.stl_resolution, e1.mesh_,
      by first | exact .some (by assumption) | exact e1.curvatures, e1.clustering, by first | assumption | exact e1.transformations, e1.modifier,
      by first | rfl | exact e1.reflection_axis, by first | rfl | exact e1.append_reflection, e1.ghost, e1.name, e1.multiprocess⟩

theorem addClustering_scaled {c c' : Comp} (h : CompScaled k c c') (i j : Option (ℝ → Res ℝ)) :
    CompScaled k (c.addClusteringOptions i j) (c'.addClusteringOptions i j) := by
  unfold Comp.addClusteringOptions
  simp only [h.clustering]
  exact h.withClustering _

theorem withOpts_scaled {c c' : Comp} (h : CompScaled k c c') (v v' : ℤ) {o o' : AddOpts} (ho : OptsScaled k o o') :
    CompScaled k (Veh.withOpts c v o) (Veh.withOpts c' v' o') := by
  have e1 := setCommon_scaled h v v' ho
  unfold Veh.withOpts
  generalize c.setCommon v o = d at e1 ⊢
  generalize c'.setCommon v' o' = d' at e1 ⊢
  obtain ⟨n, r, a, cu, cl, t, m, g⟩ := o
  obtain ⟨n', r', a', cu', cl', t', m', g'⟩ := o'
  obtain ⟨h1, h2, h3, h4, h5, h6, h7, h8⟩ := ho
  simp only at h1 h2 h3 h4 h5 h6 h7 h8
  subst h5 h8
  rcases cl' with _ | ⟨i, j⟩
  · cases h7 with
    | none => exact e1.withGhost _
    | some hm => exact (e1.withModifier hm).withGhost _
  · have e2 := addClustering_scaled e1 i j
    cases h7 with
    | none => exact e2.withGhost _
    | some hm => exact (e2.withModifier hm).withGhost _

theorem withName_scaled {c c' : Comp} (h : CompScaled k c c') {o o' : AddOpts} (ho : OptsScaled k o o') :
    CompScaled k (Veh.withName c o) (Veh.withName c' o') := by
  unfold Veh.withName
  rw [ho.name]
  cases o.name with
  | none => exact h
  | some n => exact h.withTag _

theorem addComponent_scaled {st st' : VState} (h : AddScaled k st st') (id : ℕ) {o o' : AddOpts} (ho : OptsScaled k o o') :
    Does Any (AddScaled k) (Veh.addComponent st id o) (Veh.addComponent st' id o') := by
  have hc := h.state.heap id
  have hv := h.state.veh
  unfold Veh.addComponent
  rw [hc.componenttype, h.verbosity]
  split
  · intro a _
    have hr : Veh.nameFor (st'.heap id) (st'.veh.nextCount (st.heap id).componenttype) o' =
        Veh.nameFor (st.heap id) (st.veh.nextCount (st.heap id).componenttype) o := by
      unfold Veh.nameFor Veh.nextCount
      rw [ho.name, hc.name, hc.componenttype, h.counts]
    have hn : st'.veh.nextCount (st.heap id).componenttype = st.veh.nextCount (st.heap id).componenttype := by
      unfold Veh.nextCount
      rw [h.counts]
    refine ⟨(), rfl, trivial, ⟨upd_scaled h.state.heap id (withName_scaled (withOpts_scaled hc _ _ ho) ho), ?_⟩, ?_, ?_⟩
    · unfold Veh.record
      rw [hc.componenttype]
      simp only [hr]
      exact ⟨by simp only [hv.components], hv.name, hv.angleOffset, hv.properties, hv.analysisResults, hv.analysis, hv.generated,
        by simp only [hv.named], hv.transformations, hv.analyseOn⟩
    · unfold Veh.record
      rw [hc.componenttype]
      simp only [h.counts, hn]
    · unfold Veh.record
      simp only [h.verbosity]
  · intro a ha
    cases ha

theorem addAll_scaled {l l' : List (ℕ × AddOpts)} (hl : List.Forall₂ (fun e e' => e'.1 = e.1 ∧ OptsScaled k e.2 e'.2) l l') :
    ∀ {st st' : VState}, AddScaled k st st' → Follows (AddScaled k) (addAll st l) (addAll st' l') := by
  induction hl with
  | nil => exact fun h => follows_ok h
  | @cons e e' l l' he _ ih =>
    intro st st' h
    obtain ⟨i, o⟩ := e
    obtain ⟨i', o'⟩ := e'
    obtain ⟨h1, h2⟩ := he
    simp only at h1 h2
    subst h1
    have hd := addComponent_scaled h i' h2
    unfold addAll
    rcases e1 : Veh.addComponent st i' o with ⟨_ | u, s⟩ <;> rw [e1] at hd
    · exact follows_error
    · obtain ⟨b, hb, -, hs⟩ := hd u rfl
      rcases e2 : Veh.addComponent st' i' o' with ⟨_ | u', s'⟩ <;> rw [e2] at hb hs
      · cases hb
      · exact ih hs

theorem new_vehicle_scaled {h h' : Heap} (hh : ∀ id, CompScaled k (h id) (h' id)) (n : Option String) (v : ℤ) :
    AddScaled k ⟨h, ({} : Veh).configure n v⟩ ⟨h', ({} : Veh).configure n v⟩ := by
  refine ⟨⟨hh, ?_⟩, rfl, rfl⟩
  unfold Veh.configure
  cases n with
  | none => exact ⟨rfl, rfl, rfl, rfl, .none, .none, rfl, rfl, .nil, rfl⟩
  | some n => exact ⟨rfl, rfl, rfl, rfl, .none, .none, rfl, rfl, .nil, rfl⟩

theorem childWith_scaled {c c' : Comp} (h : CompScaled k c c') (v v' : ℤ) {o o' : AddOpts} (ho : OptsScaled k o o') :
    CompScaled k (Composite.childWith c v o) (Composite.childWith c' v' o') := by
  have e1 := setCommon_scaled h v v' ho
  unfold Composite.childWith
  rw [ho.clustering]
  cases o.clustering with
  | none => exact e1
  | some a => exact e1.withClustering _

theorem appendChild_scaled {h h' : Heap} (hh : ∀ id, CompScaled k (h id) (h' id)) (self child : ℕ) (id : ℕ) :
    CompScaled k (Composite.appendChild h self child id) (Composite.appendChild h' self child id) := by
  have hs := hh self
  have hg := hs.gen
  unfold Composite.appendChild
  rcases e : (h self).gen with a | a | l <;> rcases e' : (h' self).gen with b | b | l' <;> rw [e, e'] at hg <;> cases hg
  · exact hh id
  · exact hh id
  · exact upd_scaled hh self (hs.withGen (.composite _)) id

theorem addChild_scaled {h h' : Heap} (hh : ∀ id, CompScaled k (h id) (h' id)) (self child : ℕ) {o o' : AddOpts} (ho : OptsScaled k o o') :
    Does Any (fun g g' : Heap => ∀ id, CompScaled k (g id) (g' id)) (Composite.addComponent h self child o)
      (Composite.addComponent h' self child o') := by
  unfold Composite.addComponent
  rw [(hh child).componenttype]
  split
  · intro a _
    exact ⟨(), rfl, trivial, appendChild_scaled (upd_scaled hh child (childWith_scaled (hh child) _ _ ho)) self child⟩
  · intro a ha
    cases ha

theorem addChildren_scaled (self : ℕ) (l : List ℕ) : ∀ {h h' : Heap}, (∀ id, CompScaled k (h id) (h' id)) →
    Follows (fun g g' : Heap => ∀ id, CompScaled k (g id) (g' id)) (Finner.addChildren h self l) (Finner.addChildren h' self l) := by
  induction l with
  | nil => exact fun h => follows_ok h
  | cons i l ih =>
    intro h h' hh
    have hd := addChild_scaled hh self i (optsScaled_plain ({} : AddOpts) rfl rfl rfl)
    unfold Finner.addChildren
    rcases e1 : Composite.addComponent h self i {} with ⟨_ | u, s⟩ <;> rw [e1] at hd
    · exact follows_error
    · obtain ⟨b, hb, -, hs⟩ := hd u rfl
      rcases e2 : Composite.addComponent h' self i {} with ⟨_ | u', s'⟩ <;> rw [e2] at hb hs
      · cases hb
      · exact ih hs

/-! ## The vehicles -/

theorem mk_scaled {x y z x' y' z' : ℝ} (hx : x' = x * k) (hy : y' = y * k) (hz : z' = z * k) : PointScaled k ⟨x, y, z⟩ ⟨x', y', z'⟩ :=
  scaled_mk hx hy hz

/-- The section of a wedge is made of four lines that meet exactly. -/
theorem joined_four {a b c d : V} : [Line a b, Line b c, Line c d, Line d a].length = 4 ∧ Joined [Line a b, Line b c, Line c d, Line d a] := by
  refine ⟨rfl, ?_⟩
  intro i e f he hf
  have hi : i < 4 := (List.getElem?_eq_some_iff.1 he).1
  interval_cases i <;> simp at he hf <;> subst he hf <;> simp [Line, lineAt_zero, lineAt_one]

theorem wedge_scaled (hk : 0 < k) {h h' : Heap} (hh : ∀ id, CompScaled k (h id) (h' id)) (id : ℕ) (kwargs kwargs' : Dict String ℝ)
    (hn : kwargs.keys.Nodup) (hn' : kwargs'.keys.Nodup) (w c t : ℝ) (k1 : given kwargs "wingspan" 1 w) (k2 : given kwargs "chord" 1 c)
    (k3 : given kwargs "thickness" 0.1 t) (k1' : given kwargs' "wingspan" 1 (w * k)) (k2' : given kwargs' "chord" 1 (c * k))
    (k3' : given kwargs' "thickness" 0.1 (t * k)) :
    Follows (AddScaled k) (Wedge.instanceOf h id kwargs) (Wedge.instanceOf h' id kwargs') := by
  have g := fun (s : String) (d v : ℝ) (h : given kwargs s d v) (e : Wedge.defaults.get? s = some d) =>
    given_get' (dflts := Wedge.defaults) hn h e
  have g' := fun (s : String) (d v : ℝ) (h : given kwargs' s d v) (e : Wedge.defaults.get? s = some d) =>
    given_get' (dflts := Wedge.defaults) hn' h e
  have e1 := g _ _ _ k1 rfl
  have e2 := g _ _ _ k2 rfl
  have e3 := g _ _ _ k3 rfl
  have e1' := g' _ _ _ k1' rfl
  have e2' := g' _ _ _ k2' rfl
  have e3' := g' _ _ _ k3' rfl
  unfold attrOf at e1 e2 e3 e1' e2' e3'
  unfold Wedge.instanceOf Wedge.createInstance
  simp only [e1, e2, e3, e1', e2', e3', ok_bind]
  have hS : SectionsScaled k (Wedge.sections w c t) (Wedge.sections (w * k) (c * k) (t * k)) := by
    unfold Wedge.sections SectionsScaled
    rw [List.forall₂_map_left_iff, List.forall₂_map_right_iff, List.forall₂_same]
    intro i _
    unfold Wedge.section_
    have hl : ∀ {p q p' q' : V}, PointScaled k p p' → PointScaled k q q' →
        PathScaled k (Line (p + ⟨0, 0, 0.5 * i * w⟩) (q + ⟨0, 0, 0.5 * i * w⟩)) (Line (p' + ⟨0, 0, 0.5 * i * (w * k)⟩) (q' + ⟨0, 0, 0.5 * i * (w * k)⟩)) := by
      intro p q p' q' hp hq
      have hz : PointScaled k ⟨0, 0, 0.5 * i * w⟩ ⟨0, 0, 0.5 * i * (w * k)⟩ := mk_scaled (by simp) (by simp) (by ring)
      exact line_scaled hk (scaled_add hp hz) (scaled_add hq hz)
    have p1 : PointScaled k ⟨0, 0.5 * t, 0⟩ ⟨0, 0.5 * (t * k), 0⟩ := mk_scaled (by simp) (by ring) (by simp)
    have p2 : PointScaled k ⟨-0.5 * c, 0, 0⟩ ⟨-0.5 * (c * k), 0, 0⟩ := mk_scaled (by ring) (by simp) (by simp)
    have p3 : PointScaled k ⟨0, -0.5 * t, 0⟩ ⟨0, -0.5 * (t * k), 0⟩ := mk_scaled (by simp) (by ring) (by simp)
    have p4 : PointScaled k ⟨0.5 * c, 0, 0⟩ ⟨0.5 * (c * k), 0, 0⟩ := mk_scaled (by ring) (by simp) (by simp)
    exact .cons (hl p1 p2) (.cons (hl p2 p3) (.cons (hl p3 p4) (.cons (hl p4 p1) .nil)))
  have hJ : ∀ cs ∈ Wedge.sections w c t, cs.length = 4 ∧ Joined cs := by
    intro cs hcs
    unfold Wedge.sections at hcs
    obtain ⟨i, -, rfl⟩ := List.mem_map.1 hcs
    exact joined_four
  refine follows_bind (swept_comp_scaled hk (.inr hJ) hS true (.int 10) none) fun f f' hf => ?_
  have ha := addAll_scaled (k := k) (l := [(id, {})]) (l' := [(id, {})]) (.cons ⟨rfl, optsScaled_plain _ rfl rfl rfl⟩ .nil)
    (new_vehicle_scaled (upd_scaled hh id hf) (some "Wedge") 1)
  unfold addAll addAll at ha
  intro st hst
  rcases e1 : Veh.addComponent ⟨h.upd id f, ({} : Veh).configure (some "Wedge") 1⟩ id {} with ⟨_ | u, s⟩ <;> rw [e1] at hst ha
  · cases hst
  · obtain ⟨y, hy, hy'⟩ := ha st hst
    rcases e2 : Veh.addComponent ⟨h'.upd id f', ({} : Veh).configure (some "Wedge") 1⟩ id {} with ⟨_ | u', s'⟩ <;> rw [e2] at hy
    · cases hy
    · exact ⟨y, hy, hy'⟩

theorem npSqrt_ok {a s : ℝ} : Falcon9.npSqrt a = .ok s ↔ psqrt a = .ok s := by
  unfold Falcon9.npSqrt psqrt
  split <;> simp

theorem npSqrt_scaled (hk : 0 < k) {a b : ℝ} (h : b = a * k ^ 2) :
    Follows (fun s t => psqrt a = .ok s ∧ LengthScaled k s t) (Falcon9.npSqrt a) (Falcon9.npSqrt b) := by
  intro s hs
  obtain ⟨t, ht, hst⟩ := psqrt_scaled hk h s (npSqrt_ok.1 hs)
  exact ⟨t, npSqrt_ok.2 ht, npSqrt_ok.1 hs, hst⟩

theorem falcon_scaled (hk : 0 < k) {h h' : Heap} (hh : ∀ id, CompScaled k (h id) (h' id)) (id1 id2 : ℕ) (kwargs kwargs' : Dict String ℝ)
    (hn : kwargs.keys.Nodup) (hn' : kwargs'.keys.Nodup) (D L_b H r_n r_o f_L : ℝ) (k1 : given kwargs "D" 3.75 D) (k2 : given kwargs "L_b" 60 L_b)
    (k3 : given kwargs "h" (5 / 2) H) (k4 : given kwargs "r_n" 0.75 r_n) (k5 : given kwargs "r_o" 7 r_o) (k6 : given kwargs "f_L" 6 f_L)
    (k1' : given kwargs' "D" 3.75 (D * k)) (k2' : given kwargs' "L_b" 60 (L_b * k)) (k3' : given kwargs' "h" (5 / 2) (H * k))
    (k4' : given kwargs' "r_n" 0.75 (r_n * k)) (k5' : given kwargs' "r_o" 7 (r_o * k)) (k6' : given kwargs' "f_L" 6 (f_L * k))
    (hk1 : k ≤ 1 ∨ (0 ≤ r_n ∧ r_n < r_o)) :
    Follows (AddScaled k) (Falcon9.instanceOf h id1 id2 kwargs) (Falcon9.instanceOf h' id1 id2 kwargs') := by
  unfold Falcon9.instanceOf Falcon9.createInstance
  simp only [given_get' (dflts := Falcon9.defaults) hn k1 rfl, given_get' (dflts := Falcon9.defaults) hn k2 rfl,
    given_get' (dflts := Falcon9.defaults) hn k3 rfl, given_get' (dflts := Falcon9.defaults) hn k4 rfl,
    given_get' (dflts := Falcon9.defaults) hn k5 rfl, given_get' (dflts := Falcon9.defaults) hn k6 rfl,
    given_get' (dflts := Falcon9.defaults) hn' k1' rfl, given_get' (dflts := Falcon9.defaults) hn' k2' rfl,
    given_get' (dflts := Falcon9.defaults) hn' k3' rfl, given_get' (dflts := Falcon9.defaults) hn' k4' rfl,
    given_get' (dflts := Falcon9.defaults) hn' k5' rfl, given_get' (dflts := Falcon9.defaults) hn' k6' rfl, ok_bind]
  have z : ∀ {x y x' y' : ℝ}, x' = x * k → y' = y * k → PointScaled k ⟨x, y, 0⟩ ⟨x', y', 0⟩ :=
    fun h1 h2 => scaled_mk h1 h2 (by simp)
  have hf := scaled_sub (k := k) (p := ⟨0, H, 0⟩) (p' := ⟨0, H * k, 0⟩) (q := ⟨f_L, 0, 0⟩) (q' := ⟨f_L * k, 0, 0⟩)
    (z (by simp) rfl) (z rfl (by simp))
  have ha : Follows (PathScaled k) (Falcon9.fairingLine D H r_n r_o f_L) (Falcon9.fairingLine (D * k) (H * k) (r_n * k) (r_o * k) (f_L * k)) := by
    unfold Falcon9.fairingLine
    refine follows_bind (npSqrt_scaled hk (by ring)) fun q q' hq => follows_bind (R := fun a b => _ ∧ LengthScaled k a b) (follows_and ?_)
      fun y y' hy => follows_bind (npSqrt_scaled hk ?_) fun p p' hp => follows_bind (polyline_scaled hk ?_) fun l l' hl =>
      polyline_scaled hk ?_
    · exact follows_pdiv_length hk (by ring) (by ring)
    · rw [show y' = _ from hy.2]; ring
    · exact .cons (line_scaled hk hf (z (by simp; ring) (by ring))) (.cons (line_scaled hk (z (by simp; ring) (by ring)) (z (by simp; ring) (by simp))) .nil)
    · obtain ⟨gq, hq⟩ := hq
      obtain ⟨gy, hy⟩ := hy
      obtain ⟨gp, hp⟩ := hp
      rw [LengthScaled] at hq hy hp
      subst hq hy hp
      have ex := fun hh : 0 ≤ r_n ∧ r_n < r_o => ogive_exact hh.1 hh.2 gq (pdiv_mul gy) gp
      refine .cons (arc_scaled hk (hk1.imp id fun hh => abs_eq_of_sq ?_) (z (by ring) (by simp)) (z (by ring) (by ring)) (z (by ring) (by simp)))
        (.cons (arc_scaled hk (hk1.imp id fun hh => abs_eq_of_sq ?_) (z (by ring) (by ring)) (z (by ring) (by ring)) (z (by ring) (by ring)))
        (.cons (line_scaled hk (z (by ring) (by ring)) hf) (.cons hl .nil)))
      · have := (ex hh).1
        simp
        linear_combination -this
      · have := (ex hh).2
        simp
        linear_combination this
  have hb : Follows (PathScaled k) (Falcon9.bodyLine D L_b H f_L) (Falcon9.bodyLine (D * k) (L_b * k) (H * k) (f_L * k)) := by
    unfold Falcon9.bodyLine
    have hb1 := scaled_sub (k := k) (p := ⟨(⟨0, H, 0⟩ - ⟨f_L, 0, 0⟩ : V).x, D / 2, 0⟩) (p' := ⟨(⟨0, H * k, 0⟩ - ⟨f_L * k, 0, 0⟩ : V).x, D * k / 2, 0⟩)
      (q := ⟨L_b, 0, 0⟩) (q' := ⟨L_b * k, 0, 0⟩) (z (by simp) (by ring)) (z rfl (by simp))
    exact polyline_scaled hk (.cons (line_scaled hk (z (by simp) (by simp)) (z (by simp) (by ring))) (.cons (line_scaled hk (z (by simp) (by ring)) hb1)
      (.cons (line_scaled hk hb1 (z (scaled_x hb1) (by simp))) .nil)))
  refine follows_bind ha fun l l' hl => follows_bind hb fun m m' hm => ?_
  exact addAll_scaled (.cons ⟨rfl, optsScaled_plain _ rfl rfl rfl⟩ (.cons ⟨rfl, optsScaled_plain _ rfl rfl rfl⟩ .nil))
    (new_vehicle_scaled (upd_scaled (upd_scaled hh id1 (revolvedComponent_scaled hl 100 none)) id2 (revolvedComponent_scaled hm 50 none)) _ 1)

/-- The parameters of the Finner at another size. -/
def Spec.finnerTimes (k : ℝ) (p : Finner.Params) : Finner.Params :=
  ⟨p.diameter * k, p.total_length * k, p.nose_length * k, p.fin_height * k, p.fin_length * k, p.max_fin_thickness * k⟩

theorem finner_scaled (hk : 0 < k) {h h' : Heap} (hh : ∀ id, CompScaled k (h id) (h' id)) (ids : ℕ → ℕ) (kwargs kwargs' : Dict String ℝ)
    (p : Finner.Params) (ha : FinnerArgs kwargs p) (ha' : FinnerArgs kwargs' (finnerTimes k p)) :
    Follows (AddScaled k) (Finner.instanceOf h ids kwargs) (Finner.instanceOf h' ids kwargs') := by
  unfold Finner.instanceOf Finner.createInstance
  rw [finner_params _ _ ha, finner_params _ _ ha', ok_bind, ok_bind]
  have z : ∀ {x y x' y' : ℝ}, x' = x * k → y' = y * k → PointScaled k ⟨x, y, 0⟩ ⟨x', y', 0⟩ :=
    fun h1 h2 => scaled_mk h1 h2 (by simp)
  have n1 : PointScaled k (Finner.noseBase p) (Finner.noseBase (finnerTimes k p)) :=
    scaled_add scaled_zero (z rfl (by simp [finnerTimes]; ring))
  have n2 : PointScaled k (Finner.rocketBase p) (Finner.rocketBase (finnerTimes k p)) :=
    scaled_add scaled_zero (z rfl (by simp [finnerTimes]; ring))
  have l1 : PathScaled k (Finner.noseLine p) (Finner.noseLine (finnerTimes k p)) := line_scaled hk scaled_zero n1
  have l2 : PathScaled k (Finner.fuselageLine p) (Finner.fuselageLine (finnerTimes k p)) := line_scaled hk n1 n2
  have l3 : PathScaled k (Finner.baseLine p) (Finner.baseLine (finnerTimes k p)) :=
    line_scaled hk n2 (scaled_sub n2 (z (by simp) (scaled_y n2)))
  have hc : CompScaled k
      { componenttype := "composite", gen := .composite [], stl_resolution := .int 8, name := some "fuselage" }
      { componenttype := "composite", gen := .composite [], stl_resolution := .int 8, name := some "fuselage" } :=
    new_scaled _ (.composite _) _ _
  have h0 : ∀ id, CompScaled k (Finner.fuselageHeap h ids p id) (Finner.fuselageHeap h' ids (finnerTimes k p) id) := by
    unfold Finner.fuselageHeap
    exact upd_scaled (upd_scaled (upd_scaled (upd_scaled hh _ (revolvedComponent_scaled l1 _ _)) _ (revolvedComponent_scaled l2 _ _)) _
      (revolvedComponent_scaled l3 _ _)) _ hc
  have hS : SectionsScaled k (Finner.finSections p) (Finner.finSections (finnerTimes k p)) := by
    unfold Finner.finSections
    have pa : PointScaled k ⟨0, p.fin_length, 0⟩ ⟨0, (finnerTimes k p).fin_length, 0⟩ := z (by simp) rfl
    have pb : PointScaled k ⟨0, 0, 0⟩ ⟨0, 0, 0⟩ := scaled_zero
    have pc : PointScaled k ⟨-0.5 * p.max_fin_thickness, 0, 0⟩ ⟨-0.5 * (finnerTimes k p).max_fin_thickness, 0, 0⟩ :=
      z (by simp [finnerTimes]; ring) (by simp)
    have pd : PointScaled k ⟨0.5 * p.max_fin_thickness, 0, 0⟩ ⟨0.5 * (finnerTimes k p).max_fin_thickness, 0, 0⟩ :=
      z (by simp [finnerTimes]; ring) (by simp)
    have po : PointScaled k ⟨0, 0, p.fin_height⟩ ⟨0, 0, (finnerTimes k p).fin_height⟩ := scaled_mk (by simp) (by simp) rfl
    have la : ∀ {x y x' y' : V}, PointScaled k x x' → PointScaled k y y' →
        PathScaled k (Line.add x y ⟨0, 0, p.fin_height⟩) (Line.add x' y' ⟨0, 0, (finnerTimes k p).fin_height⟩) :=
      fun hx hy => line_scaled hk (scaled_add hx po) (scaled_add hy po)
    exact .cons (.cons (line_scaled hk pa pd) (.cons (line_scaled hk pd pb) (.cons (line_scaled hk pb pc) (.cons (line_scaled hk pc pa) .nil))))
      (.cons (.cons (la pa pd) (.cons (la pd pb) (.cons (la pb pc) (.cons (la pc pa) .nil)))) .nil)
  have hJ : ∀ cs ∈ Finner.finSections p, cs.length = 4 ∧ Joined cs := by
    intro cs hcs
    unfold Finner.finSections at hcs
    simp only [List.mem_cons, List.not_mem_nil, or_false] at hcs
    rcases hcs with rfl | rfl
    · exact joined_four
    · exact joined_four
  refine follows_bind (addChildren_scaled (ids 0) [ids 1, ids 2, ids 3] h0) fun g g' hg =>
    follows_bind (swept_comp_scaled hk (.inr hJ) hS true (.int 4) none) fun f f' hf => ?_
  have hu : ∀ (l : List ℕ) {g g' : Heap}, (∀ id, CompScaled k (g id) (g' id)) → ∀ id,
      CompScaled k (l.foldl (fun h i => h.upd (ids (4 + i)) f) g id) (l.foldl (fun h i => h.upd (ids (4 + i)) f') g' id) := by
    intro l
    induction l with
    | nil => exact fun h => h
    | cons i l ih => exact fun h => ih (upd_scaled h _ hf)
  refine addAll_scaled (.cons ⟨rfl, optsScaled_plain _ rfl rfl rfl⟩ ?_) (new_vehicle_scaled (hu _ hg) _ 1)
  rw [List.forall₂_map_left_iff, List.forall₂_map_right_iff, List.forall₂_same]
  intro i _
  refine ⟨rfl, rfl, rfl, rfl, .none, rfl, .some ?_, .none, rfl⟩
  unfold Finner.finTransf
  exact .cons (.rotate _ _) (.cons (.vector (scaled_mk rfl (by simp) (by simp [finnerTimes]; ring))) (.cons (.rotate _ _) .nil))

/-! ## The claims -/

/-- C127, the wedge: with all three dimensions multiplied by `k` the generator returns the same vehicle multiplied by `k`, for every `k > 0`.  What this
means for meshes, volumes, masses and files is `C126_vehicle`. -/
theorem C127_wedge_partial (hk : 0 < k) (h h' : Heap) (hh : ∀ id, CompScaled k (h id) (h' id)) (id : ℕ) (kwargs kwargs' : Dict String ℝ)
    (hn : kwargs.keys.Nodup) (hn' : kwargs'.keys.Nodup) (w c t : ℝ) (k1 : given kwargs "wingspan" 1 w) (k2 : given kwargs "chord" 1 c)
    (k3 : given kwargs "thickness" 0.1 t) (k1' : given kwargs' "wingspan" 1 (w * k)) (k2' : given kwargs' "chord" 1 (c * k))
    (k3' : given kwargs' "thickness" 0.1 (t * k)) (st : VState) (hst : Wedge.instanceOf h id kwargs = .ok st) :
    ∃ st', Wedge.instanceOf h' id kwargs' = .ok st' ∧ StateScaled k st st' := by
  obtain ⟨st', e, hs⟩ := wedge_scaled hk hh id kwargs kwargs' hn hn' w c t k1 k2 k3 k1' k2' k3' st hst
  exact ⟨st', e, hs.state⟩

/-- C127, the Falcon 9: with all six dimensions multiplied by `k`, which may exceed 1 if the arcs of the nose can be drawn (`0 ≤ r_n < r_o`). -/
theorem C127_falcon9_partial (hk : 0 < k) (h h' : Heap) (hh : ∀ id, CompScaled k (h id) (h' id)) (id1 id2 : ℕ) (kwargs kwargs' : Dict String ℝ)
    (hn : kwargs.keys.Nodup) (hn' : kwargs'.keys.Nodup) (D L_b H r_n r_o f_L : ℝ) (k1 : given kwargs "D" 3.75 D) (k2 : given kwargs "L_b" 60 L_b)
    (k3 : given kwargs "h" (5 / 2) H) (k4 : given kwargs "r_n" 0.75 r_n) (k5 : given kwargs "r_o" 7 r_o) (k6 : given kwargs "f_L" 6 f_L)
    (k1' : given kwargs' "D" 3.75 (D * k)) (k2' : given kwargs' "L_b" 60 (L_b * k)) (k3' : given kwargs' "h" (5 / 2) (H * k))
    (k4' : given kwargs' "r_n" 0.75 (r_n * k)) (k5' : given kwargs' "r_o" 7 (r_o * k)) (k6' : given kwargs' "f_L" 6 (f_L * k))
    (hk1 : k ≤ 1 ∨ (0 ≤ r_n ∧ r_n < r_o)) (st : VState) (hst : Falcon9.instanceOf h id1 id2 kwargs = .ok st) :
    ∃ st', Falcon9.instanceOf h' id1 id2 kwargs' = .ok st' ∧ StateScaled k st st' := by
  obtain ⟨st', e, hs⟩ := falcon_scaled hk hh id1 id2 kwargs kwargs' hn hn' D L_b H r_n r_o f_L k1 k2 k3 k4 k5 k6 k1' k2' k3' k4' k5' k6' hk1 st hst
  exact ⟨st', e, hs.state⟩

/-- C127, the Finner: with all six dimensions multiplied by `k`, for every `k > 0`. -/
theorem C127_finner_partial (hk : 0 < k) (h h' : Heap) (hh : ∀ id, CompScaled k (h id) (h' id)) (ids : ℕ → ℕ) (kwargs kwargs' : Dict String ℝ)
    (p : Finner.Params) (ha : FinnerArgs kwargs p) (ha' : FinnerArgs kwargs' (finnerTimes k p)) (st : VState)
    (hst : Finner.instanceOf h ids kwargs = .ok st) : ∃ st', Finner.instanceOf h' ids kwargs' = .ok st' ∧ StateScaled k st st' := by
  obtain ⟨st', e, hs⟩ := finner_scaled hk hh ids kwargs kwargs' p ha ha' st hst
  exact ⟨st', e, hs.state⟩

/-- The parameters of the D-21 at another size: four lengths and an angle. -/
def Spec.d21Times (k : ℝ) (p : D21.Params) : D21.Params := ⟨p.R_b * k, p.L_b * k, p.L_w * k, p.W_w * k, p.flap_angle⟩

theorem revItems_first (line : PathObj) : ∃ l, revItems line = ("revolved_fuse_0", RevolvedPatch line 0 (Real.pi / 2)) :: l := by
  refine ⟨(revItems line).tail, ?_⟩
  unfold revItems
  rw [List.range_succ_eq_map, List.map_cons, List.tail_cons]
  congr 1
  simp
  decide

theorem revolved_end {P : PathObj} {x : ℝ} (h : P.call 1 = .ok ⟨x, 0, 0⟩) (a b s : ℝ) : RevolvedPatch P a b 1 s = .ok ⟨x, 0, 0⟩ := by
  unfold RevolvedPatch
  simp [h, ok_bind, pure, Except.pure]

theorem d21_noses (ptan : ℝ → ℝ) (h : Heap) (ids : ℕ → ℕ) (hi : Function.Injective ids) (nw nt : ℕ)
    (kwargs : Dict String ℝ) (p : D21.Params) (ha : D21Args kwargs p) (hp : D21Ok p) :
    ∃ st P, D21.instanceOf bisect01 ptan h ids nw nt kwargs = .ok st ∧ ("revolved_2", ids 1) ∈ st.veh.named ∧
      st.heap (ids 1) = RevolvedComponent P 20 ∧ P.call 1 = .ok ⟨-0.6, 0, 0⟩ := by
  obtain ⟨P0, e0, k0⟩ := D21.fuse_mesh hp
  obtain ⟨P1, e1, k1, -, k2, -⟩ := D21.nose_line hp
  obtain ⟨P2, l1, l2, T1, T2, e2, hE⟩ := D21.edge_eq p hp.wing hp.span
  obtain ⟨w, ew, hw1, hw2⟩ := D21.wing_init hE hp
  obtain ⟨st, b1, b2, b3, v1, v2, v3, f⟩ := d21_instance ptan h ids hi nw nt kwargs p ha P0 P1 P2 w e0 e1 e2 ew
  exact ⟨st, P1, b1, by rw [b3]; simp [d21Names], f 1 (by norm_num), by rw [k1 1, k2]⟩

/-- C127 is violated by the D-21: whatever its size, its nose ends at `x = -0.6`, so that a vehicle with all lengths multiplied by `k ≠ 1` is not the
vehicle multiplied by `k`. -/
theorem C127_d21_violated (ptan : ℝ → ℝ) (h h' : Heap) (ids : ℕ → ℕ) (hi : Function.Injective ids) (nw nt : ℕ)
    (kwargs kwargs' : Dict String ℝ) (p : D21.Params) (ha : D21Args kwargs p) (hp : D21Ok p) (ha' : D21Args kwargs' (d21Times k p))
    (hp' : D21Ok (d21Times k p)) (hk1 : k ≠ 1) :
    ∃ st st', D21.instanceOf bisect01 ptan h ids nw nt kwargs = .ok st ∧ D21.instanceOf bisect01 ptan h' ids nw nt kwargs' = .ok st' ∧
      ¬ StateScaled k st st' ∧ ∀ s, s = st ∨ s = st' → ("revolved_2", ids 1) ∈ s.veh.named ∧ (generatePatches s.heap (ids 1)).1 = .ok () ∧
        ∃ S, ((generatePatches s.heap (ids 1)).2 (ids 1)).patches.get? "revolved_fuse_0" = some S ∧ ∀ q, S 1 q = .ok ⟨-0.6, 0, 0⟩ := by
  obtain ⟨st, P, a1, a2, a3, a4⟩ := d21_noses ptan h ids hi nw nt kwargs p ha hp
  obtain ⟨st', P', b1, b2, b3, b4⟩ := d21_noses ptan h' ids hi nw nt kwargs' _ ha' hp'
  have gen : ∀ (Q : PathObj), (RevolvedComponent Q 20).gen = .into fun _ => ⟨revItems Q, [], [], none⟩ := by
    intro Q
    have hsteps : runSteps ((List.range 4).map fun (i : ℕ) => GenStep.patch ("revolved_fuse_" ++ toString i)
        (.ok (RevolvedPatch Q (i * Real.pi / 2) (((i : ℝ) + 1) * Real.pi / 2)))) = ⟨revItems Q, [], [], none⟩ :=
      runSteps_patches (List.range 4) (fun i => "revolved_fuse_" ++ toString i)
        (fun (i : ℕ) => RevolvedPatch Q (i * Real.pi / 2) (((i : ℝ) + 1) * Real.pi / 2))
    rw [← hsteps]; rfl
  refine ⟨st, st', a1, b1, ?_, ?_⟩
  · intro hs
    have hg := (hs.heap (ids 1)).gen
    rw [a3, b3, gen, gen] at hg
    cases hg with
    | into hg =>
      obtain ⟨-, hg, -⟩ := hg (.int 20) rfl
      obtain ⟨l, e⟩ := revItems_first P
      obtain ⟨l', e'⟩ := revItems_first P'
      simp only [e, e'] at hg
      cases hg with
      | cons hg _ =>
        obtain ⟨y, hy, hy'⟩ := hg.2 1 0 _ (revolved_end a4 _ _ _)
        simp only [revolved_end b4, Except.ok.injEq] at hy
        rw [PointScaled, ← hy] at hy'
        have := congrArg Vec.x hy'
        simp at this
        exact hk1 (by linarith)
  · have key : ∀ (s : VState) (Q : PathObj), s.heap (ids 1) = RevolvedComponent Q 20 → Q.call 1 = .ok ⟨-0.6, 0, 0⟩ →
        (generatePatches s.heap (ids 1)).1 = .ok () ∧
        ∃ S, ((generatePatches s.heap (ids 1)).2 (ids 1)).patches.get? "revolved_fuse_0" = some S ∧ ∀ q, S 1 q = .ok ⟨-0.6, 0, 0⟩ := by
      intro s Q hs hQ
      have e : generatePatches s.heap (ids 1) = Composite.genLeaf s.heap (ids 1) := by
        unfold generatePatches
        rw [hs, gen]
      obtain ⟨c1, c2⟩ := genLeaf_revolved s.heap (ids 1) Q (by rw [hs]; exact ⟨rfl, rfl⟩)
      rw [e]
      refine ⟨c1, RevolvedPatch Q 0 (Real.pi / 2), ?_, fun q => revolved_end hQ _ _ _⟩
      obtain ⟨l, e'⟩ := revItems_first Q
      rw [c2, e']
      simp [Dict.get?]
    rintro s (rfl | rfl)
    · exact ⟨a2, key _ _ a3 a4⟩
    · exact ⟨b2, key _ _ b3 b4⟩

/-! ## The hypotheses hold -/

/-- A heap without components. -/
def Spec.blankHeap : Heap := fun _ => { componenttype := "composite", gen := .composite [], stl_resolution := .int 2 }

theorem blankHeap_scaled (id : ℕ) : CompScaled k (blankHeap id) (blankHeap id) := new_scaled _ (.composite _) _ _

/-- A Finner of half the size. -/
example : ∃ st', Finner.instanceOf blankHeap id [("diameter", 0.5), ("total_length", 5), ("nose_length", 1.42), ("fin_height", 0.5), ("fin_length", 0.5),
    ("max_fin_thickness", 0.04)] = .ok st' := by
  have hargs : FinnerArgs [] ⟨1, 10, 2.84, 1, 1, 0.08⟩ := ⟨by simp [Dict.keys], .inr ⟨by simp, rfl⟩, .inr ⟨by simp, rfl⟩, .inr ⟨by simp, rfl⟩,
    .inr ⟨by simp, rfl⟩, .inr ⟨by simp, rfl⟩, .inr ⟨by simp, rfl⟩⟩
  obtain ⟨st, hst, -⟩ := finner_instance blankHeap id Function.injective_id [] _ hargs
  obtain ⟨st', e, -⟩ := C127_finner_partial (k := 1 / 2) (by norm_num) blankHeap blankHeap blankHeap_scaled id []
    [("diameter", 0.5), ("total_length", 5), ("nose_length", 1.42), ("fin_height", 0.5), ("fin_length", 0.5), ("max_fin_thickness", 0.04)]
    _ hargs
    ⟨by simp [Dict.keys], .inl (by norm_num [finnerTimes]), .inl (by norm_num [finnerTimes]), .inl (by norm_num [finnerTimes]),
      .inl (by norm_num [finnerTimes]), .inl (by norm_num [finnerTimes]), .inl (by norm_num [finnerTimes])⟩ st hst
  exact ⟨st', e⟩

/-- A wedge and a Falcon 9 of twice the size. -/
example : given [] "wingspan" 1 1 ∧ given [("wingspan", 2), ("chord", 2), ("thickness", 0.2)] "wingspan" 1 (1 * 2) ∧
    given [("wingspan", 2), ("chord", 2), ("thickness", 0.2)] "chord" 1 (1 * 2) ∧
    given [("wingspan", 2), ("chord", 2), ("thickness", 0.2)] "thickness" 0.1 (0.1 * 2) ∧ ((0 : ℝ) ≤ 0.75 ∧ (0.75 : ℝ) < 7) ∧
    given [("D", 7.5), ("L_b", 120), ("h", 5), ("r_n", 1.5), ("r_o", 14), ("f_L", 12)] "r_o" 7 (7 * 2) := by
  refine ⟨.inr ⟨by simp, rfl⟩, .inl (by norm_num), .inl (by norm_num), .inl (by norm_num), by norm_num, .inl (by norm_num)⟩

/-- A D-21 of twice the size. -/
example : D21Args [] d21Default ∧ D21Ok d21Default ∧ D21Args [("R_b", 2), ("L_b", 40), ("L_w", 32), ("W_w", 10)] (d21Times 2 d21Default) ∧
    D21Ok (d21Times 2 d21Default) := by
  refine ⟨d21Default_ok.1, d21Default_ok.2, ⟨by simp [Dict.keys], .inl ?_, .inl ?_, .inl ?_, .inl ?_, .inr ⟨?_, ?_⟩⟩, ?_⟩
  all_goals first | (simp [d21Times, d21Default]; norm_num; done) | (simp [d21Times, d21Default]; done) | (constructor <;> norm_num [d21Times, d21Default])

end
end HV
