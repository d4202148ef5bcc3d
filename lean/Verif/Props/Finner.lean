import Verif.Props.RevolvedComposite
import Verif.Props.Falcon9
import Verif.Props.Motion
import Verif.Props.Extrusion

/-!
# C103: the parametric Finner
-/

namespace HV
open Spec Veh

/-- Without modifier, curvature and reflection the pipeline consists of the transformations. -/
theorem pipeline_transform (c : Comp) (h1 : c.modifier = none) (h2 : c.curvatures = none) (h3 : c.reflection_axis = none) :
    pipeline 0 c = c.transform := by
  unfold pipeline
  have e1 : c.applyModifier = c := by unfold Comp.applyModifier; rw [h1]
  have e2 : c.curve = c := by unfold Comp.curve; rw [h2]
  have e3 : c.reflect none = c := by unfold Comp.reflect; simp [h3]
  rw [e1, e2, rotate_zero, e3]

/-- Two fresh components with the same patch generator, clustering and resolution have the same mesh, whatever the other
options are. -/
theorem dressed_leaf (hp : Heap) (id : ℕ) (out : Reso → GenOut) (hgen : (hp id).gen = .into out) (n : ℕ) (hn : 1 ≤ n)
    (hres : (hp id).stl_resolution = .int n) (hp0 : (hp id).patches = []) (hm : (hp id).mesh_ = none) (hs : (hp id).surfaces = none)
    (h' : Heap) (M : StlMesh) (c' : Comp) (g1 : generatePatches hp id = (.ok (), h')) (g2 : (h' id).mesh = (.ok M, c'))
    (hq : Heap) (jd : ℕ) (hgen' : (hq jd).gen = .into out) (hres' : (hq jd).stl_resolution = .int n) (hq0 : (hq jd).patches = [])
    (hm' : (hq jd).mesh_ = none) (hs' : (hq jd).surfaces = none) (hcl : (hq jd).clustering = (hp id).clustering) :
    ∃ h'' P R S M' c'', generatePatches hq jd = (.ok (), h'') ∧
      h'' jd = { hq jd with patches := P, patch_res_r := R, patch_res_s := S } ∧ (P.map Prod.fst).Nodup ∧
      (h'' jd).mesh = (.ok M', c'') ∧ M'.tris = M.tris ∧ P = (h' id).patches := by
  have e1 : generatePatches hp id = (match (out (.int n)).err with | none => .ok () | some e => .error e,
      hp.upd id ((hp id).genInto (out (.int n))).2) := by
    simp only [generatePatches, Composite.genLeaf, hgen, Comp.genInto, hres]
    cases (out (.int n)).err <;> rfl
  have e2 : generatePatches hq jd = (match (out (.int n)).err with | none => .ok () | some e => .error e,
      hq.upd jd ((hq jd).genInto (out (.int n))).2) := by
    simp only [generatePatches, Composite.genLeaf, hgen', Comp.genInto, hres']
    cases (out (.int n)).err <;> rfl
  rw [e1] at g1
  have herr : (match (out (.int n)).err with | none => (Except.ok () : Res Unit) | some e => .error e) = .ok () :=
    congrArg Prod.fst g1
  have hh : h' = hp.upd id ((hp id).genInto (out (.int n))).2 := (congrArg Prod.snd g1).symm
  rw [hh, upd_self] at g2
  rw [herr] at e2
  have hpat : ∀ c : Comp, c.patches = [] → ((c.genInto (out (.int n))).2).patches = Dict.setAll [] (out (.int n)).items := by
    intro c hc; simp only [Comp.genInto, hc]
  have hnd : (((Dict.setAll [] (out (.int n)).items : Dict String Surf)).map Prod.fst).Nodup :=
    Dict.nodup_setAll _ _ (by simp [Dict.keys])
  have hne : (Dict.setAll [] (out (.int n)).items : Dict String Surf) ≠ [] := by
    intro e
    have := (C52_no_patches ((hp id).genInto (out (.int n))).2 none (by rw [hpat _ hp0, e]) hm hs).2
    rw [g2] at this
    cases this
  have hM := (C52_mesh ((hp id).genInto (out (.int n))).2 n hn hres hm hs (by rw [hpat _ hp0]; exact hnd)
    (by rw [hpat _ hp0]; exact hne)).2 M c' g2
  rw [hpat _ hp0] at hM
  obtain ⟨M', c'', m1, m2, -⟩ := (C52_mesh ((hq jd).genInto (out (.int n))).2 n hn hres' hm' hs' (by rw [hpat _ hq0]; exact hnd)
    (by rw [hpat _ hq0]; exact hne)).1 M.tris (by
      rw [hpat _ hq0]
      have : ((hq jd).genInto (out (.int n))).2.clustering = ((hp id).genInto (out (.int n))).2.clustering := hcl
      rw [this]; exact hM)
  refine ⟨_, Dict.setAll [] (out (.int n)).items, ((hq jd).genInto (out (.int n))).2.patch_res_r,
    ((hq jd).genInto (out (.int n))).2.patch_res_s, M', c'', e2, ?_, hnd, by rw [upd_self]; exact m1, m2,
    by rw [hh, upd_self, hpat _ hp0]⟩
  rw [upd_self, ← hpat _ hq0]
  rfl

/-- Quarter turn about the x axis, from y towards z. -/
def Spec.quarterTurn (v : V) : V := ⟨v.x, -v.z, v.y⟩

/-- Where a point of the fin, drawn in the x-y plane and extruded along z, is put on the rocket: the y direction of the drawing
points forwards from the base of the rocket, and z away from its axis. -/
noncomputable def Spec.finPlace (diameter total_length : ℝ) (v : V) : V := ⟨total_length - v.y, v.x, v.z + diameter / 2⟩

/-- The corners of the section of the fin. -/
noncomputable def finX (t : ℝ) : ℕ → ℝ := fun i => if i = 1 then t / 2 else if i = 3 then -(t / 2) else 0
noncomputable def finY (L : ℝ) : ℕ → ℝ := fun i => if i = 0 then L else 0

theorem fin_sections (p : Finner.Params) : Finner.finSections p =
    [0, p.fin_height].map (quadSection (finX p.max_fin_thickness) (finY p.fin_length)) := by
  unfold Finner.finSections quadSection Line.add
  simp only [List.map_cons, List.map_nil, List.cons.injEq, and_true, finX, finY]
  refine ⟨⟨?_, ?_, ?_, ?_⟩, ?_, ?_, ?_, ?_⟩ <;> congr 1 <;> ext <;> norm_num <;> ring

/-- The mesh of the fin before it is put in its place. -/
theorem fin_mesh (p : Finner.Params) : Swept.init (Finner.finSections p) true (.int 4) =
      .ok (Swept.comp (Finner.finSections p) 4 true (.int 4) none) ∧
    ∀ (hp : Heap) (id : ℕ), hp id = Swept.comp (Finner.finSections p) 4 true (.int 4) none →
    ∃ h' M c', generatePatches hp id = (.ok (), h') ∧ (h' id).mesh = (.ok M, c') ∧ Closed M.tris ∧
      signedVolume M.tris = p.fin_height * p.fin_length * p.max_fin_thickness / 2 := by
  obtain ⟨c, h1, h2⟩ := extrusion_mesh (quad_extrusion (finX p.max_fin_thickness) (finY p.fin_length) [0, p.fin_height]) (by simp)
    (fun ne hne => ⟨quad_closes _ ne hne, quad_closes _ ne hne⟩) 0 p.fin_height rfl rfl 4 (by norm_num) none
  rw [← fin_sections] at h1
  have hc : c = Swept.comp (Finner.finSections p) 4 true (.int 4) none := by
    unfold Swept.init at h1
    have : ∃ f, SweptPatch.getIdx (Finner.finSections p) 0 = .ok f ∧ f.length = 4 := ⟨_, rfl, rfl⟩
    obtain ⟨f, hf, hl⟩ := this
    rw [hf, ok_bind, bind_ok] at h1
    obtain ⟨u, -, hu⟩ := h1
    cases hu
    rw [hl]
  subst hc
  refine ⟨h1, fun hp id hid => ?_⟩
  obtain ⟨h', M, c', g1, g2, g3, g4⟩ := h2 hp id hid
  refine ⟨h', M, c', g1, g2, g3, ?_⟩
  rw [g4, C96_quadrilateral _ _ 4 (by norm_num)]
  simp [finX, finY]
  ring

theorem turn_pow (i : ℕ) (hi : i < 4) (v : V) :
    toF (quarterTurn^[i] v) = rodrigues (Pi.single 0 1) (toF v) ((i : ℝ) * 90 * Real.pi / 180) := by
  have e0 : ((0 : ℕ) : ℝ) * 90 * Real.pi / 180 = 0 := by simp
  have e1 : ((1 : ℕ) : ℝ) * 90 * Real.pi / 180 = Real.pi / 2 := by push_cast; ring
  have e2 : ((2 : ℕ) : ℝ) * 90 * Real.pi / 180 = Real.pi := by push_cast; ring
  have e3 : ((3 : ℕ) : ℝ) * 90 * Real.pi / 180 = Real.pi + Real.pi / 2 := by push_cast; ring
  interval_cases i
  · rw [e0]; ext j; fin_cases j <;> simp [rodrigues_apply, cross_apply, toF]
  · rw [e1]; ext j; fin_cases j <;> simp [rodrigues_apply, cross_apply, toF, quarterTurn]
  · rw [e2]; ext j; fin_cases j <;> simp [rodrigues_apply, cross_apply, toF, quarterTurn] <;> ring
  · rw [e3]; ext j; fin_cases j <;> simp [rodrigues_apply, cross_apply, toF, quarterTurn, Real.cos_add, Real.sin_add]

/-- The three maps of fin number `i`. -/
noncomputable def finMaps (p : Finner.Params) (i : ℕ) : List (V → V) :=
  [fun v => ⟨-v.y, v.x, v.z⟩, fun v => ⟨v.x + p.total_length, v.y + 0, v.z + p.diameter / 2⟩, fun v => quarterTurn^[i] v]

theorem fin_maps (p : Finner.Params) (i : ℕ) (hi : i < 4) : List.Forall₂ PointMap (Finner.finTransf p i) (finMaps p i) ∧
    (∀ t ∈ Finner.finTransf p i, Rigid t) ∧
    ∀ v, (finMaps p i).foldl (fun q f => f q) v = quarterTurn^[i] (finPlace p.diameter p.total_length v) := by
  refine ⟨.cons ⟨2, ?_, ?_⟩ (.cons ?_ (.cons ⟨0, ?_, ?_⟩ .nil)), ?_, ?_⟩
  · exact Or.inl rfl
  · intro v
    have e : (90 : ℝ) * Real.pi / 180 = Real.pi / 2 := by ring
    rw [e]
    ext j; fin_cases j <;> simp [rodrigues_apply, cross_apply, toF]
  · intro v; rfl
  · exact Or.inl rfl
  · intro v; exact turn_pow i hi v
  · intro t ht
    simp only [Finner.finTransf, List.mem_cons, List.not_mem_nil, or_false] at ht
    rcases ht with rfl | rfl | rfl <;> trivial
  · intro v
    simp only [finMaps, List.foldl_cons, List.foldl_nil, finPlace]
    congr 1
    ext <;> simp <;> ring

/-- The volume of the stack of prismatoids over a straight line is that of the whole frustum, at every resolution. -/
theorem line_volume (N n : ℕ) (hn : 1 ≤ n) (p q : V) (hp : p.z = 0) (hq : q.z = 0) :
    polygonalVolume N n (fun i => (lineAt p q ((i : ℝ) / n)).x)
      (fun i => ((lineAt p q ((i : ℝ) / n)).y, (lineAt p q ((i : ℝ) / n)).z)) =
      N / 2 * Real.sin (2 * Real.pi / N) * ((q.x - p.x) * (p.y ^ 2 + p.y * q.y + q.y ^ 2) / 3) := by
  have hn0 : (n : ℝ) ≠ 0 := by positivity
  unfold polygonalVolume
  congr 1
  have key : ∀ m : ℕ, ∑ i ∈ Finset.range m, ((lineAt p q (((i + 1 : ℕ) : ℝ) / n)).x - (lineAt p q ((i : ℝ) / n)).x) *
      (((lineAt p q ((i : ℝ) / n)).y ^ 2 + (lineAt p q ((i : ℝ) / n)).z ^ 2) +
        ((lineAt p q ((i : ℝ) / n)).y * (lineAt p q (((i + 1 : ℕ) : ℝ) / n)).y +
          (lineAt p q ((i : ℝ) / n)).z * (lineAt p q (((i + 1 : ℕ) : ℝ) / n)).z) +
        ((lineAt p q (((i + 1 : ℕ) : ℝ) / n)).y ^ 2 + (lineAt p q (((i + 1 : ℕ) : ℝ) / n)).z ^ 2)) / 3 =
      (q.x - p.x) * (m / n) * (p.y ^ 2 + p.y * (p.y + (q.y - p.y) * (m / n)) + (p.y + (q.y - p.y) * (m / n)) ^ 2) / 3 := by
    intro m
    induction m with
    | zero => simp
    | succ m ih =>
      rw [Finset.sum_range_succ, ih]
      simp only [lineAt, Vec.add_x, Vec.add_y, Vec.add_z, Vec.mul_x, Vec.mul_y, Vec.mul_z, hp, hq]
      push_cast
      field_simp
      ring
  rw [key n, div_self hn0]
  ring

/-- The vehicle that the generator builds. -/
def finnerVeh (ids : ℕ → ℕ) : Veh :=
  { name := "Finner", verbosity := 1, components := [ids 0, ids 4, ids 5, ids 6, ids 7], counts := [("composite", 1), ("swept", 4)],
    enumerated := [("composite_1", ids 0), ("swept_1", ids 4), ("swept_2", ids 5), ("swept_3", ids 6), ("swept_4", ids 7)],
    named := [("fuselage", ids 0), ("fin_1", ids 4), ("fin_2", ids 5), ("fin_3", ids 6), ("fin_4", ids 7)] }

/-- The keyword arguments of the generator mean these dimensions. -/
structure Spec.FinnerArgs (kwargs : Dict String ℝ) (p : Finner.Params) : Prop where
  keys : kwargs.keys.Nodup
  diameter : given kwargs "diameter" 1 p.diameter
  total_length : given kwargs "total_length" 10 p.total_length
  nose_length : given kwargs "nose_length" 2.84 p.nose_length
  fin_height : given kwargs "fin_height" 1 p.fin_height
  fin_length : given kwargs "fin_length" 1 p.fin_length
  max_fin_thickness : given kwargs "max_fin_thickness" 0.08 p.max_fin_thickness

theorem finner_params (kwargs : Dict String ℝ) (p : Finner.Params) (ha : FinnerArgs kwargs p) :
    Finner.Params.of (Generator.init Finner.defaults kwargs) = .ok p := by
  unfold Finner.Params.of
  simp only [given_get' (dflts := Finner.defaults) ha.keys ha.diameter rfl, given_get' (dflts := Finner.defaults) ha.keys ha.total_length rfl,
    given_get' (dflts := Finner.defaults) ha.keys ha.nose_length rfl, given_get' (dflts := Finner.defaults) ha.keys ha.fin_height rfl,
    given_get' (dflts := Finner.defaults) ha.keys ha.fin_length rfl,
    given_get' (dflts := Finner.defaults) ha.keys ha.max_fin_thickness rfl, ok_bind]
  rfl

/-- The fuselage as the generator leaves it. -/
def fuselageComp (ids : ℕ → ℕ) : Comp :=
  { componenttype := "composite", gen := .composite [ids 1, ids 2, ids 3], stl_resolution := .int 8, name := some "fuselage" }

theorem finner_fuselage (h : Heap) (ids : ℕ → ℕ) (hi : Function.Injective ids) (p : Finner.Params) :
    ∃ h', Finner.addChildren (Finner.fuselageHeap h ids p) (ids 0) [ids 1, ids 2, ids 3] = .ok h' ∧
      h' (ids 0) = fuselageComp ids ∧
      h' (ids 1) = RevolvedComponent (Finner.noseLine p) ∧ h' (ids 2) = RevolvedComponent (Finner.fuselageLine p) ∧
      h' (ids 3) = RevolvedComponent (Finner.baseLine p) := by
  unfold Finner.addChildren Finner.addChildren Finner.addChildren Finner.addChildren Composite.addComponent Composite.appendChild
    Finner.fuselageHeap
  have hty : ∀ L, (RevolvedComponent L).componenttype ∈ Composite.allowable := fun L => by simp [RevolvedComponent, Composite.allowable]
  have n01 : ids 0 ≠ ids 1 := hi.ne (by decide)
  have n02 : ids 0 ≠ ids 2 := hi.ne (by decide)
  have n03 : ids 0 ≠ ids 3 := hi.ne (by decide)
  have n12 : ids 1 ≠ ids 2 := hi.ne (by decide)
  have n13 : ids 1 ≠ ids 3 := hi.ne (by decide)
  have n23 : ids 2 ≠ ids 3 := hi.ne (by decide)
  simp only [upd_self, upd_ne _ _ _ _ n01, upd_ne _ _ _ _ n02, upd_ne _ _ _ _ n03, upd_ne _ _ _ _ n12, upd_ne _ _ _ _ n13,
    upd_ne _ _ _ _ n23, upd_ne _ _ _ _ n01.symm, upd_ne _ _ _ _ n02.symm, upd_ne _ _ _ _ n03.symm, upd_ne _ _ _ _ n12.symm,
    upd_ne _ _ _ _ n13.symm, upd_ne _ _ _ _ n23.symm, hty, if_true]
  refine ⟨_, rfl, ?_, ?_, ?_, ?_⟩ <;>
    simp only [upd_self, upd_ne _ _ _ _ n01, upd_ne _ _ _ _ n02, upd_ne _ _ _ _ n03, upd_ne _ _ _ _ n12, upd_ne _ _ _ _ n13,
    upd_ne _ _ _ _ n23, upd_ne _ _ _ _ n01.symm, upd_ne _ _ _ _ n02.symm, upd_ne _ _ _ _ n03.symm, upd_ne _ _ _ _ n12.symm,
    upd_ne _ _ _ _ n13.symm, upd_ne _ _ _ _ n23.symm] <;> rfl

/-- Fin number `i` as the generator leaves it. -/
noncomputable def finComp (p : Finner.Params) (i : ℕ) : Comp :=
  { Swept.comp (Finner.finSections p) 4 true (.int 4) none with
    transformations := Finner.finTransf p i, name := some ("fin_" ++ toString (i + 1)) }

theorem finner_instance (h : Heap) (ids : ℕ → ℕ) (hi : Function.Injective ids) (kwargs : Dict String ℝ) (p : Finner.Params)
    (ha : FinnerArgs kwargs p) :
    ∃ st, Finner.instanceOf h ids kwargs = .ok st ∧ st.veh = finnerVeh ids ∧
      st.heap (ids 0) = fuselageComp ids ∧
      st.heap (ids 1) = RevolvedComponent (Finner.noseLine p) ∧ st.heap (ids 2) = RevolvedComponent (Finner.fuselageLine p) ∧
      st.heap (ids 3) = RevolvedComponent (Finner.baseLine p) ∧ ∀ i < 4, st.heap (ids (4 + i)) = finComp p i := by
  obtain ⟨h1, a1, a2, a3, a4, a5⟩ := finner_fuselage h ids hi p
  unfold Finner.instanceOf Finner.createInstance
  rw [finner_params kwargs p ha, ok_bind, a1, ok_bind, (fin_mesh p).1, ok_bind]
  set fin := Swept.comp (Finner.finSections p) 4 true (.int 4) none with hfin
  have r4 : List.range 4 = [0, 1, 2, 3] := rfl
  simp only [r4, List.foldl_cons, List.foldl_nil, List.map_cons, List.map_nil, add_zero, zero_add]
  set h2 : Heap := (((h1.upd (ids 4) fin).upd (ids (4 + 1)) fin).upd (ids (4 + 2)) fin).upd (ids (4 + 3)) fin with hh2
  have hle : ∀ k < 4, h2 (ids k) = h1 (ids k) := by
    intro k hk
    rw [hh2, upd_ne _ _ _ _ (hi.ne (by omega)), upd_ne _ _ _ _ (hi.ne (by omega)), upd_ne _ _ _ _ (hi.ne (by omega)),
      upd_ne _ _ _ _ (hi.ne (by omega))]
  have hfi : ∀ k < 4, h2 (ids (4 + k)) = fin := by
    intro k hk
    interval_cases k
    · rw [hh2, upd_ne _ _ _ _ (hi.ne (by omega)), upd_ne _ _ _ _ (hi.ne (by omega)), upd_ne _ _ _ _ (hi.ne (by omega)), upd_self]
    · rw [hh2, upd_ne _ _ _ _ (hi.ne (by omega)), upd_ne _ _ _ _ (hi.ne (by omega)), upd_self]
    · rw [hh2, upd_ne _ _ _ _ (hi.ne (by omega)), upd_self]
    · rw [hh2, upd_self]
  have t1 : (fuselageComp ids).componenttype ∈ Veh.allowable := by simp [fuselageComp, Veh.allowable]
  have t2 : fin.componenttype ∈ Veh.allowable := by simp [hfin, Swept.comp, Veh.allowable]
  have f0 : h2 (ids 0) = fuselageComp ids := by rw [hle 0 (by norm_num), a2]
  have f4 : h2 (ids 4) = fin := hfi 0 (by norm_num)
  have f5 : h2 (ids 5) = fin := hfi 1 (by norm_num)
  have f6 : h2 (ids 6) = fin := hfi 2 (by norm_num)
  have f7 : h2 (ids 7) = fin := hfi 3 (by norm_num)
  obtain ⟨st, b1, b2, b3, b4⟩ := addAll_spec ⟨h2, ({} : Veh).configure (some "Finner") 1⟩ [(ids 0, {}),
    (ids 4, { transformations := some (Finner.finTransf p 0), name := some ("fin_" ++ toString 1) }),
    (ids (4 + 1), { transformations := some (Finner.finTransf p 1), name := some ("fin_" ++ toString (1 + 1)) }),
    (ids (4 + 2), { transformations := some (Finner.finTransf p 2), name := some ("fin_" ++ toString (2 + 1)) }),
    (ids (4 + 3), { transformations := some (Finner.finTransf p 3), name := some ("fin_" ++ toString (3 + 1)) })]
    (by simp [hi.eq_iff])
    (by
      intro e he
      simp only [List.mem_cons, List.not_mem_nil, or_false] at he
      rcases he with rfl | rfl | rfl | rfl | rfl
      · simp only [f0]; exact t1
      · simp only [f4]; exact t2
      · simp only [f5]; exact t2
      · simp only [f6]; exact t2
      · simp only [f7]; exact t2)
  refine ⟨st, b1, ?_, ?_, ?_, ?_, ?_, ?_⟩
  · rw [b2]
    simp only [List.foldl_cons, List.foldl_nil, f0, f4, f5, f6, f7]
    simp only [Veh.record, Veh.nextCount, Veh.nameFor, hfin, Swept.comp, fuselageComp, Veh.configure, Veh.truthy]
    have r1 : Nat.repr 1 = "1" := by decide
    have r2 : Nat.repr 2 = "2" := by decide
    have r3 : Nat.repr 3 = "3" := by decide
    have r4 : Nat.repr 4 = "4" := by decide
    have s0 : "composite_" ++ "1" = "composite_1" := by decide
    have s1 : "swept_" ++ "1" = "swept_1" := by decide
    have s2 : "swept_" ++ "2" = "swept_2" := by decide
    have s3 : "swept_" ++ "3" = "swept_3" := by decide
    have s4 : "swept_" ++ "4" = "swept_4" := by decide
    have q1 : "fin_" ++ "1" = "fin_1" := by decide
    have q2 : "fin_" ++ "2" = "fin_2" := by decide
    have q3 : "fin_" ++ "3" = "fin_3" := by decide
    have q4 : "fin_" ++ "4" = "fin_4" := by decide
    simp [Dict.get?, Dict.set, finnerVeh, r1, r2, r3, r4, s0, s1, s2, s3, s4, q1, q2, q3, q4]
  · rw [b3 (ids 0, {}) (by simp)]
    simp only [f0]; rfl
  · rw [b4 _ (by simp [hi.eq_iff])]; exact (hle 1 (by norm_num)).trans a3
  · rw [b4 _ (by simp [hi.eq_iff])]; exact (hle 2 (by norm_num)).trans a4
  · rw [b4 _ (by simp [hi.eq_iff])]; exact (hle 3 (by norm_num)).trans a5
  · intro i hi4
    interval_cases i
    · rw [b3 (ids 4, { transformations := some (Finner.finTransf p 0), name := some ("fin_" ++ toString 1) }) (by simp)]
      simp only [f4]; rfl
    · rw [b3 (ids (4 + 1), { transformations := some (Finner.finTransf p 1), name := some ("fin_" ++ toString (1 + 1)) }) (by simp)]
      simp only [f5]; rfl
    · rw [b3 (ids (4 + 2), { transformations := some (Finner.finTransf p 2), name := some ("fin_" ++ toString (2 + 1)) }) (by simp)]
      simp only [f6]; rfl
    · rw [b3 (ids (4 + 3), { transformations := some (Finner.finTransf p 3), name := some ("fin_" ++ toString (3 + 1)) }) (by simp)]
      simp only [f7]; rfl

/-- The fuselage of the Finner generates; its mesh is closed and the volume is that of the polygonal cone and cylinder. -/
theorem fuselage_mesh (h : Heap) (ids : ℕ → ℕ) (hi : Function.Injective ids) (p : Finner.Params) (n : ℕ) (hn : 1 ≤ n)
    (h0 : h (ids 0) = { fuselageComp ids with stl_resolution := .int n })
    (h1 : h (ids 1) = RevolvedComponent (Finner.noseLine p)) (h2 : h (ids 2) = RevolvedComponent (Finner.fuselageLine p))
    (h3 : h (ids 3) = RevolvedComponent (Finner.baseLine p)) :
    ∃ g M c, generatePatches h (ids 0) = (.ok (), g) ∧ pipeline 0 (g (ids 0)) = (.ok (), g (ids 0)) ∧
      (g (ids 0)).mesh = (.ok M, c) ∧ Closed M.tris ∧
      signedVolume M.tris = (4 * n : ℕ) / 2 * Real.sin (2 * Real.pi / (4 * n : ℕ)) * (p.diameter / 2) ^ 2 *
        (p.nose_length / 3 + (p.total_length - p.nose_length)) := by
  have hnd : [ids 1, ids 2, ids 3].Nodup := by simp [hi.eq_iff]
  have hid : ids 0 ∉ [ids 1, ids 2, ids 3] := by simp [hi.eq_iff]
  have eb : Finner.rocketBase p = ⟨p.total_length, p.diameter / 2, 0⟩ := by ext <;> simp [Finner.rocketBase]
  have en : Finner.noseBase p = ⟨p.nose_length, p.diameter / 2, 0⟩ := by ext <;> simp [Finner.noseBase]
  have ee : Finner.rocketBase p - ⟨0, (Finner.rocketBase p).y, 0⟩ = ⟨p.total_length, 0, 0⟩ := by rw [eb]; ext <;> simp
  obtain ⟨g, M, c, g1, g2, g3, g4⟩ := C104_closed h (ids 0) [ids 1, ids 2, ids 3]
    [Finner.noseLine p, Finner.fuselageLine p, Finner.baseLine p]
    [lineAt ⟨0, 0, 0⟩ ⟨p.nose_length, p.diameter / 2, 0⟩,
      lineAt ⟨p.nose_length, p.diameter / 2, 0⟩ ⟨p.total_length, p.diameter / 2, 0⟩,
      lineAt ⟨p.total_length, p.diameter / 2, 0⟩ ⟨p.total_length, 0, 0⟩] hnd hid (by simp) (by rw [h0]; rfl)
    (.cons ⟨by rw [h1], by rw [h1]; rfl⟩ (.cons ⟨by rw [h2], by rw [h2]; rfl⟩ (.cons ⟨by rw [h3], by rw [h3]; rfl⟩ .nil)))
    (.cons (fun t _ _ => by unfold Finner.noseLine; rw [en]; rfl)
      (.cons (fun t _ _ => by unfold Finner.fuselageLine; rw [en, eb]; rfl)
        (.cons (fun t _ _ => by unfold Finner.baseLine; rw [ee, eb]; rfl) .nil))) n hn
    (by rw [h0]) (by rw [h0]; rfl) (by rw [h0]; rfl) (by rw [h0]; rfl) 0 p.total_length
    (by refine ⟨?_, ?_, ?_, ?_⟩ <;> ext <;> simp [lineAt])
  obtain ⟨A, B, C, e⟩ := generatePatches_opts h (ids 0) (by unfold Comp.children; rw [h0]; simpa [fuselageComp] using hid)
  rw [g1] at e
  simp only [h0] at e
  refine ⟨g, M, c, g1, ?_, g2, g3, ?_⟩
  · apply pipeline_plain <;> rw [e] <;> rfl
  · rw [g4]
    unfold stackVolume
    simp only [List.map_cons, List.map_nil, List.sum_cons, List.sum_nil]
    rw [line_volume (4 * n) n hn _ _ rfl rfl, line_volume (4 * n) n hn _ _ rfl rfl, line_volume (4 * n) n hn _ _ rfl rfl]
    ring

/-- C103: for all keyword arguments, the parametric Finner can be built, generated and meshed.  The mesh of the fuselage is
closed at every resolution `n` and encloses the volume of a cone and a cylinder over a regular polygon with `4 n` corners.
The four fins are the mesh `M0` of a wedge-shaped section extruded to the height of the fin, put on the rocket behind each
other by quarter turns; each is closed and encloses half of height times length times thickness. -/
theorem C103_finner (h : Heap) (ids : ℕ → ℕ) (hi : Function.Injective ids) (kwargs : Dict String ℝ) (p : Finner.Params)
    (ha : FinnerArgs kwargs p) :
    ∃ st, Finner.instanceOf h ids kwargs = .ok st ∧ st.veh.name = "Finner" ∧
      st.veh.components = [ids 0, ids 4, ids 5, ids 6, ids 7] ∧
      st.veh.named = [("fuselage", ids 0), ("fin_1", ids 4), ("fin_2", ids 5), ("fin_3", ids 6), ("fin_4", ids 7)] ∧
      withResolution st (ids 0) 8 = st ∧
    ∃ fin h0 M0 c0, Swept.init ([0, p.fin_height].map fun z => [Line ⟨0, p.fin_length, z⟩ ⟨p.max_fin_thickness / 2, 0, z⟩,
        Line ⟨p.max_fin_thickness / 2, 0, z⟩ ⟨0, 0, z⟩, Line ⟨0, 0, z⟩ ⟨-(p.max_fin_thickness / 2), 0, z⟩,
        Line ⟨-(p.max_fin_thickness / 2), 0, z⟩ ⟨0, p.fin_length, z⟩]) true (.int 4) = .ok fin ∧
      generatePatches (fun _ => fin) 0 = (.ok (), h0) ∧ (h0 0).mesh = (.ok M0, c0) ∧
    ∀ n : ℕ, 1 ≤ n → ∀ (lib : Lib) (depth : ℕ), ∃ st', generate lib depth (withResolution st (ids 0) n) = (.ok (), st') ∧
      (∃ M c, (st'.heap (ids 0)).mesh = (.ok M, c) ∧ Closed M.tris ∧
        signedVolume M.tris = (4 * n : ℕ) / 2 * Real.sin (2 * Real.pi / (4 * n : ℕ)) * (p.diameter / 2) ^ 2 *
          (p.nose_length / 3 + (p.total_length - p.nose_length))) ∧
      ∀ i < 4, ∃ M c, (st'.heap (ids (4 + i))).mesh = (.ok M, c) ∧ Closed M.tris ∧
        signedVolume M.tris = p.fin_height * p.fin_length * p.max_fin_thickness / 2 ∧
        M.tris = mapVerts (fun v => quarterTurn^[i] (finPlace p.diameter p.total_length v)) M0.tris := by
  obtain ⟨st, s1, s2, s3, s4, s5, s6, s7⟩ := finner_instance h ids hi kwargs p ha
  obtain ⟨f1, f2⟩ := fin_mesh p
  set fin := Swept.comp (Finner.finSections p) 4 true (.int 4) none with hfin
  obtain ⟨h0, M0, c0, m1, m2, m3, m4⟩ := f2 (fun _ => fin) 0 rfl
  refine ⟨st, s1, by rw [s2]; rfl, by rw [s2]; rfl, by rw [s2]; rfl, ?_, fin, h0, M0, c0, ?_, m1, m2, ?_⟩
  · unfold withResolution
    rw [show ({ st.heap (ids 0) with stl_resolution := .int 8 } : Comp) = st.heap (ids 0) by rw [s3]; rfl, upd_eq_self]
  · rw [fin_sections] at f1
    rw [← f1]
    simp [quadSection, finX, finY]
  intro n hn lib depth
  set w := withResolution st (ids 0) n with hw
  have w0 : w.heap (ids 0) = { fuselageComp ids with stl_resolution := .int n } := by
    show (st.heap.upd (ids 0) { st.heap (ids 0) with stl_resolution := .int n }) (ids 0) = _
    rw [upd_self, s3]
  have wk : ∀ k, k ≠ 0 → w.heap (ids k) = st.heap (ids k) := fun k hk => upd_ne _ _ _ _ (hi.ne hk)
  have wv : w.veh = finnerVeh ids := s2
  have wf : ∀ i < 4, w.heap (ids (4 + i)) = finComp p i := fun i h4 => by rw [wk _ (by omega), s7 i h4]
  obtain ⟨gF, MF, cF, a1, a2, a3, a4, a5⟩ := fuselage_mesh w.heap ids hi p n hn w0 (by rw [wk 1 (by omega), s4])
    (by rw [wk 2 (by omega), s5]) (by rw [wk 3 (by omega), s6])
  have fins : ∀ i < 4, ∃ g c M d, generatePatches w.heap (ids (4 + i)) = (.ok (), g) ∧ pipeline 0 (g (ids (4 + i))) = (.ok (), c) ∧
      c.mesh = (.ok M, d) ∧ M.tris = mapVerts (fun v => quarterTurn^[i] (finPlace p.diameter p.total_length v)) M0.tris ∧
      signedVolume M.tris = signedVolume M0.tris := by
    intro i h4
    obtain ⟨g, P, R, S, M', c'', b1, b2, b3, b4, b5, -⟩ := dressed_leaf (fun _ => fin) 0 _ rfl 4 (by norm_num) rfl rfl rfl rfl h0 M0 c0
      m1 m2 w.heap (ids (4 + i)) (by rw [wf i h4]; rfl) (by rw [wf i h4]; rfl) (by rw [wf i h4]; rfl) (by rw [wf i h4]; rfl)
      (by rw [wf i h4]; rfl) (by rw [wf i h4]; rfl)
    rw [wf i h4] at b2
    obtain ⟨q1, q2, q3⟩ := fin_maps p i h4
    obtain ⟨c', M, d, A, r1, r2, -, r3, r4, -, r5⟩ := C99_rigid (g (ids (4 + i))) (finMaps p i) (by rw [b2]; exact q1)
      (by rw [b2]; exact q2) 4 (by norm_num) (by rw [b2]; rfl) (by rw [b2]; rfl) (by rw [b2]; rfl) (by rw [b2]; exact b3)
      (by rw [b2]; rfl) M' c'' b4
    refine ⟨g, c', M, d, b1, ?_, r2, ?_, ?_⟩
    · rw [pipeline_transform _ (by rw [b2]; rfl) (by rw [b2]; rfl) (by rw [b2]; rfl)]; exact r1
    · rw [r4, b5]
      congr 1
      funext v
      rw [r3, q3]
    · rw [r5 (by rw [b5]; exact m3), b5]
  have hcs : w.veh.components = [ids 0, ids 4, ids 5, ids 6, ids 7] := by rw [wv]; rfl
  have hmem : ∀ k ∈ w.veh.components, k = ids 0 ∨ ∃ i < 4, k = ids (4 + i) := by
    intro k hk
    rw [hcs] at hk
    simp only [List.mem_cons, List.not_mem_nil, or_false] at hk
    rcases hk with rfl | rfl | rfl | rfl | rfl
    · exact .inl rfl
    · exact .inr ⟨0, by norm_num, rfl⟩
    · exact .inr ⟨1, by norm_num, rfl⟩
    · exact .inr ⟨2, by norm_num, rfl⟩
    · exact .inr ⟨3, by norm_num, rfl⟩
  have hch0 : (w.heap (ids 0)).children = [ids 1, ids 2, ids 3] := by unfold Comp.children; rw [w0]; rfl
  have hchf : ∀ i < 4, (w.heap (ids (4 + i))).children = [] := fun i h4 => by unfold Comp.children; rw [wf i h4]; rfl
  obtain ⟨st', t1, t2, t3⟩ := generate_plain lib depth w (by rw [wv]; rfl) (by rw [wv]; rfl) (by rw [wv]; rfl)
    ⟨by rw [hcs]; simp [hi.eq_iff], fun k hk k' hk' => by
      rcases hmem k' hk' with rfl | ⟨i, h4, rfl⟩
      · rw [hch0]
        rcases hmem k hk with rfl | ⟨j, j4, rfl⟩
        · simp [hi.eq_iff]
        · simp only [List.mem_cons, List.not_mem_nil, or_false, hi.eq_iff]; omega
      · rw [hchf i h4]; simp, fun k hk k' hk' hne j hj => by
      rcases hmem k' hk' with rfl | ⟨i, h4, rfl⟩
      · rcases hmem k hk with rfl | ⟨i', h4', rfl⟩
        · exact absurd rfl hne
        · rw [hchf i' h4'] at hj; simp at hj
      · rw [hchf i h4]; simp⟩
    (fun k hk => by
      rcases hmem k hk with rfl | ⟨i, h4, rfl⟩
      · exact ⟨_, _, a1, a2⟩
      · obtain ⟨g, c, M, d, b1, b2, -⟩ := fins i h4
        exact ⟨_, _, b1, b2⟩)
  refine ⟨st', t1, ?_, ?_⟩
  · obtain ⟨g', u1, u2⟩ := t3 (ids 0) (by rw [hcs]; simp)
    rw [a1] at u1
    obtain rfl : gF = g' := congrArg Prod.snd u1
    rw [a2] at u2
    have e : st'.heap (ids 0) = gF (ids 0) := (congrArg Prod.snd u2).symm
    exact ⟨MF, cF, by rw [e]; exact a3, a4, a5⟩
  · intro i h4
    obtain ⟨g, c, M, d, b1, b2, b3, b4, b5⟩ := fins i h4
    obtain ⟨g', u1, u2⟩ := t3 (ids (4 + i)) (by
      rw [hcs]
      interval_cases i <;> simp)
    rw [b1] at u1
    obtain rfl : g = g' := congrArg Prod.snd u1
    rw [b2] at u2
    have e : st'.heap (ids (4 + i)) = c := (congrArg Prod.snd u2).symm
    exact ⟨M, d, by rw [e]; exact b3, by rw [b4]; exact closed_mapVerts _ _ m3, by rw [b5, m4], b4⟩

/-- Keyword arguments and objects that meet the hypotheses of `C103_finner`. -/
example : FinnerArgs [("fin_height", 2), ("diameter", 3)] ⟨3, 10, 2.84, 2, 1, 0.08⟩ ∧ Function.Injective (fun k : ℕ => k + 5) := by
  refine ⟨⟨by decide, .inl ?_, .inr ⟨?_, rfl⟩, .inr ⟨?_, rfl⟩, .inl ?_, .inr ⟨?_, rfl⟩, .inr ⟨?_, rfl⟩⟩, fun a b h => by simpa using h⟩ <;>
    simp

end HV
