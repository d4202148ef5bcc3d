import Verif.Model.Hangar
import Verif.Props.Extrusion
import Verif.Props.VehicleFiles
import Verif.Lemmas.VehicleFrame

/-!
# C89, C90: generators and the parametric wedge
-/

namespace HV
open Spec

/-- C89: an attribute named in the keyword arguments has the given value, any other its default. -/
theorem C89_override {α : Type} (attrs kwargs : Dict String α) (hk : kwargs.keys.Nodup) (k : String) :
    (∀ v, (k, v) ∈ kwargs → (Generator.init attrs kwargs).get? k = some v) ∧
    ((∀ v, (k, v) ∉ kwargs) → (Generator.init attrs kwargs).get? k = attrs.get? k) := by
  unfold Generator.init
  rw [Dict.get?_setAll attrs kwargs hk]
  constructor
  · intro v hv
    rw [Dict.get?_of_mem hk hv]
    rfl
  · intro h
    have : Dict.get? kwargs k = none := by
      rw [Dict.get?_eq_none]
      intro hm
      obtain ⟨e, he, rfl⟩ := List.mem_map.1 hm
      exact h e.2 he
    rw [this]
    rfl

/-- C89: no attribute appears other than the defaults and those given. -/
theorem C89_names {α : Type} (attrs kwargs : Dict String α) (k : String) :
    k ∈ (Generator.init attrs kwargs).keys ↔ k ∈ attrs.keys ∨ k ∈ kwargs.keys := Dict.mem_keys_setAll _ _ _

/-- Two keyword arguments, one of them not among the defaults. -/
example : (Generator.init [("chord", 1), ("span", 2)] [("span", 3), ("sweep", 4)]) = [("chord", 1), ("span", 3), ("sweep", 4)] ∧
    Dict.keys [("span", 3), ("sweep", 4)] = ["span", "sweep"] := by
  constructor <;> decide

/-! ## The wedge -/

/-- The corners of the wedge section. -/
noncomputable def wedgeX (c : ℝ) (i : ℕ) : ℝ := [0, -(c / 2), 0, c / 2].getD i 0
noncomputable def wedgeY (t : ℝ) (i : ℕ) : ℝ := [t / 2, 0, -(t / 2), 0].getD i 0

theorem wedge_sections (w c t : ℝ) : Wedge.sections w c t = [-(w / 2), w / 2].map (quadSection (wedgeX c) (wedgeY t)) := by
  have h : ∀ z, Wedge.section_ c t z = quadSection (wedgeX c) (wedgeY t) z := by
    intro z
    unfold Wedge.section_ quadSection wedgeX wedgeY
    have e1 : (⟨0, 0.5 * t, 0⟩ : V) + ⟨0, 0, z⟩ = ⟨0, t / 2, z⟩ := by ext <;> simp; ring
    have e2 : (⟨-0.5 * c, 0, 0⟩ : V) + ⟨0, 0, z⟩ = ⟨-(c / 2), 0, z⟩ := by ext <;> simp; ring
    have e3 : (⟨0, -0.5 * t, 0⟩ : V) + ⟨0, 0, z⟩ = ⟨0, -(t / 2), z⟩ := by ext <;> simp; ring
    have e4 : (⟨0.5 * c, 0, 0⟩ : V) + ⟨0, 0, z⟩ = ⟨c / 2, 0, z⟩ := by ext <;> simp; ring
    simp only [e1, e2, e3, e4]
    rfl
  unfold Wedge.sections
  simp only [List.map_cons, List.map_nil, h]
  norm_num
  constructor <;> congr 1 <;> ring

/-- Rotation by zero. -/
theorem rotate_zero (c : Comp) : c.rotate 0 "y" = c := by
  have h : ∀ p : Surf, RotatedPatch p (0 * (Real.pi / 180)) "y" = p := by
    intro p
    funext r s
    unfold RotatedPatch
    have ha : axisOf "y" = some .y := (axisOf_eq_some _ _).2 (Or.inl rfl)
    rw [ha]
    rcases p r s with e | v
    · rfl
    · simp only [ok_bind, rotAbout, zero_mul, Real.cos_zero, Real.sin_zero]
      show Except.ok _ = _
      congr 1
      ext <;> simp
  unfold Comp.rotate
  have : (c.patches.mapVals fun _ p => RotatedPatch p (0 * (Real.pi / 180)) "y") = c.patches := by
    simp only [h]
    unfold Dict.mapVals
    exact List.map_id _
  rw [this]

/-- A component without modifier, curvatures, reflection and transformations is left as generated. -/
theorem pipeline_plain (c : Comp) (h1 : c.modifier = none) (h2 : c.curvatures = none) (h3 : c.reflection_axis = none)
    (h4 : c.transformations = []) : pipeline 0 c = (.ok (), c) := by
  unfold pipeline
  have e1 : c.applyModifier = c := by unfold Comp.applyModifier; rw [h1]
  have e2 : c.curve = c := by unfold Comp.curve; rw [h2]
  have e3 : c.reflect none = c := by unfold Comp.reflect; rw [h3]; rfl
  rw [e1, e2, rotate_zero, e3]
  unfold Comp.transform
  rw [h4]
  rfl

/-- The value of a parameter of the wedge. -/
def Spec.given (kwargs : Dict String ℝ) (k : String) (dflt v : ℝ) : Prop :=
  (k, v) ∈ kwargs ∨ (∀ u, (k, u) ∉ kwargs) ∧ v = dflt

theorem given_get {kwargs : Dict String ℝ} (hk : kwargs.keys.Nodup) {k : String} {d v : ℝ} (h : given kwargs k d v)
    (hd : Wedge.defaults.get? k = some d) : (Generator.init Wedge.defaults kwargs).get? k = some v := by
  rcases h with h | ⟨h, rfl⟩
  · exact (C89_override _ _ hk k).1 v h
  · rw [(C89_override _ _ hk k).2 h, hd]

/-- The wedge vehicle. -/
def wedgeVeh (id : ℕ) (generated : Bool) : Veh :=
  { name := "Wedge", verbosity := 1, components := [id], counts := [("swept", 1)], enumerated := [("swept_1", id)],
    named := [("swept_1", id)], generated := generated }

/-- C90 up to the sign of the volume: for all keyword arguments and every resolution at least 1 the parametric wedge can be
built, generated and meshed; its mesh is closed, and the volume enclosed is *minus* half of chord times thickness times
wingspan.  Missing: the sign, see `C90_violated`. -/
theorem C90_partial (h : Heap) (id : ℕ) (kwargs : Dict String ℝ) (hk : kwargs.keys.Nodup) (w c t : ℝ)
    (hw : given kwargs "wingspan" 1 w) (hc : given kwargs "chord" 1 c) (ht : given kwargs "thickness" 0.1 t) :
    ∃ st, Wedge.instanceOf h id kwargs = .ok st ∧ st.veh.components = [id] ∧ st.veh.named = [("swept_1", id)] ∧
      st.veh.name = "Wedge" ∧ (st.heap id).stl_resolution = .int 10 ∧
    ∀ (n : ℕ), 1 ≤ n → ∀ (lib : Lib) (depth : ℕ), ∃ st' M c',
      Veh.generate lib depth ⟨st.heap.upd id { st.heap id with stl_resolution := .int n }, st.veh⟩ = (.ok (), st') ∧
      (st'.heap id).mesh = (.ok M, c') ∧ Closed M.tris ∧ signedVolume M.tris = -(c * t * w / 2) := by
  have hz : ∀ n : ℕ, 1 ≤ n → _ := fun n hn => extrusion_mesh (quad_extrusion (wedgeX c) (wedgeY t) [-(w / 2), w / 2]) (by simp)
    (fun ne hne => ⟨quad_closes _ ne hne, quad_closes _ ne hne⟩) (-(w / 2)) (w / 2) rfl rfl n hn none
  rw [← wedge_sections] at hz
  have hcomp : ∀ n c', Swept.init (Wedge.sections w c t) true (.int n) none = .ok c' →
      c' = Swept.comp (Wedge.sections w c t) 4 true (.int n) none := by
    intro n c' hc'
    unfold Swept.init at hc'
    have : SweptPatch.getIdx (Wedge.sections w c t) 0 = .ok (Wedge.section_ c t (0.5 * (-1) * w)) := rfl
    rw [this, ok_bind, bind_ok] at hc'
    obtain ⟨u, -, hu⟩ := hc'
    cases hu
    rfl
  obtain ⟨c10, hc10, -⟩ := hz 10 (by norm_num)
  have e10 := hcomp _ _ hc10
  subst e10
  have hinst : Wedge.instanceOf h id kwargs = .ok ⟨(h.upd id (Swept.comp (Wedge.sections w c t) 4 true (.int 10) none)).upd id
      (Swept.comp (Wedge.sections w c t) 4 true (.int 10) none),
      wedgeVeh id false⟩ := by
    unfold Wedge.instanceOf Wedge.createInstance
    simp only [given_get hk hw rfl, given_get hk hc rfl, given_get hk ht rfl, ok_bind, hc10]
    unfold Veh.addComponent
    simp only [upd_self]
    have hty : (Swept.comp (Wedge.sections w c t) 4 true (.int 10) none).componenttype ∈ Veh.allowable := by
      simp [Swept.comp, Veh.allowable]
    rw [if_pos hty]
    have h1 : ("swept" ++ "_" ++ toString 1) = "swept_1" := by decide
    simp only [Veh.record, Veh.nextCount, Veh.nameFor, Swept.comp, Veh.configure, Dict.get?, Option.getD_none, zero_add, h1,
      Veh.truthy]
    rfl
  refine ⟨_, hinst, rfl, rfl, rfl, by simp only [upd_self]; rfl, ?_⟩
  intro n hn lib depth
  obtain ⟨cn, hcn, hg⟩ := hz n hn
  have en := hcomp _ _ hcn
  subst en
  have hres : ({ ((h.upd id (Swept.comp (Wedge.sections w c t) 4 true (.int 10) none)).upd id
      (Swept.comp (Wedge.sections w c t) 4 true (.int 10) none)) id with stl_resolution := .int n } : Comp) =
      Swept.comp (Wedge.sections w c t) 4 true (.int n) none := by
    rw [upd_self]; rfl
  simp only [hres]
  set hp := ((h.upd id (Swept.comp (Wedge.sections w c t) 4 true (.int 10) none)).upd id
      (Swept.comp (Wedge.sections w c t) 4 true (.int 10) none)).upd id (Swept.comp (Wedge.sections w c t) 4 true (.int n) none)
    with hhp
  have hid : hp id = Swept.comp (Wedge.sections w c t) 4 true (.int n) none := upd_self _ _ _
  obtain ⟨h', M, c', g1, g2, g3, g4⟩ := hg hp id hid
  have hfr : ∃ P R T, h' id = { hp id with patches := P, patch_res_r := R, patch_res_s := T } := by
    obtain ⟨P, R, T, e⟩ := generatePatches_opts hp id (by
      unfold Comp.children
      rw [hid]
      simp [Swept.comp])
    rw [g1] at e
    exact ⟨P, R, T, e⟩
  obtain ⟨P, R, T, e⟩ := hfr
  rw [hid] at e
  have hpipe : pipeline 0 (h' id) = (.ok (), h' id) := by
    apply pipeline_plain <;> rw [e] <;> rfl
  have hall : Veh.genAll 0 hp [id] = (.ok (), h'.upd id (h' id)) := by
    unfold Veh.genAll
    rw [genOne_eq, g1]
    simp only [hpipe]
    rfl
  refine ⟨⟨h'.upd id (h' id), wedgeVeh id true⟩, M, c', ?_, ?_, g3, ?_⟩
  · unfold Veh.generate Veh.generateWith
    have hang : (wedgeVeh id false).angleOffset = 0 := rfl
    have hcs : (wedgeVeh id false).components = [id] := rfl
    simp only [hang, hcs, hall]
    unfold Veh.genTransform
    have htr : (wedgeVeh id false).transformations = [] := rfl
    simp only [htr, if_true]
    rfl
  · show ((h'.upd id (h' id)) id).mesh = _
    rw [upd_self]
    exact g2
  · rw [g4, C96_quadrilateral _ _ n hn]
    simp [wedgeX, wedgeY]
    ring

/-- C90 fails in the sign: the section is traversed counterclockwise while the sweep goes up, so the surface is inside out.
The default wedge has the volume `-0.05` instead of `0.05`. -/
theorem C90_violated (h : Heap) (id : ℕ) (lib : Lib) (depth : ℕ) : ∃ st st' M c', Wedge.instanceOf h id [] = .ok st ∧
    Veh.generate lib depth st = (.ok (), st') ∧ (st'.heap id).mesh = (.ok M, c') ∧ signedVolume M.tris = -0.05 ∧
    signedVolume M.tris ≠ 1 * 0.1 * 1 / 2 := by
  obtain ⟨st, h1, -, -, -, h5, h6⟩ := C90_partial h id [] (by simp [Dict.keys]) 1 1 0.1 (.inr ⟨by simp, rfl⟩) (.inr ⟨by simp, rfl⟩)
    (.inr ⟨by simp, rfl⟩)
  obtain ⟨st', M, c', g1, g2, g3, g4⟩ := h6 10 (by norm_num) lib depth
  have hst : (⟨st.heap.upd id { st.heap id with stl_resolution := .int 10 }, st.veh⟩ : VState) = st := by
    have e : ({ st.heap id with stl_resolution := .int 10 } : Comp) = st.heap id := by rw [← h5]
    rw [e, upd_eq_self]
  rw [hst] at g1
  refine ⟨st, st', M, c', h1, g1, g2, ?_, ?_⟩ <;> rw [g4] <;> norm_num

/-- Keyword arguments that meet the hypotheses of `C90_partial`. -/
example : Dict.keys [("thickness", (2 : ℝ)), ("chord", 3)] = ["thickness", "chord"] ∧
    given [("thickness", (2 : ℝ)), ("chord", 3)] "wingspan" 1 1 ∧ given [("thickness", (2 : ℝ)), ("chord", 3)] "chord" 1 3 ∧
    given [("thickness", (2 : ℝ)), ("chord", 3)] "thickness" 0.1 2 := by
  refine ⟨rfl, .inr ⟨?_, rfl⟩, .inl ?_, .inl ?_⟩ <;> simp

end HV
