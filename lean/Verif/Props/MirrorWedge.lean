import Verif.Props.Mirror
import Verif.Props.SymmetricFalcon

/-!
# Property C129: the wedge
-/

namespace HV
open Spec Veh

/-- The wedge as `create_instance` returns it. -/
theorem wedge_swept (h : Heap) (id : ℕ) (kwargs : Dict String ℝ) (hk : kwargs.keys.Nodup) (w c t : ℝ)
    (hw : given kwargs "wingspan" 1 w) (hc : given kwargs "chord" 1 c) (ht : given kwargs "thickness" 0.1 t) :
    ∃ st, Wedge.instanceOf h id kwargs = .ok st ∧ st.veh = wedgeVeh id false ∧
      st.heap id = Swept.comp (Wedge.sections w c t) 4 true (.int 10) none ∧
      ∀ n : ℕ, 1 ≤ n → Swept.init (Wedge.sections w c t) true (.int n) none = .ok (Swept.comp (Wedge.sections w c t) 4 true (.int n) none) := by
  have hz : ∀ n : ℕ, 1 ≤ n → _ := fun n hn => extrusion_mesh (quad_extrusion (wedgeX c) (wedgeY t) [-(w / 2), w / 2]) (by simp)
    (fun ne hne => ⟨quad_closes _ ne hne, quad_closes _ ne hne⟩) (-(w / 2)) (w / 2) rfl rfl n hn none
  rw [← wedge_sections] at hz
  have hcomp : ∀ n : ℕ, 1 ≤ n → Swept.init (Wedge.sections w c t) true (.int n) none = .ok (Swept.comp (Wedge.sections w c t) 4 true (.int n) none) := by
    intro n hn
    obtain ⟨c', hc', -⟩ := hz n hn
    rw [hc']
    unfold Swept.init at hc'
    have : SweptPatch.getIdx (Wedge.sections w c t) 0 = .ok (Wedge.section_ c t (0.5 * (-1) * w)) := rfl
    rw [this, ok_bind, bind_ok] at hc'
    obtain ⟨u, -, hu⟩ := hc'
    cases hu
    rfl
  have hc10 := hcomp 10 (by norm_num)
  have hinst : Wedge.instanceOf h id kwargs = .ok ⟨(h.upd id (Swept.comp (Wedge.sections w c t) 4 true (.int 10) none)).upd id
      (Swept.comp (Wedge.sections w c t) 4 true (.int 10) none), wedgeVeh id false⟩ := by
    unfold Wedge.instanceOf Wedge.createInstance
    simp only [given_get hk hw rfl, given_get hk hc rfl, given_get hk ht rfl, ok_bind]
    simp only [hc10, ok_bind]
    unfold Veh.addComponent
    simp only [upd_self]
    have hty : (Swept.comp (Wedge.sections w c t) 4 true (.int 10) none).componenttype ∈ Veh.allowable := by
      simp [Swept.comp, Veh.allowable]
    rw [if_pos hty]
    have h1 : ("swept" ++ "_" ++ toString 1) = "swept_1" := by decide
    simp only [Veh.record, Veh.nextCount, Veh.nameFor, Swept.comp, Veh.configure, Dict.get?, Option.getD_none, zero_add, h1,
      Veh.truthy]
    rfl
  exact ⟨_, hinst, rfl, upd_self _ _ _, hcomp⟩

theorem wedge_edge (w c t : ℝ) {cs : List PathObj} (hcs : cs ∈ Wedge.sections w c t) :
    ∃ z, cs = quadSection (wedgeX c) (wedgeY t) z ∧ (z = -(w / 2) ∨ z = w / 2) := by
  rw [wedge_sections] at hcs
  simp only [List.map_cons, List.map_nil, List.mem_cons, List.not_mem_nil, or_false] at hcs
  rcases hcs with rfl | rfl
  · exact ⟨_, rfl, .inl rfl⟩
  · exact ⟨_, rfl, .inr rfl⟩

/-- The sections of the wedge are symmetric in `x` and in `y`, and exchanged by the reflection in `z`. -/
theorem wedge_mirrored (w c t : ℝ) : ProfileMirrored 0 3 (Wedge.sections w c t) ∧ ProfileMirrored 1 1 (Wedge.sections w c t) ∧
    SectionsImage (mirrorV 2) (Wedge.sections w c t) (Wedge.sections w c t).reverse := by
  refine ⟨?_, ?_, ?_⟩
  · intro cs hcs ne hne e e' he he' s s0 s1 q hq
    obtain ⟨z, rfl, -⟩ := wedge_edge w c t hcs
    interval_cases ne <;> simp [quadSection] at he he' <;> subst he he' <;> simp only [Line, lineAt] at hq ⊢ <;> cases hq <;>
      rw [Except.ok.injEq] <;> ext <;> simp [mirrorV, wedgeX, wedgeY] <;> ring
  · intro cs hcs ne hne e e' he he' s s0 s1 q hq
    obtain ⟨z, rfl, -⟩ := wedge_edge w c t hcs
    interval_cases ne <;> simp [quadSection] at he he' <;> subst he he' <;> simp only [Line, lineAt] at hq ⊢ <;> cases hq <;>
      rw [Except.ok.injEq] <;> ext <;> simp [mirrorV, wedgeX, wedgeY] <;> ring
  · rw [wedge_sections]
    unfold SectionsImage quadSection
    simp only [List.map_cons, List.map_nil, List.reverse_cons, List.reverse_nil, List.nil_append, List.cons_append, List.forall₂_cons, List.Forall₂.nil,
      and_true]
    refine ⟨⟨?_, ?_, ?_, ?_⟩, ?_, ?_, ?_, ?_⟩ <;> intro s _ _ q hq <;> simp only [Line, lineAt] at hq ⊢ <;> cases hq <;>
      rw [Except.ok.injEq] <;> ext <;> simp [mirrorV, wedgeX, wedgeY] <;> ring

/-- C129 for the wedge: whatever its dimensions, mesh resolution and density, the mesh of the generated wedge is its own mirror image in all three
coordinate planes, and the analysis reports the origin as centre of gravity and no products of inertia. -/
theorem C129_wedge (h : Heap) (id : ℕ) (kwargs : Dict String ℝ) (hk : kwargs.keys.Nodup) (w c t : ℝ)
    (hw : given kwargs "wingspan" 1 w) (hc : given kwargs "chord" 1 c) (ht : given kwargs "thickness" 0.1 t)
    (hw0 : 0 < w) (hc0 : 0 < c) (ht0 : 0 < t) (lib : Lib) (hl : NumpyStlInertia lib) (depth : ℕ) (ρ : ℝ) (hρ : 0 < ρ) :
    ∃ st, Wedge.instanceOf h id kwargs = .ok st ∧ ∀ n : ℕ, 1 ≤ n → ∃ st' M c', generate lib depth (withResolution st id n) = (.ok (), st') ∧
      (st'.heap id).mesh = (.ok M, c') ∧ (∀ k, MirrorSymmetric k M.tris) ∧
      ∀ a st'', analyse lib (depth + 1) st' [("swept_1", ρ)] = (.ok a, st'') → a.cog = some ⟨0, 0, 0⟩ ∧
        ∀ e ∈ a.components, e.2.props.cog = ⟨0, 0, 0⟩ ∧ ∀ i j, i ≠ j → e.2.props.moi i j = 0 := by
  obtain ⟨st, h1, h2, h3, -, h5, h6⟩ := C90_partial h id kwargs hk w c t hw hc ht
  obtain ⟨st0, s1, s2, s3, s4⟩ := wedge_swept h id kwargs hk w c t hw hc ht
  rw [h1] at s1
  obtain rfl := Except.ok.inj s1
  refine ⟨st, h1, fun n hn => ?_⟩
  obtain ⟨st', M, c', g1, g2, g3, g4⟩ := h6 n hn lib depth
  change generate lib depth (withResolution st id n) = _ at g1
  have w0 : (withResolution st id n).heap id = Swept.comp (Wedge.sections w c t) 4 true (.int n) none := by
    show (st.heap.upd id { st.heap id with stl_resolution := .int n }) id = _
    rw [upd_self, s3]
    rfl
  have hch : ((withResolution st id n).heap id).children = [] := by unfold Comp.children; rw [w0]; rfl
  have hcs : (withResolution st id n).veh.components = [id] := by rw [withResolution, s2]; rfl
  obtain ⟨g, q1, q2⟩ := generate_plain_component lib depth _ st' (by rw [withResolution, s2]; rfl) (by rw [withResolution, s2]; rfl)
    (by rw [withResolution, s2]; rfl) ⟨by rw [hcs]; simp, fun k hk k' hk' => by
      rw [hcs] at hk hk'
      obtain rfl := List.mem_singleton.1 hk'
      rw [hch]; simp, fun k hk k' hk' hne => by
      rw [hcs] at hk hk'
      rw [List.mem_singleton] at hk hk'
      exact absurd (hk.trans hk'.symm) hne⟩ g1 id (by rw [hcs]; simp)
  have hex := quad_extrusion (wedgeX c) (wedgeY t) [-(w / 2), w / 2]
  rw [← wedge_sections] at hex
  have hl2 : 2 ≤ (Wedge.sections w c t).length := le_rfl
  have hcl := hex.closed fun ne hne => ⟨quad_closes _ ne hne, quad_closes _ ne hne⟩
  obtain ⟨m0, m1, m2⟩ := wedge_mirrored w c t
  have hpipe : st'.heap id = g id := by
    obtain ⟨P, R, T, e⟩ := generatePatches_opts (withResolution st id n).heap id (by rw [hch]; simp)
    rw [q1] at e
    change g id = _ at e
    rw [pipeline_plain (g id) (by rw [e, w0]; rfl) (by rw [e, w0]; rfl) (by rw [e, w0]; rfl) (by rw [e, w0]; rfl)] at q2
    exact (Prod.mk.inj q2).2.symm
  have hall : ∀ k, MirrorSymmetric k M.tris := by
    have key : ∀ k, (∃ c₁, Swept.init (Wedge.sections w c t) true (.int n) none = .ok c₁ ∧ ∀ (hp : Heap) (id : ℕ), hp id = c₁ → ∃ g M d,
        generatePatches hp id = (.ok (), g) ∧ (g id).mesh = (.ok M, d) ∧ (n = n → Closed M.tris) ∧ MirrorSymmetric k M.tris) →
        MirrorSymmetric k M.tris := by
      rintro k ⟨c₁, i1, hh⟩
      rw [s4 n hn] at i1
      obtain rfl := Except.ok.inj i1
      obtain ⟨g', M', d, k1, k2, -, k3⟩ := hh _ id w0
      rw [q1] at k1
      obtain rfl := (Prod.mk.inj k1).2
      rw [← hpipe, g2] at k2
      obtain rfl := Except.ok.inj (Prod.mk.inj k2).1
      exact k3
    intro k
    fin_cases k
    · exact key 0 (C129_profile 0 3 (by norm_num) _ m0 hl2 hex.len hex.total hcl (.int n) n n (.inl ⟨rfl, rfl⟩) hn hn none)
    · exact key 1 (C129_profile 1 1 (by norm_num) _ m1 hl2 hex.len hex.total hcl (.int n) n n (.inl ⟨rfl, rfl⟩) hn hn none)
    · exact key 2 (C129_swept 2 _ m2 hl2 hex.len hex.total hcl (.int n) n n (.inl ⟨rfl, rfl⟩) hn hn none)
  have hne : signedVolume M.tris ≠ 0 := by
    rw [g4]
    have : 0 < c * t * w / 2 := by positivity
    linarith
  refine ⟨st', M, c', g1, g2, hall, fun a st'' ha => ?_⟩
  obtain ⟨-, -, -, -, -, -, x, y, hv⟩ := generate_steps lib depth _ st' g1
  have hnamed : st'.veh.named = [("swept_1", id)] := by rw [hv]; exact h3
  have hb : List.Forall₂ (Solid [("swept_1", ρ)] st'.heap) st'.veh.named [(ρ, M.tris)] := by
    rw [hnamed]
    exact .cons ⟨M, c', g2, rfl, g3, by simp [Dict.get?]⟩ .nil
  have hmass : a.mass ≠ 0 := by
    rw [(C111_vehicle_partial lib hl.toNumpyStl depth st' st'' _ a (by rw [hv]) ha _ hb).2.1]
    simpa using ⟨hρ.ne', hne⟩
  constructor
  · have := fun k => C129_vehicle_partial lib hl.toNumpyStl depth st' st'' _ a (by rw [hv]) ha _ hb (by simpa using hne) hmass k (mirrorBalanced_one (hall k))
    obtain ⟨q, e, e0⟩ := this 0
    obtain ⟨q', e', e1⟩ := this 1
    obtain ⟨q'', e'', e2⟩ := this 2
    rw [e] at e' e''
    obtain rfl := Option.some.inj e'
    obtain rfl := Option.some.inj e''
    rw [e]
    congr 1
    ext
    · exact e0
    · exact e1
    · exact e2
  · have hT := C76_sums lib depth st' st'' _ a (by rw [hv]) ha
    have hcomp := hT.components
    rw [hnamed] at hcomp
    intro e he
    generalize a.components = cs at hcomp he
    cases hcomp with
    | cons h1 h2 =>
      cases h2
      rw [List.mem_singleton] at he
      subst he
      obtain ⟨-, M', c2, ρ', k1, k2, k3, -⟩ := h1
      rw [g2] at k1
      obtain rfl := Except.ok.inj (Prod.mk.inj k1).1
      have := fun k => C129_component lib hl M g3 k (hall k) ρ' _ k3 hne
      refine ⟨?_, fun i j hij => ((this i).2 j hij.symm).1⟩
      ext
      · exact (this 0).1
      · exact (this 1).1
      · exact (this 2).1

/-- The hypotheses of `C129_wedge` are met by the wedge without arguments; those of `C129_swept` and `C129_profile` by its sections. -/
example (h : Heap) (id depth : ℕ) : ∃ st, Wedge.instanceOf h id [] = .ok st ∧ ∀ n : ℕ, 1 ≤ n → ∃ st' M c',
    generate numpyStlFull depth (withResolution st id n) = (.ok (), st') ∧ (st'.heap id).mesh = (.ok M, c') ∧ ∀ k, MirrorSymmetric k M.tris := by
  obtain ⟨st, h1, h2⟩ := C129_wedge h id [] (by simp [Dict.keys]) 1 1 0.1 (.inr ⟨by simp, rfl⟩) (.inr ⟨by simp, rfl⟩)
    (.inr ⟨by simp, rfl⟩) (by norm_num) (by norm_num) (by norm_num) numpyStlFull numpyStlFull_ok depth 1000 (by norm_num)
  refine ⟨st, h1, fun n hn => ?_⟩
  obtain ⟨st', M, c', g1, g2, g3, -⟩ := h2 n hn
  exact ⟨st', M, c', g1, g2, g3⟩

/-- A closed mesh that is not symmetric: the corner of a cube at the origin. -/
example : ∃ m : TriMesh ℝ, Closed m ∧ signedVolume m ≠ 0 ∧ ¬ MirrorSymmetric 0 m := by
  refine ⟨[⟨⟨0, 0, 0⟩, ⟨0, 1, 0⟩, ⟨1, 0, 0⟩⟩, ⟨⟨0, 0, 0⟩, ⟨0, 0, 1⟩, ⟨0, 1, 0⟩⟩, ⟨⟨0, 0, 0⟩, ⟨1, 0, 0⟩, ⟨0, 0, 1⟩⟩, ⟨⟨1, 0, 0⟩, ⟨0, 1, 0⟩, ⟨0, 0, 1⟩⟩],
    ?_, ?_, fun h => ?_⟩
  · rw [closed_iff_edgeSum]
    intro φ hφ
    simp only [edges, List.flatMap_cons, List.flatMap_nil, triEdges, edgeSum, List.cons_append, List.nil_append, List.map_cons, List.map_nil,
      List.sum_cons, List.sum_nil, List.append_nil]
    rw [hφ ⟨0, 0, 0⟩ ⟨0, 1, 0⟩, hφ ⟨0, 0, 0⟩ ⟨1, 0, 0⟩, hφ ⟨0, 0, 0⟩ ⟨0, 0, 1⟩, hφ ⟨0, 1, 0⟩ ⟨1, 0, 0⟩, hφ ⟨0, 0, 1⟩ ⟨0, 1, 0⟩, hφ ⟨1, 0, 0⟩ ⟨0, 0, 1⟩]
    ring
  · simp [signedVolume, det3]
  · have := firstMoment_mirror h
    simp [firstMoment, coord, det3] at this

end HV
