import Verif.Props.Vehicle
import Verif.Props.Component

/-!
# C69, C74, C75: ghost components and STL files of a vehicle
-/

namespace HV
open Spec Veh

/-! ## Reading a mesh only fills the caches -/

theorem surface_frame (c : Comp) (r : Option Reso) : ∃ s, (c.surface r).2 = { c with surfaces := s } := by
  unfold Comp.surface
  split
  · exact ⟨c.surfaces, rfl⟩
  · split
    · exact ⟨c.surfaces, rfl⟩
    · unfold Comp.surfaceCases
      split
      · split <;> exact ⟨_, rfl⟩
      · exact ⟨_, rfl⟩

theorem combine_frame (c : Comp) : ∃ m, c.combine.2 = { c with mesh_ := m } := by
  unfold Comp.combine
  split
  · exact ⟨c.mesh_, rfl⟩
  · exact ⟨c.mesh_, rfl⟩
  · exact ⟨_, rfl⟩

theorem buildMesh_frame (c : Comp) : ∃ s m, c.buildMesh.2 = { c with surfaces := s, mesh_ := m } := by
  unfold Comp.buildMesh
  rcases hs : c.surfaces with _ | d
  · obtain ⟨s, h1⟩ := surface_frame c none
    rcases hc : c.surface with ⟨_ | _, c'⟩
    · rw [hc] at h1
      exact ⟨s, c.mesh_, by simpa using h1⟩
    · rw [hc] at h1
      obtain ⟨m, h2⟩ := combine_frame c'
      exact ⟨s, m, by simp only [h2]; simp only at h1; rw [h1]⟩
  · obtain ⟨m, h2⟩ := combine_frame c
    exact ⟨c.surfaces, m, by simpa using h2⟩

/-- Reading the mesh changes nothing but the cached surfaces and mesh. -/
theorem mesh_frame (c : Comp) : ∃ s m, c.mesh.2 = { c with surfaces := s, mesh_ := m } := by
  unfold Comp.mesh
  rcases hm : c.mesh_ with _ | M
  · obtain ⟨s, m, h⟩ := buildMesh_frame c; exact ⟨s, m, by simpa using h⟩
  · simp only
    by_cases h0 : M.tris.length ≠ 0
    · exact ⟨c.surfaces, c.mesh_, by simp [h0]⟩
    · obtain ⟨s, m, h⟩ := buildMesh_frame c; exact ⟨s, m, by rw [if_neg h0]; exact h⟩

theorem combine_stable (c : Comp) (m : StlMesh) (c' : Comp) (h : c.combine = (.ok m, c')) :
    c'.combine = (.ok m, c') ∧ c'.mesh_ = some m ∧ c'.surfaces ≠ none := by
  unfold Comp.combine at h ⊢
  rcases hs : c.surfaces with _ | d
  · simp [hs] at h
  · rcases d with _ | ⟨e, d⟩
    · simp [hs] at h
    · simp only [hs, Prod.mk.injEq, Except.ok.injEq] at h
      obtain ⟨h1, h2⟩ := h
      subst h2
      refine ⟨?_, by simp only [h1], by simp [hs]⟩
      simp only [hs, h1]

/-- Reading the mesh again gives the same mesh and changes nothing. -/
theorem mesh_stable (c : Comp) (m : StlMesh) (c' : Comp) (h : c.mesh = (.ok m, c')) : c'.mesh = (.ok m, c') := by
  have build : ∀ c : Comp, c.buildMesh = (.ok m, c') → c'.mesh = (.ok m, c') := by
    intro c h
    have hc : ∃ c0 : Comp, c0.combine = (.ok m, c') := by
      unfold Comp.buildMesh at h
      rcases hs : c.surfaces with _ | d
      · rw [hs] at h
        rcases hc : c.surface with ⟨_ | _, c1⟩
        · simp [hc] at h
        · simp only [hc] at h; exact ⟨c1, h⟩
      · rw [hs] at h; exact ⟨c, h⟩
    obtain ⟨c0, hc⟩ := hc
    obtain ⟨h1, h2, h3⟩ := combine_stable c0 m c' hc
    unfold Comp.mesh
    simp only [h2]
    by_cases h0 : m.tris.length ≠ 0
    · simp [h0]
    · rw [if_neg h0]
      unfold Comp.buildMesh
      rcases hs : c'.surfaces with _ | d
      · exact absurd hs h3
      · simpa using h1
  unfold Comp.mesh at h
  rcases hm : c.mesh_ with _ | M
  · simp only [hm] at h; exact build c h
  · simp only [hm] at h
    by_cases h0 : M.tris.length ≠ 0
    · simp only [h0, ne_eq, not_false_eq_true, if_true, Prod.mk.injEq, Except.ok.injEq] at h
      obtain ⟨rfl, rfl⟩ := h
      unfold Comp.mesh
      simp [hm, h0]
    · rw [if_neg h0] at h; exact build c h

/-! ## C69 -/

theorem toStl_frame (c : Comp) (f : Option String) : ∃ s m, (c.toStl f).2 = { c with surfaces := s, mesh_ := m } := by
  unfold Comp.toStl
  split
  · exact ⟨c.surfaces, c.mesh_, rfl⟩
  · obtain ⟨s, m, h⟩ := mesh_frame c
    rcases hc : c.mesh with ⟨_ | _, c'⟩ <;> (rw [hc] at h; exact ⟨s, m, by simpa using h⟩)

namespace Spec

/-- The documented STL file name of a component: prefix and tag, prefix, type and number, tag alone, or vehicle name, type
and number.  Empty strings count as absent. -/
def FileNamed (pre : Option String) (vname : String) (c : Comp) (no : ℕ) (file : String) : Prop :=
  (∀ p t, pre = some p → p ≠ "" → c.name = some t → t ≠ "" → file = p ++ "-" ++ t ++ ".stl") ∧
  (∀ p, pre = some p → p ≠ "" → (c.name = none ∨ c.name = some "") →
    file = p ++ "-" ++ c.componenttype ++ "-" ++ toString no ++ ".stl") ∧
  (∀ t, (pre = none ∨ pre = some "") → c.name = some t → t ≠ "" → file = t ++ ".stl") ∧
  ((pre = none ∨ pre = some "") → (c.name = none ∨ c.name = some "") →
    file = vname ++ "-" ++ c.componenttype ++ "-" ++ toString no ++ ".stl")

/-- The STL files among the effects of `to_stl`. -/
def stlFiles (ev : List FsEv) : List (String × StlMesh) :=
  ev.filterMap fun e => match e with | .stl f m => some (f, m) | _ => none

/-- The components of a list with the number of earlier components of the same type. -/
def numbered (ty : ℕ → String) : List ℕ → List ℕ → List (ℕ × ℕ)
  | _, [] => []
  | seen, k :: ks => (k, seen.countP fun j => ty j = ty k) :: numbered ty (seen ++ [k]) ks

end Spec

theorem stlName_spec (pre : Option String) (vname : String) (c : Comp) (no : ℕ) :
    FileNamed pre vname c no (stlName pre vname c no) := by
  unfold FileNamed stlName truthy
  rcases pre with _ | p <;> rcases hn : c.name with _ | t
  · simp
  · by_cases ht : t = "" <;> simp [ht]
  · by_cases hp : p = "" <;> simp [hp]
  · by_cases hp : p = "" <;> by_cases ht : t = "" <;> simp [hp, ht] <;> (intro p t; intros; simp_all)

theorem stlFiles_stlEvent (o : Option (String × StlMesh)) : stlFiles (stlEvent o) = o.toList := by
  rcases o with _ | ⟨f, m⟩ <;> rfl

theorem stlFiles_append (a b : List FsEv) : stlFiles (a ++ b) = stlFiles a ++ stlFiles b := by
  simp [stlFiles]

/-- The heaps `h` and `g` agree but for caches, and reading a mesh in `g` gives what it gives in `h`. -/
def SameBut (h g : Heap) : Prop := ∀ k, (∃ s m, g k = { h k with surfaces := s, mesh_ := m }) ∧
  ∀ M, (∃ c, (g k).mesh = (.ok M, c)) ↔ ∃ c, (h k).mesh = (.ok M, c)

theorem SameBut.refl (h : Heap) : SameBut h h := fun _ => ⟨⟨_, _, rfl⟩, fun _ => Iff.rfl⟩

theorem SameBut.upd {h g : Heap} (hg : SameBut h g) (k : ℕ) (M : StlMesh) (c : Comp) (hc : (g k).mesh = (.ok M, c)) :
    SameBut h (g.upd k c) := by
  intro j
  by_cases hj : j = k
  · subst hj
    rw [upd_self]
    obtain ⟨⟨s, m, e⟩, h2⟩ := hg j
    obtain ⟨s', m', e'⟩ := mesh_frame (g j)
    rw [hc] at e'
    simp only at e'
    refine ⟨⟨s', m', by rw [e', e]⟩, fun M' => ?_⟩
    rw [← h2 M', mesh_stable _ _ _ hc, hc]
  · rw [upd_ne _ _ _ _ hj]; exact hg j

theorem upd_eq_self (h : Heap) (k : ℕ) : h.upd k (h k) = h := by
  funext j
  by_cases hj : j = k
  · subst hj; rw [upd_self]
  · rw [upd_ne _ _ _ _ hj]

theorem writeAll_spec (pre : Option String) (vname : String) (h : Heap) (ks : List ℕ) :
    ∀ (seen : List ℕ) (no : Dict String ℕ) (g : Heap) (ev : List FsEv) (g' : Heap), SameBut h g →
      (∀ t, (no.get? t).getD 0 = seen.countP fun j => (h j).componenttype = t) →
      writeAll pre vname no g ks = (.ok (), ev, g') →
      SameBut h g' ∧ (∀ e ∈ ev, ∃ f m, e = FsEv.stl f m) ∧
      List.Forall₂ (fun k e => FileNamed pre vname (h k.1) k.2 e.1 ∧ ∃ c, (h k.1).mesh = (.ok e.2, c))
        ((numbered (fun k => (h k).componenttype) seen ks).filter fun k => !(h k.1).ghost) (stlFiles ev) := by
  induction ks with
  | nil =>
    intro seen no g ev g' hg hno hw
    simp only [writeAll, Prod.mk.injEq, true_and] at hw
    obtain ⟨rfl, rfl⟩ := hw
    refine ⟨hg, by simp, ?_⟩
    simp [numbered, stlFiles]
  | cons k ks ih =>
    intro seen no g ev g' hg hno hw
    obtain ⟨⟨s, m, e⟩, hmesh⟩ := hg k
    have ety : (g k).componenttype = (h k).componenttype := by rw [e]
    have egh : (g k).ghost = (h k).ghost := by rw [e]
    have hno' : ∀ t, ((no.set (g k).componenttype ((no.get? (g k).componenttype).getD 0 + 1)).get? t).getD 0 =
        (seen ++ [k]).countP fun j => (h j).componenttype = t := by
      intro t
      rw [Dict.get?_set, ety, List.countP_append]
      by_cases ht : (h k).componenttype = t
      · subst ht; simp [hno]
      · simp [ht, hno]
    rw [writeAll] at hw
    simp only at hw
    have eno : (no.get? (g k).componenttype).getD 0 = seen.countP fun j => (h j).componenttype = (h k).componenttype := by
      rw [ety]; exact hno _
    by_cases hgh : (h k).ghost = true
    · have ht : (g k).toStl (some (stlName pre vname (g k) ((no.get? (g k).componenttype).getD 0))) = (.ok none, g k) := by
        simp [Comp.toStl, egh, hgh]
      rw [ht] at hw
      simp only [stlEvent, List.nil_append, upd_eq_self, Prod.mk.injEq] at hw
      obtain ⟨w1, w2, w3⟩ := hw
      have := ih (seen ++ [k]) _ g ev g' hg hno' (by rw [← w1, ← w2, ← w3])
      obtain ⟨j1, j2, j3⟩ := this
      refine ⟨j1, j2, ?_⟩
      rw [numbered, List.filter_cons]
      simpa [hgh] using j3
    · have hgh' : (h k).ghost = false := by simpa using hgh
      rcases hc : (g k).mesh with ⟨x | M, c'⟩
      · have ht : (g k).toStl (some (stlName pre vname (g k) ((no.get? (g k).componenttype).getD 0))) = (.error x, c') := by
          simp [Comp.toStl, egh, hgh', hc]
        rw [ht] at hw
        simp at hw
      · have ht : (g k).toStl (some (stlName pre vname (g k) ((no.get? (g k).componenttype).getD 0))) =
            (.ok (some (stlName pre vname (g k) ((no.get? (g k).componenttype).getD 0), M)), c') := by
          simp [Comp.toStl, egh, hgh', hc]
        rw [ht] at hw
        simp only [stlEvent, Prod.mk.injEq] at hw
        obtain ⟨w1, w2, w3⟩ := hw
        obtain ⟨j1, j2, j3⟩ := ih (seen ++ [k]) _ (g.upd k c') _ g' (hg.upd k M c' hc) hno'
          (show _ = (Except.ok (), _, g') by rw [← w1, ← w3])
        refine ⟨j1, ?_, ?_⟩
        · rw [← w2]
          intro e he
          rcases List.mem_append.1 he with he | he
          · rw [List.mem_singleton] at he; exact ⟨_, _, he⟩
          · exact j2 e he
        · rw [numbered, List.filter_cons, ← w2, stlFiles_append]
          simp only [hgh', Bool.not_false, if_true]
          refine List.Forall₂.cons ⟨?_, (hmesh _).1 ⟨_, hc⟩⟩ j3
          have := stlName_spec pre vname (g k) ((no.get? (g k).componenttype).getD 0)
          rw [eno] at this
          rw [eno]
          have en : (g k).name = (h k).name := by rw [e]
          unfold FileNamed at this ⊢
          rwa [en, ety] at this

/-- C69 for `get_non_ghost_components`: exactly the named components that are not ghosts, in order. -/
theorem C69_non_ghost (st : VState) (hn : st.veh.named.keys.Nodup) :
    getNonGhostComponents st = st.veh.named.filter (fun e => !(st.heap e.2).ghost) ∧
    ∀ n id, (getNonGhostComponents st).get? n = some id ↔ st.veh.named.get? n = some id ∧ (st.heap id).ghost = false := by
  have key : ∀ (l d : Dict String ℕ), (d ++ l : Dict String ℕ).keys.Nodup →
      l.foldl (fun (d : Dict String ℕ) e => if (st.heap e.2).ghost then d else d.set e.1 e.2) d =
        d ++ l.filter fun e => !(st.heap e.2).ghost := by
    intro l
    induction l with
    | nil => intro d _; simp
    | cons e l ih =>
      intro d hd
      rw [List.foldl_cons]
      have hd' : d.keys ++ e.1 :: Dict.keys l = (d ++ e :: l : Dict String ℕ).keys := by simp [Dict.keys]
      rw [← hd'] at hd
      by_cases hg : (st.heap e.2).ghost = true
      · rw [if_pos hg, ih d]
        · simp [hg]
        · have : (d ++ l : Dict String ℕ).keys = d.keys ++ Dict.keys l := by simp [Dict.keys]
          rw [this]
          exact (List.nodup_middle.1 hd).of_cons
      · rw [if_neg hg, Dict.set_not_mem, ih]
        · simp [hg]
        · rw [show ((d ++ [(e.1, e.2)] : Dict String ℕ) ++ l : Dict String ℕ).keys = d.keys ++ e.1 :: Dict.keys l by
            simp [Dict.keys]]
          exact hd
        · intro hmem
          exact (List.nodup_append.1 hd).2.2 e.1 hmem e.1 (by simp) rfl
  have h1 : getNonGhostComponents st = st.veh.named.filter (fun e => !(st.heap e.2).ghost) := by
    have := key st.veh.named [] (by simpa using hn)
    rw [List.nil_append] at this
    exact this
  refine ⟨h1, fun n id => ?_⟩
  rw [h1, Dict.get?_iff_mem, Dict.get?_iff_mem hn, List.mem_filter]
  · simp
  · exact hn.sublist (List.filter_sublist.map _)

/-- C69 for `to_stl`: when it succeeds, the STL files written are, in order, one for each component that is not a ghost,
under its documented name, holding the component's mesh; no other file is an STL file, and a component keeps everything but
its caches. -/
theorem C69_files (st : VState) (pre : Option String) (merge : MergeArg) (ev : List FsEv) (st' : VState)
    (h : toStl st pre merge = (.ok (), ev, st')) :
    List.Forall₂ (fun k e => FileNamed pre st.veh.name (st.heap k.1) k.2 e.1 ∧ ∃ c, (st.heap k.1).mesh = (.ok e.2, c))
      ((numbered (fun k => (st.heap k).componenttype) [] st.veh.components).filter fun k => !(st.heap k.1).ghost)
      (stlFiles ev) ∧
    st'.veh = st.veh ∧ ∀ k, ∃ s m, st'.heap k = { st.heap k with surfaces := s, mesh_ := m } := by
  unfold toStl at h
  rcases hw : writeAll pre st.veh.name [] st.heap st.veh.components with ⟨_ | _, ev', g⟩
  · simp [hw] at h
  · obtain ⟨h1, _, h2⟩ := writeAll_spec pre st.veh.name st.heap st.veh.components [] [] st.heap ev' g (SameBut.refl _)
      (by simp [Dict.get?]) hw
    rw [hw] at h
    simp only [Prod.mk.injEq] at h
    obtain ⟨_, h3, h4⟩ := h
    subst h4
    refine ⟨?_, rfl, fun k => (h1 k).1⟩
    rw [← h3]
    have z1 : ∀ p, stlFiles (resultEvents st.veh p) = [] := by
      intro p; unfold resultEvents; split <;> rfl
    have z2 : ∀ p, stlFiles (propertyEvents st.veh p) = [] := by
      intro p; unfold propertyEvents; split <;> rfl
    have z3 : ∀ p, stlFiles (mergeStep ⟨g, st.veh⟩ p merge).2 = [] := by
      intro p
      rcases merge with (_ | _) | (_ | ⟨_, _⟩) <;> rfl
    simp only [stlFiles_append, z1, z2, z3, List.append_nil]
    exact h2

/-- `to_stl` succeeds when every component that is not a ghost can be meshed, unless a list of names is to be merged. -/
theorem toStl_total (st : VState) (pre : Option String) (merge : Bool)
    (hm : ∀ k ∈ st.veh.components, (st.heap k).ghost = false → ∃ M c, (st.heap k).mesh = (.ok M, c)) :
    ∃ ev st', toStl st pre (.bool merge) = (.ok (), ev, st') := by
  have key : ∀ (ks : List ℕ) (no : Dict String ℕ) (g : Heap), SameBut st.heap g →
      (∀ k ∈ ks, (st.heap k).ghost = false → ∃ M c, (st.heap k).mesh = (.ok M, c)) →
      (writeAll pre st.veh.name no g ks).1 = .ok () := by
    intro ks
    induction ks with
    | nil => intro no g _ _; rfl
    | cons k ks ih =>
      intro no g hg hm
      obtain ⟨⟨s, m, e⟩, hmesh⟩ := hg k
      have egh : (g k).ghost = (st.heap k).ghost := by rw [e]
      rw [writeAll]
      by_cases hgh : (st.heap k).ghost = true
      · have ht : ∀ f, (g k).toStl f = (.ok none, g k) := by simp [Comp.toStl, egh, hgh]
        simp only [ht, upd_eq_self]
        exact ih _ _ hg fun j hj => hm j (List.mem_cons_of_mem _ hj)
      · have hgh' : (st.heap k).ghost = false := by simpa using hgh
        obtain ⟨M, c, hc⟩ := hm k (by simp) hgh'
        obtain ⟨c', hc'⟩ := (hmesh M).2 ⟨c, hc⟩
        have ht : ∀ f, (g k).toStl (some f) = (.ok (some (f, M)), c') := by
          simp [Comp.toStl, egh, hgh', hc']
        simp only [ht]
        exact ih _ _ (hg.upd k M c' hc') fun j hj => hm j (List.mem_cons_of_mem _ hj)
  have h1 := key st.veh.components [] st.heap (SameBut.refl _) hm
  rcases hw : writeAll pre st.veh.name [] st.heap st.veh.components with ⟨_ | _, ev, g⟩
  · rw [hw] at h1; simp at h1
  · unfold toStl
    rw [hw]
    rcases merge with _ | _ <;> exact ⟨_, _, rfl⟩

/-- A component with the patch of `demoComp`, empty caches and default options can be meshed. -/
theorem demo_mesh (c : Comp) (hp : c.patches = demoComp.patches) (hm : c.mesh_ = none) (hs : c.surfaces = none)
    (hr : c.stl_resolution = .int 2) (hcl : c.clustering = {}) : ∃ M c', c.mesh = (.ok M, c') := by
  obtain ⟨_, _, m, _, _, h1, _⟩ := C40_default_mesh (fun r s => ⟨r, s, 0⟩) 2 2 (by norm_num) (by norm_num) {} rfl rfl
    one_pos one_pos
  obtain ⟨M, c', h, _⟩ := (C52_mesh c 2 (by norm_num) hr hm hs (by rw [hp]; simp [demoComp])
    (by rw [hp]; simp [demoComp])).1 m ⟨[m], by rw [hp, hcl]; simpa [demoComp] using h1, by simp⟩
  exact ⟨M, c', h⟩

/-- A vehicle of two generated wings, the names of which are given, the second one a ghost if wanted. -/
noncomputable def demoVehicle (a b : Option String) (ghost : Bool) : VState :=
  ⟨fun k => if k = 0 then { demoComp with name := a } else { demoComp with name := b, ghost := ghost },
   { components := [0, 1], named := [(a.getD "wing_1", 0), (b.getD "wing_2", 1)], generated := true }⟩

theorem demoVehicle_files (a b : Option String) (ghost : Bool) (pre : Option String) (merge : Bool) :
    ∃ ev st', toStl (demoVehicle a b ghost) pre (.bool merge) = (.ok (), ev, st') := by
  apply toStl_total
  intro k _ _
  by_cases hk : k = 0
  · subst hk; exact demo_mesh _ rfl rfl rfl rfl rfl
  · simp only [demoVehicle, if_neg hk]; exact demo_mesh _ rfl rfl rfl rfl rfl

/-- A vehicle with a ghost meets the hypotheses of C69. -/
example : (demoVehicle none none true).veh.named.keys.Nodup ∧ ((demoVehicle none none true).heap 1).ghost = true ∧
    ∃ ev st', toStl (demoVehicle none none true) (some "p") (.bool true) = (.ok (), ev, st') :=
  ⟨by simp [demoVehicle, Dict.keys], by simp [demoVehicle], demoVehicle_files _ _ _ _ _⟩

/-! ## C74 -/

/-- The name does not end in a hyphen and a number. -/
def Spec.NotNumbered (t : String) : Prop := ∀ s i, t ≠ s ++ "-" ++ toString (i : ℕ)

theorem numbered_ge (ty : ℕ → String) (ks : List ℕ) : ∀ (seen : List ℕ), ∀ b ∈ numbered ty seen ks,
    (seen.countP fun j => ty j = ty b.1) ≤ b.2 ∧ b.1 ∈ ks := by
  induction ks with
  | nil => intro seen b hb; simp [numbered] at hb
  | cons k ks ih =>
    intro seen b hb
    rw [numbered, List.mem_cons] at hb
    rcases hb with rfl | hb
    · exact ⟨le_rfl, by simp⟩
    · obtain ⟨h1, h2⟩ := ih _ b hb
      rw [List.countP_append] at h1
      exact ⟨by omega, by simp [h2]⟩

theorem numbered_pairwise (ty : ℕ → String) (ks : List ℕ) (hn : ks.Nodup) : ∀ (seen : List ℕ),
    (numbered ty seen ks).Pairwise fun a b => a.1 ≠ b.1 ∧ (ty a.1 = ty b.1 → a.2 < b.2) := by
  induction ks with
  | nil => intro seen; simp [numbered]
  | cons k ks ih =>
    intro seen
    rw [List.nodup_cons] at hn
    rw [numbered, List.pairwise_cons]
    refine ⟨fun b hb => ?_, ih hn.2 _⟩
    obtain ⟨h1, h2⟩ := numbered_ge ty ks _ b hb
    refine ⟨fun e => hn.1 (by simp only at e; rw [e]; exact h2), fun e => ?_⟩
    rw [List.countP_append] at h1
    simp only [e, List.countP_singleton, decide_true, if_true] at h1 ⊢
    omega

theorem hyphen_not_digit (n : ℕ) : '-' ∉ Nat.toDigits 10 n := by
  intro h
  have := Nat.isDigit_of_mem_toDigits (by norm_num) (by norm_num) h
  revert this; decide

/-- `f"{a}-{i}"` determines the text and the number. -/
theorem hyphen_inj {a b : String} {i j : ℕ} (h : a ++ "-" ++ toString i = b ++ "-" ++ toString j) : a = b ∧ i = j := by
  have h' := congrArg String.toList h
  simp only [String.toList_append, toString_nat_toList] at h'
  have e : ("-" : String).toList = ['-'] := rfl
  rw [e, List.append_assoc, List.append_assoc] at h'
  obtain ⟨h1, h2⟩ := append_sep_inj (hyphen_not_digit i) (hyphen_not_digit j) h'
  exact ⟨String.toList_inj.1 h1, toDigits_inj h2⟩

theorem append_left_inj' {a b c : String} (h : c ++ a = c ++ b) : a = b := by
  have := congrArg String.toList h
  rw [String.toList_append, String.toList_append] at this
  exact String.toList_inj.1 (List.append_cancel_left this)

/-- A documented file name consists of a common part, an individual part and the suffix. -/
theorem fileNamed_core (pre : Option String) (vname : String) : ∃ A Q : String, ∀ (c : Comp) (no : ℕ) (f : String),
    FileNamed pre vname c no f →
      (∃ t, c.name = some t ∧ t ≠ "" ∧ f = A ++ t ++ ".stl") ∨
      ((c.name = none ∨ c.name = some "") ∧ f = A ++ (Q ++ c.componenttype ++ "-" ++ toString no) ++ ".stl") := by
  by_cases hp : pre = none ∨ pre = some ""
  · refine ⟨"", vname ++ "-", fun c no f h => ?_⟩
    rcases hn : c.name with _ | t
    · right
      refine ⟨.inl rfl, ?_⟩
      rw [h.2.2.2 hp (.inl hn)]; simp
    · by_cases ht : t = ""
      · subst ht
        right
        refine ⟨.inr rfl, ?_⟩
        rw [h.2.2.2 hp (.inr hn)]; simp
      · left
        refine ⟨t, rfl, ht, ?_⟩
        rw [h.2.2.1 t hp hn ht]; simp
  · obtain ⟨p, rfl⟩ : ∃ p, pre = some p := by
      rcases pre with _ | p
      · simp at hp
      · exact ⟨p, rfl⟩
    have hp' : p ≠ "" := fun e => hp (.inr (by rw [e]))
    refine ⟨p ++ "-", "", fun c no f h => ?_⟩
    rcases hn : c.name with _ | t
    · right
      refine ⟨.inl rfl, ?_⟩
      rw [h.2.1 p rfl hp' (.inl hn)]; simp [String.append_assoc]
    · by_cases ht : t = ""
      · subst ht
        right
        refine ⟨.inr rfl, ?_⟩
        rw [h.2.1 p rfl hp' (.inr hn)]; simp [String.append_assoc]
      · left
        refine ⟨t, rfl, ht, ?_⟩
        rw [h.1 p t rfl hp' hn ht]

theorem forall2_pairwise {α β : Type} {R : α → β → Prop} {S : α → α → Prop} {T : β → β → Prop} {l : List α} {m : List β}
    (h : List.Forall₂ R l m) (hl : l.Pairwise S) (hT : ∀ a ∈ l, ∀ a' ∈ l, ∀ b b', S a a' → R a b → R a' b' → T b b') :
    m.Pairwise T := by
  induction h with
  | nil => exact List.Pairwise.nil
  | @cons a b l m hab hlm ih =>
    rw [List.pairwise_cons] at hl ⊢
    refine ⟨fun b' hb' => ?_, ih hl.2 fun x hx y hy => hT x (by simp [hx]) y (by simp [hy])⟩
    obtain ⟨i, hi, rfl⟩ := List.getElem_of_mem hb'
    have hi' : i < l.length := by rw [hlm.length_eq]; exact hi
    exact hT a (by simp) (l[i]) (by simp) b _ (hl.1 _ (List.getElem_mem hi')) hab (hlm.get hi' hi)

/-- C74, the part that holds: when each component object is listed once, tags are distinct, and no tag ends in a hyphen and
a number, the files of different components have different names, with and without a prefix.  Missing: repeated tags and
tags that look like generated names (see `C74_violated`). -/
theorem C74_partial (st : VState) (pre : Option String) (merge : MergeArg) (ev : List FsEv) (st' : VState)
    (h : toStl st pre merge = (.ok (), ev, st')) (hids : st.veh.components.Nodup)
    (htags : ∀ a ∈ st.veh.components, ∀ b ∈ st.veh.components, ∀ t, t ≠ "" → (st.heap a).name = some t →
      (st.heap b).name = some t → a = b)
    (hnn : ∀ a ∈ st.veh.components, ∀ t, (st.heap a).name = some t → NotNumbered t) :
    ((stlFiles ev).map Prod.fst).Nodup := by
  obtain ⟨h1, _⟩ := C69_files st pre merge ev st' h
  obtain ⟨A, Q, hcore⟩ := fileNamed_core pre st.veh.name
  have hmem : ∀ a ∈ (numbered (fun k => (st.heap k).componenttype) [] st.veh.components).filter
      (fun k => !(st.heap k.1).ghost), a.1 ∈ st.veh.components := fun a ha =>
    (numbered_ge _ _ _ a (List.mem_of_mem_filter ha)).2
  have hpw := ((numbered_pairwise (fun k => (st.heap k).componenttype) st.veh.components hids []).filter
    (fun k => !(st.heap k.1).ghost))
  rw [List.nodup_iff_pairwise_ne, List.pairwise_map]
  refine forall2_pairwise h1 hpw fun a ha b hb e e' ⟨hne, hlt⟩ ⟨ra, _⟩ ⟨rb, _⟩ heq => ?_
  have cancel : ∀ x y : String, A ++ x ++ ".stl" = A ++ y ++ ".stl" → x = y := fun x y h =>
    append_left_inj' (append_right_inj' h)
  rcases hcore _ _ _ ra with ⟨t, n1, n2, e1⟩ | ⟨n1, e1⟩ <;> rcases hcore _ _ _ rb with ⟨u, m1, m2, e2⟩ | ⟨m1, e2⟩
  · have := cancel t u (e1.symm.trans (heq.trans e2))
    subst this
    exact hne (htags a.1 (hmem a ha) b.1 (hmem b hb) t n2 n1 m1)
  · have := cancel _ _ (e1.symm.trans (heq.trans e2))
    exact hnn a.1 (hmem a ha) t n1 _ _ this
  · have := cancel _ _ (e1.symm.trans (heq.trans e2))
    exact hnn b.1 (hmem b hb) u m1 _ _ this.symm
  · have := cancel _ _ (e1.symm.trans (heq.trans e2))
    obtain ⟨h2, h3⟩ := hyphen_inj this
    have := hlt (append_left_inj' h2)
    omega

theorem notNumbered_of (t : String) (h : '-' ∉ t.toList) : NotNumbered t := by
  intro s i e
  apply h
  rw [e]; simp

/-- A vehicle with a tagged and an untagged component meets the hypotheses. -/
example : (demoVehicle (some "left") none false).veh.components.Nodup ∧
    (∃ ev st', toStl (demoVehicle (some "left") none false) none (.bool false) = (.ok (), ev, st')) ∧
    (∀ a ∈ (demoVehicle (some "left") none false).veh.components,
      ∀ t, ((demoVehicle (some "left") none false).heap a).name = some t → NotNumbered t) := by
  refine ⟨by simp [demoVehicle], demoVehicle_files _ _ _ _ _, ?_⟩
  intro a ha t ht
  simp [demoVehicle] at ha ht
  rcases ha with rfl | rfl
  · simp at ht; subst ht; exact notNumbered_of _ (by decide)
  · simp [demoComp] at ht

/-- The STL files of the demonstration vehicle. -/
theorem demoVehicle_stl (a b : Option String) (pre : Option String) (merge : MergeArg) (ev : List FsEv) (st' : VState)
    (h : toStl (demoVehicle a b false) pre merge = (.ok (), ev, st')) :
    ∃ f g M N, stlFiles ev = [(f, M), (g, N)] ∧
      FileNamed pre "vehicle" { demoComp with name := a } 0 f ∧ FileNamed pre "vehicle" { demoComp with name := b } 1 g := by
  obtain ⟨h1, _⟩ := C69_files _ _ _ _ _ h
  have e : (numbered (fun k => ((demoVehicle a b false).heap k).componenttype) []
      (demoVehicle a b false).veh.components).filter (fun k => !((demoVehicle a b false).heap k.1).ghost) =
      [(0, 0), (1, 1)] := by
    simp [demoVehicle, numbered, demoComp]
  rw [e] at h1
  generalize stlFiles ev = fs at h1 ⊢
  cases h1 with
  | @cons _ x _ fs1 h1 h2 =>
    cases h2 with
    | @cons _ y _ fs2 h2 h3 =>
      cases h3
      refine ⟨x.1, y.1, x.2, y.2, rfl, ?_, ?_⟩
      · simpa [demoVehicle] using h1.1
      · have := h2.1
        simp [demoVehicle] at this
        simpa [demoComp] using this

/-- C74 fails: two components with the same tag are written to the same file. -/
theorem C74_violated : ¬ ∀ (st : VState) (pre : Option String) (merge : MergeArg) (ev : List FsEv) (st' : VState),
    st.veh.components.Nodup → toStl st pre merge = (.ok (), ev, st') → ((stlFiles ev).map Prod.fst).Nodup := by
  intro H
  obtain ⟨ev, st', h⟩ := demoVehicle_files (some "w") (some "w") false none false
  obtain ⟨f, g, M, N, e, hf, hg⟩ := demoVehicle_stl _ _ _ _ _ _ h
  have := H _ _ _ _ _ (by simp [demoVehicle]) h
  rw [e] at this
  have ef := hf.2.2.1 "w" (.inl rfl) rfl (by decide)
  have eg := hg.2.2.1 "w" (.inl rfl) rfl (by decide)
  simp [ef, eg] at this

/-- C74 fails also when a tag looks like the generated name of another component. -/
theorem C74_generated_violated : ¬ ∀ (st : VState) (ev : List FsEv) (st' : VState),
    st.veh.components.Nodup → (∀ a ∈ st.veh.components, ∀ b ∈ st.veh.components, ∀ t, (st.heap a).name = some t →
      (st.heap b).name = some t → a = b) → toStl st none (.bool false) = (.ok (), ev, st') →
    ((stlFiles ev).map Prod.fst).Nodup := by
  intro H
  obtain ⟨ev, st', h⟩ := demoVehicle_files (some "vehicle-wing-1") none false none false
  obtain ⟨f, g, M, N, e, hf, hg⟩ := demoVehicle_stl _ _ _ _ _ _ h
  have := H _ _ _ (by simp [demoVehicle]) (by
    intro a ha b hb t h1 h2
    simp [demoVehicle] at ha hb
    rcases ha with rfl | rfl <;> rcases hb with rfl | rfl <;> simp [demoVehicle, demoComp] at h1 h2 ⊢) h
  rw [e] at this
  have ef := hf.2.2.1 _ (.inl rfl) rfl (by decide)
  have eg := hg.2.2.2 (.inl rfl) (.inl rfl)
  have : f ≠ g := by simpa using this
  apply this
  rw [ef, eg]
  rfl

/-! ## C75 -/

/-- C75, the part that holds: without a prefix, if every component is listed once under its tag, the merge step is called
once, with the vehicle's name and exactly the STL files just written, in the order they were written.  Missing: prefixes and
components without a tag (see `C75_prefix_violated` and `C75_untagged_violated`). -/
theorem C75_partial (st : VState) (pre : Option String) (hp : pre = none ∨ pre = some "") (ev : List FsEv) (st' : VState)
    (h : toStl st pre (.bool true) = (.ok (), ev, st')) (hnamed : st.veh.named.map Prod.snd = st.veh.components)
    (htag : ∀ e ∈ st.veh.named, (st.heap e.2).name = some e.1 ∧ e.1 ≠ "") :
    (ev.filterMap fun e => match e with | .merge files name => some (files, name) | _ => none) =
      [((stlFiles ev).map Prod.fst, st.veh.name)] := by
  obtain ⟨h1, _, h3⟩ := C69_files st pre _ ev st' h
  unfold toStl at h
  rcases hw : writeAll pre st.veh.name [] st.heap st.veh.components with ⟨_ | _, ev', g⟩
  · simp [hw] at h
  · rw [hw] at h
    simp only [Prod.mk.injEq] at h
    obtain ⟨_, h4, h5⟩ := h
    obtain ⟨_, hstl, _⟩ := writeAll_spec pre st.veh.name st.heap st.veh.components [] [] st.heap ev' g (SameBut.refl _)
      (by simp [Dict.get?]) hw
    have z0 : (ev'.filterMap fun e => match e with | .merge files name => some (files, name) | _ => none) = [] := by
      rw [List.filterMap_eq_nil_iff]
      intro e he
      obtain ⟨f, m, rfl⟩ := hstl e he
      rfl
    have z1 : ∀ p, ((resultEvents st.veh p).filterMap fun e => match e with
        | .merge files name => some (files, name) | _ => none) = [] := by
      intro p; unfold resultEvents; split <;> rfl
    have z2 : ∀ p, ((propertyEvents st.veh p).filterMap fun e => match e with
        | .merge files name => some (files, name) | _ => none) = [] := by
      intro p; unfold propertyEvents; split <;> rfl
    have hpo : prefixOr pre st.veh.name = st.veh.name := by
      rcases hp with rfl | rfl <;> simp [prefixOr, truthy]
    conv_lhs => rw [← h4]
    rw [List.filterMap_append, List.filterMap_append, List.filterMap_append, z0, z1, z2, hpo]
    simp only [mergeStep, List.nil_append, List.filterMap_cons, List.filterMap_nil, List.cons.injEq, Prod.mk.injEq,
      and_true]
    -- the two lists of names
    have hst' : st' = ⟨g, st.veh⟩ := h5.symm
    have hgh : ∀ k, (g k).ghost = (st.heap k).ghost := by
      intro k
      obtain ⟨s, m, e⟩ := h3 k
      rw [hst'] at e
      simp only at e
      rw [e]
    unfold mergeFiles
    simp only [hgh]
    have hnum : ((numbered (fun k => (st.heap k).componenttype) [] st.veh.components).filter
        fun k => !(st.heap k.1).ghost).map Prod.fst = (st.veh.named.filter fun e => !(st.heap e.2).ghost).map Prod.snd := by
      have n1 : ∀ (ks seen : List ℕ), (numbered (fun k => (st.heap k).componenttype) seen ks).map Prod.fst = ks := by
        intro ks
        induction ks with
        | nil => intro seen; rfl
        | cons k ks ih => intro seen; rw [numbered, List.map_cons, ih]
      have f1 := List.filter_map (f := Prod.fst) (p := fun k => !(st.heap k).ghost)
        (l := numbered (fun k => (st.heap k).componenttype) [] st.veh.components)
      have f2 := List.filter_map (f := Prod.snd) (p := fun k => !(st.heap k).ghost) (l := st.veh.named)
      rw [n1] at f1
      rw [hnamed] at f2
      rw [f1] at f2
      exact f2
    have hmem : ∀ e ∈ st.veh.named.filter fun e => !(st.heap e.2).ghost, e ∈ st.veh.named :=
      fun e he => List.mem_of_mem_filter he
    generalize (numbered (fun k => (st.heap k).componenttype) [] st.veh.components).filter
        (fun k => !(st.heap k.1).ghost) = L at h1 hnum
    generalize st.veh.named.filter (fun e => !(st.heap e.2).ghost) = N at hnum hmem
    generalize stlFiles ev = F at h1
    clear hw h4 hstl z0
    induction h1 generalizing N with
    | nil =>
      rcases N with _ | ⟨e, N⟩
      · rfl
      · simp at hnum
    | @cons a b L F hab _ ih =>
      rcases N with _ | ⟨e, N⟩
      · simp at hnum
      · simp only [List.map_cons, List.cons.injEq] at hnum ⊢
        refine ⟨?_, ih N hnum.2 fun e he => hmem e (List.mem_cons_of_mem _ he)⟩
        obtain ⟨t1, t2⟩ := htag e (hmem e (by simp))
        have := hab.1.2.2.1 e.1 hp (by rw [hnum.1]; exact t1) t2
        rw [this]

/-- Two tagged components meet the hypotheses. -/
example : ∃ ev st', toStl (demoVehicle (some "a") (some "b") false) none (.bool true) = (.ok (), ev, st') ∧
    (demoVehicle (some "a") (some "b") false).veh.named.map Prod.snd =
      (demoVehicle (some "a") (some "b") false).veh.components ∧
    ∀ e ∈ (demoVehicle (some "a") (some "b") false).veh.named,
      ((demoVehicle (some "a") (some "b") false).heap e.2).name = some e.1 ∧ e.1 ≠ "" := by
  obtain ⟨ev, st', h⟩ := demoVehicle_files (some "a") (some "b") false none true
  refine ⟨ev, st', h, rfl, ?_⟩
  intro e he
  simp [demoVehicle] at he
  rcases he with rfl | rfl <;> simp [demoVehicle] <;> decide

/-- The merge call of the demonstration vehicle. -/
theorem demoVehicle_merge (a b : Option String) (pre : Option String) (ev : List FsEv) (st' : VState)
    (h : toStl (demoVehicle a b false) pre (.bool true) = (.ok (), ev, st')) :
    ∃ p, FsEv.merge [a.getD "wing_1" ++ ".stl", b.getD "wing_2" ++ ".stl"] p ∈ ev := by
  obtain ⟨_, _, h3⟩ := C69_files _ pre _ ev st' h
  unfold toStl at h
  rcases hw : writeAll pre (demoVehicle a b false).veh.name [] (demoVehicle a b false).heap
    (demoVehicle a b false).veh.components with ⟨_ | _, ev', g⟩
  · simp [hw] at h
  · rw [hw] at h
    simp only [Prod.mk.injEq] at h
    obtain ⟨_, h4, h5⟩ := h
    refine ⟨prefixOr pre (demoVehicle a b false).veh.name, ?_⟩
    rw [← h4]
    apply List.mem_append_right
    have hgh : ∀ k, (g k).ghost = false := by
      intro k
      obtain ⟨s, m, e⟩ := h3 k
      rw [← h5] at e
      simp only at e
      rw [e]
      by_cases hk : k = 0 <;> simp [demoVehicle, demoComp, hk]
    simp [mergeStep, mergeFiles, demoVehicle, hgh]

/-- C75 fails with a prefix: the files merged are not the files written, none of them is. -/
theorem C75_prefix_violated : ∃ (st : VState) (ev : List FsEv) (st' : VState) (files : List String) (p : String),
    st.veh.named.map Prod.snd = st.veh.components ∧ (∀ e ∈ st.veh.named, (st.heap e.2).name = some e.1) ∧
    toStl st (some "p") (.bool true) = (.ok (), ev, st') ∧ FsEv.merge files p ∈ ev ∧ files ≠ [] ∧
    ∀ f ∈ files, f ∉ (stlFiles ev).map Prod.fst := by
  obtain ⟨ev, st', h⟩ := demoVehicle_files (some "a") (some "b") false (some "p") true
  obtain ⟨p, hp⟩ := demoVehicle_merge _ _ _ _ _ h
  obtain ⟨f, g, M, N, e, hf, hg⟩ := demoVehicle_stl _ _ _ _ _ _ h
  refine ⟨_, ev, st', _, p, rfl, ?_, h, hp, by simp, ?_⟩
  · intro e he
    simp [demoVehicle] at he
    rcases he with rfl | rfl <;> simp [demoVehicle]
  · rw [e]
    rw [hf.1 "p" "a" rfl (by decide) rfl (by decide), hg.1 "p" "b" rfl (by decide) rfl (by decide)]
    simp only [List.map_cons, List.map_nil]
    decide

/-- C75 fails for untagged components: the files merged have the names of `_named_components`, the files written have other
names. -/
theorem C75_untagged_violated : ∃ (st : VState) (ev : List FsEv) (st' : VState) (files : List String) (p : String),
    st.veh.named.map Prod.snd = st.veh.components ∧
    toStl st none (.bool true) = (.ok (), ev, st') ∧ FsEv.merge files p ∈ ev ∧ files ≠ [] ∧
    ∀ f ∈ files, f ∉ (stlFiles ev).map Prod.fst := by
  obtain ⟨ev, st', h⟩ := demoVehicle_files none none false none true
  obtain ⟨p, hp⟩ := demoVehicle_merge _ _ _ _ _ h
  obtain ⟨f, g, M, N, e, hf, hg⟩ := demoVehicle_stl _ _ _ _ _ _ h
  refine ⟨_, ev, st', _, p, rfl, h, hp, by simp, ?_⟩
  rw [e]
  rw [hf.2.2.2 (.inl rfl) (.inl rfl), hg.2.2.2 (.inl rfl) (.inl rfl)]
  simp only [List.map_cons, List.map_nil]
  show ∀ f ∈ ["wing_1" ++ ".stl", "wing_2" ++ ".stl"], f ∉ ["vehicle-wing-0.stl", "vehicle-wing-1.stl"]
  decide

end HV
