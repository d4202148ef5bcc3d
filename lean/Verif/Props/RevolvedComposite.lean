import Verif.Props.RevolvedVolume
import Verif.Lemmas.VehicleFrame

/-!
# C104: composites of revolved parts
-/

namespace HV
open Spec

/-- The ring through a point: one full turn about the `x` axis in steps of `90/n` degrees, as an edge sum. -/
noncomputable def ringSum (φ : V → V → ℤ) (n : ℕ) (v : V) : ℤ :=
  ((List.range 4).map fun (k : ℕ) => pathSum φ (fun j => revolveRot ((k * Real.pi / 2) * (1 - (j : ℝ) / n) +
    (((k : ℝ) + 1) * Real.pi / 2) * ((j : ℝ) / n)) v) n).sum

theorem ringSum_axis (φ : V → V → ℤ) (hφ : Anti φ) (n : ℕ) (v : V) (hy : v.y = 0) (hz : v.z = 0) : ringSum φ n v = 0 := by
  unfold ringSum
  apply List.sum_eq_zero
  intro x hx
  obtain ⟨k, -, rfl⟩ := List.mem_map.1 hx
  rw [show (fun j : ℕ => revolveRot ((k * Real.pi / 2) * (1 - (j : ℝ) / n) + (((k : ℝ) + 1) * Real.pi / 2) * ((j : ℝ) / n)) v) =
    fun _ => (⟨v.x, 0, 0⟩ : V) by funext j; simp [revolveRot, hy, hz]]
  exact pathSum_const φ hφ (fun a ha => zmul_tf ha) _ n

/-- The boundary of the four quarters: the ring at the end minus the ring at the beginning. -/
theorem revolve_boundary (φ : V → V → ℤ) (f : ℝ → V) (n : ℕ) (hn : 1 ≤ n) :
    (((List.range 4).map (revolveGrid f n)).map (bdry φ n n)).sum = ringSum φ n (f 1) - ringSum φ n (f 0) := by
  have hn0 : (n : ℝ) ≠ 0 := by positivity
  set P := revolveGrid f n with hP
  have hseam : ∀ k : ℕ, pathSum φ (fun i => P k i n) n = pathSum φ (fun i => P (k + 1) i 0) n := by
    intro k
    apply pathSum_congr
    intro i _
    simp only [hP, revolveGrid]
    congr 1
    rw [div_self hn0]
    push_cast
    simp
  have hlast : pathSum φ (fun i => P 4 i 0) n = pathSum φ (fun i => P 0 i 0) n := by
    apply pathSum_congr
    intro i _
    simp only [hP, revolveGrid, revolveRot]
    have : ((4 : ℕ) : ℝ) * Real.pi / 2 * (1 - ((0 : ℕ) : ℝ) / n) + (((4 : ℕ) : ℝ) + 1) * Real.pi / 2 * (((0 : ℕ) : ℝ) / n)
        = 2 * Real.pi := by simp; ring
    rw [this]
    simp [Real.cos_two_pi, Real.sin_two_pi]
  have hE : ringSum φ n (f 1) = ((List.range 4).map fun k => pathSum φ (fun j => P k n j) n).sum := by
    unfold ringSum
    simp only [hP, revolveGrid, div_self hn0]
  have hW : ringSum φ n (f 0) = ((List.range 4).map fun k => pathSum φ (fun j => P k 0 j) n).sum := by
    unfold ringSum
    simp only [hP, revolveGrid, Nat.cast_zero, zero_div]
  rw [hE, hW]
  have e : (List.range 4) = [0, 1, 2, 3] := rfl
  rw [e]
  simp only [List.map_cons, List.map_nil, List.sum_cons, List.sum_nil, bdry, hseam]
  simp only [zero_add, Nat.reduceAdd, hlast]
  ring

/-- The lines begin at `p`, each begins where the one before ends, and the last ends at `q`. -/
def Spec.EndToEnd : V → List (ℝ → V) → V → Prop
  | p, [], q => p = q
  | p, f :: fs, q => f 0 = p ∧ EndToEnd (f 1) fs q

/-- All grids of a list of lines. -/
noncomputable def allGrids (n : ℕ) (fs : List (ℝ → V)) : List (ℕ → ℕ → V) := fs.flatMap fun f => (List.range 4).map (revolveGrid f n)

theorem allGrids_boundary (φ : V → V → ℤ) (n : ℕ) (hn : 1 ≤ n) (fs : List (ℝ → V)) (p q : V) (h : EndToEnd p fs q) :
    ((allGrids n fs).map (bdry φ n n)).sum = ringSum φ n q - ringSum φ n p := by
  induction fs generalizing p with
  | nil => cases h; simp [allGrids]
  | cons f fs ih =>
    obtain ⟨h0, h1⟩ := h
    have := ih _ h1
    unfold allGrids at this ⊢
    rw [List.flatMap_cons, List.map_append, List.sum_append, this, revolve_boundary φ f n hn, h0]
    ring

/-- The exact volume between two points of the axis that a list of lines turned about the axis encloses. -/
noncomputable def Spec.stackVolume (n : ℕ) (fs : List (ℝ → V)) : ℝ :=
  (fs.map fun f => polygonalVolume (4 * n) n (fun i => (f ((i : ℝ) / n)).x)
    (fun i => ((f ((i : ℝ) / n)).y, (f ((i : ℝ) / n)).z))).sum

theorem allGrids_volume (n : ℕ) (hn : 1 ≤ n) (fs : List (ℝ → V)) (p q : V) (h : EndToEnd p fs q) :
    signedVolume ((allGrids n fs).map (gridMesh MeshArith.real false n n)).flatten = stackVolume n fs -
      (4 * n : ℕ) / 2 * Real.sin (2 * Real.pi / (4 * n : ℕ)) * (q.x * (q.y ^ 2 + q.z ^ 2) - p.x * (p.y ^ 2 + p.z ^ 2)) / 3 := by
  induction fs generalizing p with
  | nil => cases h; simp [allGrids, stackVolume, signedVolume]
  | cons f fs ih =>
    obtain ⟨h0, h1⟩ := h
    have := ih _ h1
    unfold allGrids at this ⊢
    unfold stackVolume at this ⊢
    rw [List.flatMap_cons, List.map_append, List.flatten_append, signedVolume_append, this, revolve_grids f n hn, ← h0,
      List.map_cons, List.sum_cons]
    ring

/-! ## Generating the composite -/

/-- The patches of a revolved component. -/
noncomputable def revItems (line : PathObj) : List (String × Surf) := (List.range 4).map fun (i : ℕ) =>
  ("revolved_fuse_" ++ toString i, RevolvedPatch line (i * Real.pi / 2) (((i : ℝ) + 1) * Real.pi / 2))

/-- `c` is a revolved component that has not been generated, with any options. -/
def Spec.NewRevolved (c : Comp) (line : PathObj) : Prop :=
  c.gen = (RevolvedComponent line).gen ∧ c.patches = []

theorem genLeaf_revolved (h : Heap) (k : ℕ) (line : PathObj) (hk : NewRevolved (h k) line) :
    (Composite.genLeaf h k).1 = .ok () ∧ ((Composite.genLeaf h k).2 k).patches = revItems line := by
  have hsteps : runSteps ((List.range 4).map fun (i : ℕ) => GenStep.patch ("revolved_fuse_" ++ toString i)
      (.ok (RevolvedPatch line (i * Real.pi / 2) (((i : ℝ) + 1) * Real.pi / 2)))) = ⟨revItems line, [], [], none⟩ :=
    runSteps_patches (List.range 4) (fun i => "revolved_fuse_" ++ toString i)
      (fun (i : ℕ) => RevolvedPatch line (i * Real.pi / 2) (((i : ℝ) + 1) * Real.pi / 2))
  have hg : (h k).gen = .into fun _ => ⟨revItems line, [], [], none⟩ := by
    rw [hk.1, ← hsteps]; rfl
  unfold Composite.genLeaf
  simp only [hg, upd_self, Comp.genInto, hk.2, true_and]
  refine Dict.setAll_nil_nodup _ ?_
  rw [revItems, List.map_map]
  exact prefix_ix_nodup _ 4

theorem genLeaf_keeps_new (h : Heap) (a k : ℕ) (hk : k ≠ a) (line : PathObj) (hn : NewRevolved (h k) line) :
    NewRevolved ((Composite.genLeaf h a).2 k) line := by
  rw [genLeaf_other h a k hk]; exact hn

theorem genChildren_revolved (h : Heap) (ids : List ℕ) (lines : List PathObj) (hn : ids.Nodup)
    (hc : List.Forall₂ (fun k line => NewRevolved (h k) line) ids lines) :
    ∃ h', Composite.genChildren h ids = (.ok (), h') ∧ List.Forall₂ (fun k line => (h' k).patches = revItems line) ids lines := by
  induction ids generalizing h lines with
  | nil => cases hc; exact ⟨h, rfl, .nil⟩
  | cons k ks ih =>
    cases hc with
    | @cons _ line _ lines hk hks =>
    rw [List.nodup_cons] at hn
    obtain ⟨g1, g2⟩ := genLeaf_revolved h k line hk
    rcases hg : Composite.genLeaf h k with ⟨r, h1⟩
    have hh : ∀ j ≠ k, h1 j = h j := fun j hj => by have := genLeaf_other h k j hj; rwa [hg] at this
    have hnew : List.Forall₂ (fun k line => NewRevolved (h1 k) line) ks lines := by
      rw [List.forall₂_iff_get] at hks ⊢
      refine ⟨hks.1, fun i hi hi' => ?_⟩
      rw [hh _ (fun e => hn.1 (by rw [← e]; exact List.get_mem _ _))]
      exact hks.2 i hi hi'
    rw [hg] at g1 g2
    simp only at g1 g2
    subst g1
    obtain ⟨h', c1, c2⟩ := ih h1 lines hn.2 hnew
    refine ⟨h', ?_, .cons ?_ c2⟩
    · unfold Composite.genChildren
      rw [hg]
      exact c1
    · have := genChildren_other h1 ks k hn.1
      rw [c1] at this
      simp only at this
      rw [this]
      exact g2

theorem merged_grids (h : Heap) (n : ℕ) (hn : 1 ≤ n) (ids : List ℕ) (lines : List PathObj) (fs : List (ℝ → V))
    (hp : List.Forall₂ (fun k line => (h k).patches = revItems line) ids lines)
    (hl : List.Forall₂ (fun (line : PathObj) (f : ℝ → V) => ∀ t, 0 ≤ t → t ≤ 1 → line.call t = .ok (f t)) lines fs) (ix : ℕ) :
    List.Forall₂ (fun e P => ∀ i ≤ n, ∀ j ≤ n, e.2 ((i : ℝ) / n) ((j : ℝ) / n) = .ok (P i j)) (Composite.mergedItems h ix ids)
      (allGrids n fs) := by
  have hnp : (0 : ℝ) < n := by positivity
  induction hp generalizing fs ix with
  | nil => cases hl; exact .nil
  | @cons k line ks lines hk hks ih =>
    cases hl with
    | @cons _ f _ fs hf hl =>
    unfold Composite.mergedItems allGrids
    rw [List.flatMap_cons, hk]
    refine List.rel_append ?_ (ih fs hl (ix + 1))
    rw [revItems, List.map_map, List.forall₂_map_right_iff, List.forall₂_map_left_iff, List.forall₂_same]
    intro k _ i hi j hj
    have hi' : (i : ℝ) / n ≤ 1 := by rw [div_le_one hnp]; exact_mod_cast hi
    exact (RevolvedPatch_eq line _ _ _ _ _ (hf ((i : ℝ) / n) (by positivity) hi'))

theorem merged_nodup (h : Heap) (ids : List ℕ) (lines : List PathObj)
    (hp : List.Forall₂ (fun k line => (h k).patches = revItems line) ids lines) (ix : ℕ) :
    ((Composite.mergedItems h ix ids).map Prod.fst).Nodup := by
  set h0 : Heap := fun k => if k ∈ ids then h k else RevolvedComponent ⟨fun _ => .error .exc, .error .exc⟩ with hh0
  have hmem : ∀ k ∈ ids, (h k).patches.keys.Nodup := by
    intro k hk
    obtain ⟨i, hi, rfl⟩ := List.getElem_of_mem hk
    have := (List.forall₂_iff_get.1 hp).2 i hi (by rw [← hp.length_eq]; exact hi)
    simp only [List.get_eq_getElem] at this
    rw [this]
    unfold Dict.keys
    rw [revItems, List.map_map]
    exact prefix_ix_nodup _ 4
  have e : Composite.mergedItems h ix ids = Composite.mergedItems h0 ix ids := by
    rw [mergedItems_eq, mergedItems_eq]
    apply List.flatMap_congr
    intro x hx
    have : x.1 ∈ ids := List.fst_mem_of_mem_zipIdx hx
    rw [hh0]
    simp only [this, if_true]
  rw [e]
  refine (zipIdx_names_nodup h0 ids ?_ ix).1
  intro k
  rw [hh0]
  by_cases hk : k ∈ ids
  · simp only [hk, if_true]; exact hmem k hk
  · simp only [hk, if_false]; exact List.nodup_nil

/-- A composite of revolved components generates and meshes; the mesh consists of the grids of the parts, at the resolution of
the composite. -/
theorem revolved_composite_mesh (h : Heap) (id : ℕ) (ids : List ℕ) (lines : List PathObj) (fs : List (ℝ → V)) (hn : ids.Nodup)
    (hid : id ∉ ids) (hne : ids ≠ []) (hg : (h id).gen = .composite ids)
    (hc : List.Forall₂ (fun k line => NewRevolved (h k) line) ids lines)
    (hl : List.Forall₂ (fun (line : PathObj) (f : ℝ → V) => ∀ t, 0 ≤ t → t ≤ 1 → line.call t = .ok (f t)) lines fs)
    (n : ℕ) (hn1 : 1 ≤ n) (hres : (h id).stl_resolution = .int n) (hm : (h id).mesh_ = none) (hs : (h id).surfaces = none)
    (hcl : (h id).clustering = {}) :
    ∃ h' M c', generatePatches h id = (.ok (), h') ∧ (h' id).mesh = (.ok M, c') ∧ ((h' id).patches.map Prod.fst).Nodup ∧
      M.tris = ((allGrids n fs).map (gridMesh MeshArith.real false n n)).flatten := by
  obtain ⟨h1, c1, c2⟩ := genChildren_revolved h ids lines hn hc
  have hnd := merged_nodup h1 ids lines c2 0
  have hpat : Dict.setAll [] (Composite.mergedItems h1 0 ids) = Composite.mergedItems h1 0 ids := Dict.setAll_nil_nodup _ hnd
  have hgen : generatePatches h id = (.ok (), h1.upd id { h1 id with patches := Composite.mergedItems h1 0 ids }) := by
    unfold generatePatches
    rw [hg]
    simp only [Composite.generatePatches, c1, hpat]
  have hid1 : h1 id = h id := by
    have := genChildren_other h ids id hid
    rwa [c1] at this
  have hgr := merged_grids h1 n hn1 ids lines fs c2 hl 0
  have hne' : Composite.mergedItems h1 0 ids ≠ [] := by
    cases c2 with
    | nil => exact absurd rfl hne
    | cons hk _ =>
      unfold Composite.mergedItems
      rw [hk]
      simp [revItems]
  obtain ⟨M, c', m1, m2, -⟩ := (C52_mesh { h1 id with patches := Composite.mergedItems h1 0 ids } n hn1 (by rw [hid1]; exact hres)
    (by rw [hid1]; exact hm) (by rw [hid1]; exact hs) hnd hne').1 _ (by
      have : ({ h1 id with patches := Composite.mergedItems h1 0 ids } : Comp).clustering = {} := by rw [hid1]; exact hcl
      rw [this]
      exact meshOf_grids n hn1 _ _ hgr)
  exact ⟨_, M, c', hgen, by rw [upd_self]; exact m1, by rw [upd_self]; exact hnd, m2⟩

/-- C104: a composite whose parts are revolved lines laid end to end, the first beginning and the last ending on the axis, has a
closed mesh at every resolution.  The volume enclosed is the sum over the parts of the exact volumes between the sampled rings,
although the parts alone are open. -/
theorem C104_closed (h : Heap) (id : ℕ) (ids : List ℕ) (lines : List PathObj) (fs : List (ℝ → V)) (hn : ids.Nodup)
    (hid : id ∉ ids) (hne : ids ≠ []) (hg : (h id).gen = .composite ids)
    (hc : List.Forall₂ (fun k line => NewRevolved (h k) line) ids lines)
    (hl : List.Forall₂ (fun (line : PathObj) (f : ℝ → V) => ∀ t, 0 ≤ t → t ≤ 1 → line.call t = .ok (f t)) lines fs)
    (n : ℕ) (hn1 : 1 ≤ n) (hres : (h id).stl_resolution = .int n) (hm : (h id).mesh_ = none) (hs : (h id).surfaces = none)
    (hcl : (h id).clustering = {}) (x0 x1 : ℝ) (he : EndToEnd ⟨x0, 0, 0⟩ fs ⟨x1, 0, 0⟩) :
    ∃ h' M c', generatePatches h id = (.ok (), h') ∧ (h' id).mesh = (.ok M, c') ∧ Closed M.tris ∧
      signedVolume M.tris = stackVolume n fs := by
  obtain ⟨h', M, c', g1, g2, -, g3⟩ := revolved_composite_mesh h id ids lines fs hn hid hne hg hc hl n hn1 hres hm hs hcl
  refine ⟨h', M, c', g1, g2, ?_, ?_⟩
  · rw [g3, closed_iff_edgeSum]
    intro φ hφ
    rw [edgeSum_grids φ hφ, allGrids_boundary φ n hn1 fs _ _ he, ringSum_axis φ hφ n _ rfl rfl, ringSum_axis φ hφ n _ rfl rfl, sub_zero]
  · rw [g3, allGrids_volume n hn1 fs _ _ he]
    ring

/-- The ends of the lines away from the axis are the beginnings of the lines away from the axis, in any order. -/
def Spec.EndsMeet (fs : List (ℝ → V)) : Prop :=
  ((fs.map (· 1)).filter fun v => ¬ (v.y = 0 ∧ v.z = 0)).Perm ((fs.map (· 0)).filter fun v => ¬ (v.y = 0 ∧ v.z = 0))

theorem sum_off_axis {A : Type} [AddCommGroup A] (g : V → A) (hg : ∀ v : V, v.y = 0 → v.z = 0 → g v = 0) (l : List V) :
    (l.map g).sum = ((l.filter fun v => ¬ (v.y = 0 ∧ v.z = 0)).map g).sum := by
  classical
  induction l with
  | nil => rfl
  | cons v l ih =>
    rw [List.map_cons, List.sum_cons, ih, List.filter_cons]
    split_ifs with h
    · rw [List.map_cons, List.sum_cons]
    · have : v.y = 0 ∧ v.z = 0 := by simpa using h
      rw [hg v this.1 this.2, zero_add]

theorem endsMeet_sum {A : Type} [AddCommGroup A] (g : V → A) (hg : ∀ v : V, v.y = 0 → v.z = 0 → g v = 0) (fs : List (ℝ → V))
    (h : EndsMeet fs) : (fs.map fun f => g (f 1)).sum = (fs.map fun f => g (f 0)).sum := by
  have e : ∀ t : ℝ, (fs.map fun f => g (f t)).sum = ((fs.map (· t)).map g).sum := fun t => by rw [List.map_map]; rfl
  rw [e, e, sum_off_axis g hg, sum_off_axis g hg (fs.map (· 0))]
  exact (h.map g).sum_eq

theorem allGrids_ends (φ : V → V → ℤ) (n : ℕ) (hn : 1 ≤ n) (fs : List (ℝ → V)) :
    ((allGrids n fs).map (bdry φ n n)).sum = (fs.map fun f => ringSum φ n (f 1)).sum - (fs.map fun f => ringSum φ n (f 0)).sum := by
  induction fs with
  | nil => simp [allGrids]
  | cons f fs ih =>
    unfold allGrids at ih ⊢
    rw [List.flatMap_cons, List.map_append, List.sum_append, ih, revolve_boundary φ f n hn]
    simp only [List.map_cons, List.sum_cons]
    ring

theorem allGrids_volume_ends (n : ℕ) (hn : 1 ≤ n) (fs : List (ℝ → V)) :
    signedVolume ((allGrids n fs).map (gridMesh MeshArith.real false n n)).flatten = stackVolume n fs -
      (4 * n : ℕ) / 2 * Real.sin (2 * Real.pi / (4 * n : ℕ)) * ((fs.map fun f => (f 1).x * ((f 1).y ^ 2 + (f 1).z ^ 2)).sum -
        (fs.map fun f => (f 0).x * ((f 0).y ^ 2 + (f 0).z ^ 2)).sum) / 3 := by
  induction fs with
  | nil => simp [allGrids, stackVolume, signedVolume]
  | cons f fs ih =>
    unfold allGrids at ih ⊢
    unfold stackVolume at ih ⊢
    rw [List.flatMap_cons, List.map_append, List.flatten_append, signedVolume_append, ih, revolve_grids f n hn]
    simp only [List.map_cons, List.sum_cons]
    ring

/-- C104, for parts in any order and any number of bodies: it suffices that every end of a line away from the axis is the beginning
of another, one for one. -/
theorem C104_any_order (h : Heap) (id : ℕ) (ids : List ℕ) (lines : List PathObj) (fs : List (ℝ → V)) (hn : ids.Nodup)
    (hid : id ∉ ids) (hne : ids ≠ []) (hg : (h id).gen = .composite ids)
    (hc : List.Forall₂ (fun k line => NewRevolved (h k) line) ids lines)
    (hl : List.Forall₂ (fun (line : PathObj) (f : ℝ → V) => ∀ t, 0 ≤ t → t ≤ 1 → line.call t = .ok (f t)) lines fs)
    (n : ℕ) (hn1 : 1 ≤ n) (hres : (h id).stl_resolution = .int n) (hm : (h id).mesh_ = none) (hs : (h id).surfaces = none)
    (hcl : (h id).clustering = {}) (he : EndsMeet fs) :
    ∃ h' M c', generatePatches h id = (.ok (), h') ∧ (h' id).mesh = (.ok M, c') ∧ Closed M.tris ∧
      signedVolume M.tris = stackVolume n fs := by
  obtain ⟨h', M, c', g1, g2, -, g3⟩ := revolved_composite_mesh h id ids lines fs hn hid hne hg hc hl n hn1 hres hm hs hcl
  refine ⟨h', M, c', g1, g2, ?_, ?_⟩
  · rw [g3, closed_iff_edgeSum]
    intro φ hφ
    rw [edgeSum_grids φ hφ, allGrids_ends φ n hn1 fs, endsMeet_sum (ringSum φ n) (ringSum_axis φ hφ n) fs he, sub_self]
  · rw [g3, allGrids_volume_ends n hn1 fs,
      endsMeet_sum (fun v : V => v.x * (v.y ^ 2 + v.z ^ 2)) (fun v hy hz => by simp [hy, hz]) fs he]
    ring

/-- The hypotheses of `C104_closed` are met by a cone and the disc that closes it, neither of which is closed alone. -/
noncomputable def coneHeap : Heap := fun k =>
  if k = 0 then { componenttype := "composite", gen := .composite [1, 2], stl_resolution := .int 8 }
  else if k = 1 then RevolvedComponent (Line ⟨0, 0, 0⟩ ⟨3, 1, 0⟩)
  else RevolvedComponent (Line ⟨3, 1, 0⟩ ⟨3, 0, 0⟩)

example : ∃ h' M c', generatePatches coneHeap 0 = (.ok (), h') ∧ (h' 0).mesh = (.ok M, c') ∧ Closed M.tris ∧
    signedVolume M.tris = stackVolume 8 [lineAt ⟨0, 0, 0⟩ ⟨3, 1, 0⟩, lineAt ⟨3, 1, 0⟩ ⟨3, 0, 0⟩] := by
  refine C104_closed coneHeap 0 [1, 2] [Line ⟨0, 0, 0⟩ ⟨3, 1, 0⟩, Line ⟨3, 1, 0⟩ ⟨3, 0, 0⟩] _ (by decide) (by decide) (by decide) rfl
    ?_ ?_ 8 (by norm_num) rfl rfl rfl rfl 0 3 ?_
  · exact .cons ⟨rfl, rfl⟩ (.cons ⟨rfl, rfl⟩ .nil)
  · exact .cons (fun _ _ _ => rfl) (.cons (fun _ _ _ => rfl) .nil)
  · refine ⟨?_, ?_, ?_⟩ <;> ext <;> simp [lineAt]

/-- The hypothesis of `C104_any_order` is met by the same parts in the other order, for which `EndToEnd` fails. -/
example : EndsMeet [lineAt ⟨3, 1, 0⟩ ⟨3, 0, 0⟩, lineAt ⟨0, 0, 0⟩ ⟨3, 1, 0⟩] ∧
    ¬ ∃ x0 x1, EndToEnd ⟨x0, 0, 0⟩ [lineAt ⟨3, 1, 0⟩ ⟨3, 0, 0⟩, lineAt ⟨0, 0, 0⟩ ⟨3, 1, 0⟩] ⟨x1, 0, 0⟩ := by
  constructor
  · simp [EndsMeet, lineAt]
    ext <;> simp
  · rintro ⟨x0, x1, h, -⟩
    have := congrArg Vec.y h
    simp [lineAt] at this

end HV
