import Verif.Props.X43
import Verif.Lemmas.Moved

/-!
# Which points are vertices of the mesh of a generated component
-/

namespace HV
open Spec Veh

namespace Spec

/-- The point is a vertex of the mesh. -/
def IsVertex (v : V) (m : TriMesh ℝ) : Prop := ∃ t ∈ m, v = t.v0 ∨ v = t.v1 ∨ v = t.v2

end Spec

/-- Every point of the grid is a vertex. -/
theorem gridMesh_vertex (n m : ℕ) (P : ℕ → ℕ → V) (i j : ℕ) (hn : 1 ≤ n) (hm : 1 ≤ m) (hi : i ≤ n) (hj : j ≤ m) :
    IsVertex (P i j) (gridMesh MeshArith.real false n m P) := by
  have key : ∀ i' < n, ∀ j' < m, ∀ t ∈ cellTris MeshArith.real false (P i' j') (P (i' + 1) j') (P i' (j' + 1)) (P (i' + 1) (j' + 1)),
      (P i j = t.v0 ∨ P i j = t.v1 ∨ P i j = t.v2) → IsVertex (P i j) (gridMesh MeshArith.real false n m P) :=
    fun i' hi' j' hj' t ht h => ⟨t, (mem_gridMesh _ _ _ _ _ _).2 ⟨i', hi', j', hj', ht⟩, h⟩
  rcases Nat.lt_or_ge i n with h1 | h1 <;> rcases Nat.lt_or_ge j m with h2 | h2
  · refine key i h1 j h2 _ List.mem_cons_self (.inl ?_)
    simp [meshVertex_real]
  · obtain ⟨j', rfl⟩ : ∃ j', j = j' + 1 := ⟨j - 1, by omega⟩
    refine key i h1 j' (by omega) _ (List.mem_cons_of_mem _ (List.mem_cons_of_mem _ List.mem_cons_self)) (.inr (.inl ?_))
    simp [meshVertex_real]
  · obtain ⟨i', rfl⟩ : ∃ i', i = i' + 1 := ⟨i - 1, by omega⟩
    refine key i' (by omega) j h2 _ List.mem_cons_self (.inr (.inl ?_))
    simp [meshVertex_real]
  · obtain ⟨i', rfl⟩ : ∃ i', i = i' + 1 := ⟨i - 1, by omega⟩
    obtain ⟨j', rfl⟩ : ∃ j', j = j' + 1 := ⟨j - 1, by omega⟩
    refine key i' (by omega) j' (by omega) _ (List.mem_cons_of_mem _ List.mem_cons_self) (.inr (.inl ?_))
    simp [meshVertex_real]

/-- In a mesh with default options of a list of patches the sample points of every patch are vertices. -/
theorem meshOf_vertex (n : ℕ) (hn : 1 ≤ n) (ps : List (String × Surf)) (m : TriMesh ℝ) (h : MeshOf {} (fun _ => n) (fun _ => n) ps m)
    (e : String × Surf) (he : e ∈ ps) (i j : ℕ) (hi : i ≤ n) (hj : j ≤ n) :
    ∃ v, e.2 ((i : ℝ) / n) ((j : ℝ) / n) = .ok v ∧ IsVertex v m := by
  obtain ⟨parts, hp, rfl⟩ := h
  have : ∃ part ∈ parts, surfceToStl e.2 n n {} = .ok part := by
    clear hi hj
    induction hp with
    | nil => cases he
    | cons h1 _ ih =>
      rcases List.mem_cons.1 he with rfl | he
      · exact ⟨_, List.mem_cons_self, h1⟩
      · obtain ⟨b, hb, k⟩ := ih he
        exact ⟨b, List.mem_cons_of_mem _ hb, k⟩
  obtain ⟨part, hm, hs⟩ := this
  have hr : rList {} n = .ok ((List.range (n + 1)).map fun (i : ℕ) => (i : ℝ) / n) := C40_uniform n hn
  have hs' : sList {} n n = .ok ((List.range (n + 1)).map fun (i : ℕ) => (i : ℝ) / n) := C40_uniform n hn
  unfold surfceToStl at hs
  rw [hr, hs', ok_bind, ok_bind] at hs
  obtain ⟨P, hP, rfl⟩ := meshFromLists_inv _ _ e.2 n n hn hn _ _ _ hs
  obtain ⟨r, s, h1, h2, h3⟩ := pointAt_ok.1 (hP i hi j hj)
  rw [List.getElem?_map, List.getElem?_range (by omega)] at h1 h2
  obtain rfl := Option.some.inj h1
  obtain rfl := Option.some.inj h2
  obtain ⟨t, ht, hv⟩ := gridMesh_vertex n n P i j hn hn hi hj
  exact ⟨P i j, h3, t, List.mem_flatten.2 ⟨_, hm, ht⟩, hv⟩

/-- The sample points of the skin of a reflected wing are vertices of its mesh, whenever the wing can be generated and meshed. -/
theorem reflected_wing_vertex (ptan : ℝ → ℝ) (w : Wing.State) (n : ℕ) (hn : 1 ≤ n) (H : Heap) (k : ℕ) (name : Option String)
    (hk : H k = wingOf ptan w n name (some "y")) (g : Heap) (c : Comp) (h1 : generatePatches H k = (.ok (), g)) (h2 : pipeline 0 (g k) = (.ok (), c))
    (M : StlMesh) (c' : Comp) (h3 : c.mesh = (.ok M, c')) :
    ∃ p0 p1 f0 f1, Wing.planform w = .ok (p0, p1, f0, f1) ∧ ∀ e ∈ [("top_patch_0", OffsetPatchFunction f0 w.args.top_tf),
        ("top_patch_1", OffsetPatchFunction f1 w.args.top_tf), ("bot_patch_0", OffsetPatchFunction p0 w.args.bot_tf),
        ("bot_patch_1", OffsetPatchFunction p1 w.args.bot_tf)], ∀ i ≤ n, ∀ j ≤ n,
      ∃ v, e.2 ((i : ℝ) / n) ((j : ℝ) / n) = .ok v ∧ IsVertex v M.tris := by
  have hgen : (H k).gen = .into fun _ => runStages (Wing.stages ptan w) := by rw [hk]; rfl
  have e1 : generatePatches H k = (((H k).genInto (runStages (Wing.stages ptan w))).1, H.upd k ((H k).genInto (runStages (Wing.stages ptan w))).2) := by
    simp only [generatePatches, Composite.genLeaf, hgen]
  have e2 : generatePatches (fun _ => Wing.comp ptan w n none) 0 = (((Wing.comp ptan w n none).genInto (runStages (Wing.stages ptan w))).1,
      Heap.upd (fun _ => Wing.comp ptan w n none) 0 ((Wing.comp ptan w n none).genInto (runStages (Wing.stages ptan w))).2) := by
    simp only [generatePatches, Composite.genLeaf]; rfl
  have hok : (generatePatches (fun _ => Wing.comp ptan w n none) 0).1 = .ok () := by
    rw [e2]
    have := congrArg Prod.fst h1
    rw [e1] at this
    exact this
  obtain ⟨l1, l2, rest, s1, s2, s3, s4⟩ := Wing.generated_patches (h := fun _ => Wing.comp ptan w n none) (id := 0) rfl hok
  obtain ⟨p0, p1, f0, f1, hpl, rfl⟩ := Wing.skins_ok s1
  have hgk : g k = ((H k).genInto (runStages (Wing.stages ptan w))).2 := by
    have := congrArg Prod.snd h1
    rw [e1] at this
    simp only at this
    rw [← this]; exact upd_self _ _ _
  have hpat : (g k).patches = ((generatePatches (fun _ => Wing.comp ptan w n none) 0).2 0).patches := by
    rw [hgk, e2, hk]
    show _ = (Heap.upd (fun _ => Wing.comp ptan w n none) 0 _ 0).patches
    rw [upd_self]
    rfl
  have hnames : (g k).patches.map Prod.fst = (Wing.stageNames w).flatten := by rw [hpat]; exact s4
  obtain ⟨P, R, S, hopt⟩ := generatePatches_opts H k (by rw [hk]; simp [Comp.children, wingOf, Wing.comp])
  rw [h1] at hopt
  simp only at hopt
  have hkeys : ((g k).patches.map Prod.fst).Nodup := by rw [hnames]; exact Wing.stageNames_nodup w
  have m1 : (g k).applyModifier = g k := by unfold Comp.applyModifier; rw [hopt, hk]; rfl
  have m2 : (g k).curve = g k := by unfold Comp.curve; rw [hopt, hk]; rfl
  have m3 : (g k).reflect none = { g k with patches := (g k).patches ++ (g k).patches.map fun e => (e.1 ++ "_mirrored", MirroredPatch e.2 "y") } :=
    C50_append_partial (g k) none "y" (.inl (by rw [hopt, hk]; rfl)) hkeys (by rw [hopt, hk]; rfl) (by rw [hnames]; exact Wing.no_mirrored w)
  have m4 : (g k).transformations = [] := by rw [hopt, hk]; rfl
  have hc : c = { g k with patches := (g k).patches ++ (g k).patches.map fun e => (e.1 ++ "_mirrored", MirroredPatch e.2 "y") } := by
    have hd : ∀ d : Comp, (g k).reflect none = d → d.transformations = [] → c = d := by
      intro d hd ht
      unfold pipeline at h2
      rw [m1, m2, rotate_zero, hd] at h2
      unfold Comp.transform at h2
      rw [ht] at h2
      exact (congrArg Prod.snd h2).symm
    exact hd _ m3 m4
  have hu : Unmeshed n (H k) := by
    rw [hk]
    exact ⟨rfl, rfl, rfl, by simp [wingOf, Wing.comp], rfl⟩
  have hu' := generated_unmeshed hu (by rw [hk]; simp [Comp.children, wingOf, Wing.comp]) h1 h2
  have hcl : c.clustering = {} := by rw [hc]; simp only; rw [hopt, hk]; rfl
  have hsub : ∀ e ∈ (g k).patches, e ∈ c.patches := by
    intro e he
    rw [hc]
    exact List.mem_append_left _ he
  have hm := (C52_mesh c n hn hu'.res hu'.mesh hu'.surf hu'.names (by
    intro h0
    have := hsub ("top_patch_0", OffsetPatchFunction f0 w.args.top_tf) (by rw [hpat, s3]; simp)
    rw [h0] at this
    cases this)).2 M c' h3
  rw [hcl] at hm
  refine ⟨p0, p1, f0, f1, hpl, fun e he i hi j hj => ?_⟩
  refine meshOf_vertex n hn _ _ hm e (hsub e ?_) i j hi hj
  rw [hpat, s3]
  exact List.mem_append_left _ he

end HV
