import Verif.Model.Leaf
import Verif.Props.Composite
import Mathlib.Data.ZMod.Basic

/-!
# Component meshes as lists of grids of points
-/

namespace HV
open Spec

/-- The vertices of an unmirrored exact mesh are the surface points. -/
theorem meshVertex_real (p : V) : meshVertex MeshArith.real false p = p := by
  simp [meshVertex, MeshArith.real]

/-- Meshing with default options: parameters `i/n`, `j/m`. -/
theorem stl_grid (F : Surf) (n m : ℕ) (hn : 1 ≤ n) (hm : 1 ≤ m) (P : ℕ → ℕ → V)
    (h : ∀ i ≤ n, ∀ j ≤ m, F ((i : ℝ) / n) ((j : ℝ) / m) = .ok (P i j)) :
    surfceToStl F n m {} = .ok (gridMesh MeshArith.real false n m P) := by
  have hr : rList {} n = .ok ((List.range (n + 1)).map fun (i : ℕ) => (i : ℝ) / n) := C40_uniform n hn
  have hs : sList {} n m = .ok ((List.range (m + 1)).map fun (i : ℕ) => (i : ℝ) / m) := C40_uniform m hm
  unfold surfceToStl
  rw [hr, hs, ok_bind, ok_bind]
  apply meshFromLists_eq
  intro i hi j hj
  refine pointAt_ok.2 ⟨(i : ℝ) / n, (j : ℝ) / m, ?_, ?_, h i hi j hj⟩
  · rw [List.getElem?_map, List.getElem?_range (by omega)]; rfl
  · rw [List.getElem?_map, List.getElem?_range (by omega)]; rfl

/-- The contribution of the boundary of a grid to an antisymmetric edge sum. -/
def bdry {A : Type} [AddCommGroup A] (φ : V → V → A) (n m : ℕ) (P : ℕ → ℕ → V) : A :=
  pathSum φ (fun i => P i 0) n + pathSum φ (fun j => P n j) m - pathSum φ (fun i => P i m) n - pathSum φ (fun j => P 0 j) m

theorem edgeSum_stl {A : Type} [AddCommGroup A] (φ : V → V → A) (h : Anti φ) (n m : ℕ) (P : ℕ → ℕ → V) :
    edgeSum φ (edges (gridMesh MeshArith.real false n m P)) = bdry φ n m P := by
  rw [edgeSum_gridMesh MeshArith.real φ h]
  simp only [meshVertex_real, bdry]

/-- If every patch evaluates at the grid points, the patches can be meshed, and the mesh is that of the grids. -/
theorem meshOf_grids (n : ℕ) (hn : 1 ≤ n) (ps : List (String × Surf)) (Ps : List (ℕ → ℕ → V))
    (h : List.Forall₂ (fun e P => ∀ i ≤ n, ∀ j ≤ n, e.2 ((i : ℝ) / n) ((j : ℝ) / n) = .ok (P i j)) ps Ps) :
    MeshOf {} (fun _ => n) (fun _ => n) ps ((Ps.map (gridMesh MeshArith.real false n n)).flatten) := by
  refine ⟨_, ?_, rfl⟩
  rw [List.forall₂_map_right_iff]
  exact h.imp fun e P h => stl_grid e.2 n n hn hn P h

theorem edgeSum_grids {A : Type} [AddCommGroup A] (φ : V → V → A) (h : Anti φ) (n : ℕ) (Ps : List (ℕ → ℕ → V)) :
    edgeSum φ (edges ((Ps.map (gridMesh MeshArith.real false n n)).flatten)) = (Ps.map (bdry φ n n)).sum := by
  rw [edges_flatten, edgeSum_flatten, List.map_map, List.map_map]
  congr 1
  apply List.map_congr_left
  intro P _
  exact edgeSum_stl φ h n n P

/-- `runSteps` of patches that can all be built. -/
theorem runSteps_patches {ι : Type} (l : List ι) (name : ι → String) (s : ι → Surf) :
    runSteps (l.map fun i => .patch (name i) (.ok (s i))) = ⟨l.map fun i => (name i, s i), [], [], none⟩ := by
  induction l with
  | nil => rfl
  | cons a l ih => simp [runSteps, ih]

/-- Generating and meshing a new component of the assigning kind: if generation succeeds with patches that evaluate at the
grid points, the component has that mesh. -/
theorem generated_mesh (h : Heap) (id : ℕ) (out : Reso → GenOut) (hgen : (h id).gen = .into out) (n : ℕ) (hn : 1 ≤ n)
    (hres : (h id).stl_resolution = .int n) (hp : (h id).patches = []) (hm : (h id).mesh_ = none) (hs : (h id).surfaces = none)
    (hc : (h id).clustering = {}) (herr : (out (.int n)).err = none) (hk : ((out (.int n)).items.map Prod.fst).Nodup)
    (hne : (out (.int n)).items ≠ []) (Ps : List (ℕ → ℕ → V))
    (hP : List.Forall₂ (fun e P => ∀ i ≤ n, ∀ j ≤ n, e.2 ((i : ℝ) / n) ((j : ℝ) / n) = .ok (P i j)) (out (.int n)).items Ps) :
    ∃ h' M c', generatePatches h id = (.ok (), h') ∧ (h' id).patches = (out (.int n)).items ∧ (h' id).mesh = (.ok M, c') ∧
      M.tris = (Ps.map (gridMesh MeshArith.real false n n)).flatten := by
  have hg : generatePatches h id = (.ok (), h.upd id ((h id).genInto (out (.int n))).2) := by
    simp only [generatePatches, Composite.genLeaf, hgen, Comp.genInto, hres, herr]
  have hpat : (((h id).genInto (out (.int n))).2).patches = (out (.int n)).items := by
    simp only [Comp.genInto, hp]
    exact Dict.setAll_nil_nodup _ hk
  obtain ⟨M, c', h1, h2, _⟩ := (C52_mesh ((h id).genInto (out (.int n))).2 n hn hres hm hs (by rw [hpat]; exact hk)
    (by rw [hpat]; exact hne)).1 ((Ps.map (gridMesh MeshArith.real false n n)).flatten) (by
      rw [hpat]
      have : ((h id).genInto (out (.int n))).2.clustering = {} := hc
      rw [this]
      exact meshOf_grids n hn _ Ps hP)
  exact ⟨_, M, c', hg, by rw [upd_self]; exact hpat, by rw [upd_self]; exact h1, h2⟩

/-- The same with a resolution per patch: an integer for all, or a dictionary that sets `patch_res_r` of every patch. -/
theorem generated_mesh_res (h : Heap) (id : ℕ) (out : Reso → GenOut) (hgen : (h id).gen = .into out) (N : String → ℕ)
    (res : Reso) (hres : (h id).stl_resolution = res) (hp : (h id).patches = []) (hpr : (h id).patch_res_r = [])
    (hm : (h id).mesh_ = none) (hs : (h id).surfaces = none)
    (hc : (h id).clustering = {}) (herr : (out res).err = none) (hk : ((out res).items.map Prod.fst).Nodup)
    (hne : (out res).items ≠ []) (hN1 : ∀ e ∈ (out res).items, 1 ≤ N e.1)
    (hN : res = .int (N "") ∧ (∀ s, N s = N "") ∨ (∃ d, res = .dict d) ∧ ((out res).resR.map Prod.fst).Nodup ∧
      ∀ e ∈ (out res).items, (e.1, N e.1) ∈ (out res).resR)
    (Ps : List (ℕ × (ℕ → ℕ → V)))
    (hP : List.Forall₂ (fun e P => P.1 = N e.1 ∧ ∀ i ≤ N e.1, ∀ j ≤ N e.1,
      e.2 ((i : ℝ) / N e.1) ((j : ℝ) / N e.1) = .ok (P.2 i j)) (out res).items Ps) :
    ∃ h' M c', generatePatches h id = (.ok (), h') ∧ (h' id).patches = (out res).items ∧ (h' id).mesh = (.ok M, c') ∧
      M.tris = (Ps.map fun P => gridMesh MeshArith.real false P.1 P.1 P.2).flatten := by
  have hg : generatePatches h id = (.ok (), h.upd id ((h id).genInto (out res)).2) := by
    simp only [generatePatches, Composite.genLeaf, hgen, Comp.genInto, hres, herr]
  have hpat : (((h id).genInto (out res)).2).patches = (out res).items := by
    simp only [Comp.genInto, hp]
    exact Dict.setAll_nil_nodup _ hk
  have hcase : (((h id).genInto (out res)).2).patches.mapM (((h id).genInto (out res)).2.caseOf
      ((h id).genInto (out res)).2.stl_resolution) =
      .ok ((((h id).genInto (out res)).2).patches.map fun e => (e.1, e.2, N e.1, N e.1)) := by
    have e1 : ((h id).genInto (out res)).2.stl_resolution = res := hres
    rw [e1, hpat]
    apply mapM_ok
    intro e he
    rcases hN with ⟨rfl, hN⟩ | ⟨⟨d, rfl⟩, hnd, hN⟩
    · rw [hN e.1]; rfl
    · have : ((h id).genInto (out (.dict d))).2.patch_res_r = (out (.dict d)).resR := by
        simp only [Comp.genInto, hpr]
        exact Dict.setAll_nil_nodup _ hnd
      have hget := Dict.get?_of_mem (d := (out (.dict d)).resR) hnd (hN e he)
      simp [Comp.caseOf, this, Dict.get, hget, bind, Except.bind, pure, Except.pure]
  obtain ⟨c', h1, h2, _⟩ := (mesh_spec ((h id).genInto (out res)).2 N N hm hs (by rw [hpat]; exact hk)
    (by rw [hpat]; exact hne) hcase).1 ((Ps.map fun P => gridMesh MeshArith.real false P.1 P.1 P.2).flatten) (by
      rw [hpat]
      have : ((h id).genInto (out res)).2.clustering = {} := hc
      rw [this]
      refine ⟨_, ?_, rfl⟩
      rw [List.forall₂_map_right_iff]
      have : ∀ l (Ps : List (ℕ × (ℕ → ℕ → V))), List.Forall₂ (fun e P => P.1 = N e.1 ∧ ∀ i ≤ N e.1, ∀ j ≤ N e.1,
          e.2 ((i : ℝ) / N e.1) ((j : ℝ) / N e.1) = .ok (P.2 i j)) l Ps → (∀ e ∈ l, 1 ≤ N e.1) →
          List.Forall₂ (fun (e : String × Surf) (P : ℕ × (ℕ → ℕ → V)) => surfceToStl e.2 (N e.1) (N e.1) {} =
            .ok (gridMesh MeshArith.real false P.1 P.1 P.2)) l Ps := by
        intro l Ps hl
        induction hl with
        | nil => intro _; exact .nil
        | @cons e P l Ps hd _ ih =>
          intro h1
          refine .cons ?_ (ih fun e he => h1 e (List.mem_cons_of_mem _ he))
          have h1 := h1 e List.mem_cons_self
          rw [hd.1]
          exact stl_grid _ _ _ h1 h1 _ hd.2
      exact this _ _ hP hN1)
  exact ⟨_, _, c', hg, by rw [upd_self]; exact hpat, by rw [upd_self]; exact h1, rfl⟩

theorem edgeSum_grids_res {A : Type} [AddCommGroup A] (φ : V → V → A) (h : Anti φ) (Ps : List (ℕ × (ℕ → ℕ → V))) :
    edgeSum φ (edges ((Ps.map fun P => gridMesh MeshArith.real false P.1 P.1 P.2).flatten)) =
      (Ps.map fun P => bdry φ P.1 P.1 P.2).sum := by
  rw [edges_flatten, edgeSum_flatten, List.map_map, List.map_map]
  congr 1
  apply List.map_congr_left
  intro P _
  exact edgeSum_stl φ h P.1 P.1 P.2

/-! ## Unoriented closedness -/

/-- Every undirected edge belongs to an even number of triangles. -/
def Spec.EvenEdges {β : Type} (m : TriMesh β) : Prop :=
  ∀ a b, a ≠ b → Even (edgeCount (edges m) a b + edgeCount (edges m) b a)

open Classical in
/-- The symmetric indicator of an undirected edge, modulo 2. -/
noncomputable def detect2 {W : Type} (a b u v : W) : ZMod 2 := if (u = a ∧ v = b) ∨ (u = b ∧ v = a) then 1 else 0

theorem detect2_anti {W : Type} (a b : W) : Anti (detect2 a b) := by
  intro u v
  have h : ∀ x : ZMod 2, -x = x := by decide
  rw [h]
  unfold detect2
  congr 1
  apply propext
  tauto

theorem edgeSum_detect2 {W : Type} (a b : W) (hab : a ≠ b) (l : List (W × W)) :
    edgeSum (detect2 a b) l = ((edgeCount l a b + edgeCount l b a : ℕ) : ZMod 2) := by
  classical
  induction l with
  | nil => simp [edgeSum, edgeCount]
  | cons e l ih =>
    obtain ⟨u, v⟩ := e
    have e1 : edgeSum (detect2 a b) ((u, v) :: l) = detect2 a b u v + edgeSum (detect2 a b) l := by simp [edgeSum]
    have e2 : ∀ x y : W, edgeCount ((u, v) :: l) x y = edgeCount l x y + if (u, v) = (x, y) then 1 else 0 := by
      intro x y
      unfold edgeCount
      rw [List.count_cons]
      congr 1
      by_cases h : (u, v) = (x, y) <;> simp [h]
    rw [e1, ih, e2, e2]
    unfold detect2
    by_cases h1 : u = a ∧ v = b
    · obtain ⟨rfl, rfl⟩ := h1
      have : ¬ ((u, v) = (v, u)) := by
        intro h; exact hab (Prod.mk.inj h).1
      simp only [this, if_true, if_false, true_and, and_self, true_or]
      push_cast; ring
    · by_cases h2 : u = b ∧ v = a
      · obtain ⟨rfl, rfl⟩ := h2
        have : ¬ ((u, v) = (v, u)) := by
          intro h; exact hab (Prod.mk.inj h).2
        simp only [this, if_true, if_false, and_self, or_true]
        push_cast; ring
      · have h1' : ¬ (u, v) = (a, b) := fun h => h1 ⟨(Prod.mk.inj h).1, (Prod.mk.inj h).2⟩
        have h2' : ¬ (u, v) = (b, a) := fun h => h2 ⟨(Prod.mk.inj h).1, (Prod.mk.inj h).2⟩
        simp only [h1, h2, h1', h2', or_self, if_false]
        push_cast; ring

theorem evenEdges_of_edgeSum {β : Type} (m : TriMesh β)
    (h : ∀ φ : Vec β → Vec β → ZMod 2, Anti φ → edgeSum φ (edges m) = 0) : EvenEdges m := by
  intro a b hab
  have := h _ (detect2_anti a b)
  rw [edgeSum_detect2 a b hab] at this
  rw [← ZMod.natCast_eq_zero_iff_even]
  exact this

end HV
