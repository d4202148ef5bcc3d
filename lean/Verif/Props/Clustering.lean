import Verif.Props.Swept
import Verif.Props.Revolved

/-!
# C100: clustering options and watertightness
-/

namespace HV
open Spec

/-! ## Sewing grids of points -/

/-- The four sides of a grid: `j = 0`, `i = n`, `j = n`, `i = 0`. -/
def gridSide (n : ℕ) (P : ℕ → ℕ → V) : Fin 4 → ℕ → V
  | 0, i => P i 0
  | 1, j => P n j
  | 2, i => P i n
  | 3, j => P 0 j

/-- Sides 0 and 1 are passed forwards by the boundary of a patch, sides 2 and 3 backwards. -/
def Spec.forwards (k : Fin 4) : Bool := decide (k < 2)

/-- Sides 0 and 2 run along the first parameter. -/
def Spec.alongR (k : Fin 4) : Bool := decide (k = 0 ∨ k = 2)

def sideSum (φ : V → V → ℤ) (n : ℕ) (P : ℕ → ℕ → V) (k : Fin 4) : ℤ :=
  if forwards k then pathSum φ (gridSide n P k) n else -pathSum φ (gridSide n P k) n

theorem bdry_sides (φ : V → V → ℤ) (n : ℕ) (P : ℕ → ℕ → V) : bdry φ n n P = ∑ k, sideSum φ n P k := by
  rw [Fin.sum_univ_four]
  have f0 : forwards 0 = true := by decide
  have f1 : forwards 1 = true := by decide
  have f2 : forwards 2 = false := by decide
  have f3 : forwards 3 = false := by decide
  simp only [sideSum, f0, f1, f2, f3, if_true, Bool.false_eq_true, if_false]
  show pathSum φ (gridSide n P 0) n + pathSum φ (gridSide n P 1) n - pathSum φ (gridSide n P 2) n -
    pathSum φ (gridSide n P 3) n = _
  ring

/-- Two sides cancel: they run through the same points, in directions that are opposite on the two boundaries. -/
def Cancel (n : ℕ) (a b : Fin 4) (x y : ℕ → V) : Prop :=
  (forwards a ≠ forwards b ∧ ∀ j ≤ n, y j = x j) ∨ (forwards a = forwards b ∧ ∀ j ≤ n, y j = x (n - j))

theorem cancel_sum (φ : V → V → ℤ) (hφ : Anti φ) (n : ℕ) (P Q : ℕ → ℕ → V) (a b : Fin 4)
    (h : Cancel n a b (gridSide n P a) (gridSide n Q b)) : sideSum φ n P a + sideSum φ n Q b = 0 := by
  rcases h with ⟨hs, h⟩ | ⟨hs, h⟩
  · have : pathSum φ (gridSide n Q b) n = pathSum φ (gridSide n P a) n := pathSum_congr φ h
    unfold sideSum
    rw [this]
    cases ha : forwards a <;> cases hb : forwards b <;> simp_all
  · have : pathSum φ (gridSide n Q b) n = -pathSum φ (gridSide n P a) n := by
      rw [← pathSum_reverse φ hφ]
      exact pathSum_congr φ h
    unfold sideSum
    rw [this, ← hs]
    cases ha : forwards a <;> simp

/-- If the sides of the grids cancel in pairs, or are single points, the mesh is closed. -/
theorem sewn_grids (n : ℕ) (Ps : List (ℕ → ℕ → V)) (σ : Fin Ps.length × Fin 4 → Fin Ps.length × Fin 4)
    (hσ : Function.Involutive σ)
    (h : ∀ i, (σ i = i ∧ ∃ p, ∀ j ≤ n, gridSide n Ps[i.1] i.2 j = p) ∨
      Cancel n i.2 (σ i).2 (gridSide n Ps[i.1] i.2) (gridSide n Ps[(σ i).1] (σ i).2)) :
    Closed ((Ps.map (gridMesh MeshArith.real false n n)).flatten) := by
  rw [closed_iff_edgeSum]
  intro φ hφ
  rw [edgeSum_grids φ hφ]
  have e : (Ps.map (bdry φ n n)).sum = ∑ i : Fin Ps.length × Fin 4, sideSum φ n Ps[i.1] i.2 := by
    rw [Fintype.sum_prod_type, ← List.sum_ofFn]
    congr 1
    conv_lhs => rw [← List.ofFn_getElem (xs := Ps)]
    rw [List.map_ofFn]
    congr 1
    funext i
    exact bdry_sides φ n Ps[i]
  rw [e]
  apply zmul_tf
  have e2 : ∑ i : Fin Ps.length × Fin 4, sideSum φ n Ps[i.1] i.2 = ∑ i : Fin Ps.length × Fin 4, sideSum φ n Ps[(σ i).1] (σ i).2 :=
    (Equiv.sum_comp hσ.toPerm fun i : Fin Ps.length × Fin 4 => sideSum φ n Ps[i.1] i.2).symm
  nth_rw 2 [e2]
  rw [← Finset.sum_add_distrib]
  apply Finset.sum_eq_zero
  intro i _
  rcases h i with ⟨h1, p, h2⟩ | h
  · have e3 : sideSum φ n Ps[(σ i).1] (σ i).2 = sideSum φ n Ps[i.1] i.2 := by simp only [h1]
    rw [e3]
    have : pathSum φ (gridSide n Ps[i.1] i.2) n = 0 := by
      rw [pathSum_congr φ (q := fun _ => p) h2]
      exact pathSum_const φ hφ (fun a ha => zmul_tf ha) _ n
    unfold sideSum
    rw [this]
    simp
  · exact cancel_sum φ hφ n _ _ _ _ h

/-! ## Sewn patches -/

/-- The four sides of a patch as functions of their parameter. -/
def Spec.border (F : Surf) : Fin 4 → ℝ → Res V
  | 0, t => F t 0
  | 1, t => F 1 t
  | 2, t => F t 1
  | 3, t => F 0 t

/-- All patches evaluate on the unit square. -/
def Spec.AllTotal (ps : List Surf) : Prop :=
  ∀ F ∈ ps, ∀ r s : ℝ, 0 ≤ r → r ≤ 1 → 0 ≤ s → s ≤ 1 → ∃ p, F r s = .ok p

/-- The sides of the patches are glued in pairs into a closed, oriented surface: every side is a single point, or coincides
with its partner, parameter by parameter or with the parameter reversed. -/
def Spec.Sewn (ps : List Surf) : Prop :=
  ∃ σ : Fin ps.length × Fin 4 → Fin ps.length × Fin 4, Function.Involutive σ ∧ ∀ i,
    (σ i = i ∧ ∃ p, ∀ t, 0 ≤ t → t ≤ 1 → border ps[i.1] i.2 t = .ok p) ∨
    (forwards i.2 ≠ forwards (σ i).2 ∧ ∀ t, 0 ≤ t → t ≤ 1 → border ps[(σ i).1] (σ i).2 t = border ps[i.1] i.2 t) ∨
    (forwards i.2 = forwards (σ i).2 ∧ ∀ t, 0 ≤ t → t ≤ 1 → border ps[(σ i).1] (σ i).2 t = border ps[i.1] i.2 (1 - t))

/-- The same where partners run along the same parameter and in the same direction. -/
def Spec.SewnAlong (ps : List Surf) : Prop :=
  ∃ σ : Fin ps.length × Fin 4 → Fin ps.length × Fin 4, Function.Involutive σ ∧ ∀ i,
    (σ i = i ∧ ∃ p, ∀ t, 0 ≤ t → t ≤ 1 → border ps[i.1] i.2 t = .ok p) ∨
    (forwards i.2 ≠ forwards (σ i).2 ∧ alongR i.2 = alongR (σ i).2 ∧
      ∀ t, 0 ≤ t → t ≤ 1 → border ps[(σ i).1] (σ i).2 t = border ps[i.1] i.2 t)

/-- A clustering function for the unit interval: it evaluates there, stays there and keeps both ends. -/
def Spec.Clusters (f : ℝ → Res ℝ) : Prop :=
  (∀ t, 0 ≤ t → t ≤ 1 → ∃ u, f t = .ok u ∧ 0 ≤ u ∧ u ≤ 1) ∧ f 0 = .ok 0 ∧ f 1 = .ok 1

/-- A clustering function that treats both ends alike. -/
def Spec.Symmetric (f : ℝ → Res ℝ) : Prop := ∀ t u, 0 ≤ t → t ≤ 1 → f t = .ok u → f (1 - t) = .ok (1 - u)

/-- Sample points of `n` cells. -/
def Samples (n : ℕ) (x : ℕ → ℝ) : Prop := (∀ i ≤ n, 0 ≤ x i ∧ x i ≤ 1) ∧ x 0 = 0 ∧ x n = 1

/-- The samples chosen by an optional clustering function. -/
def SampledBy (f : Option (ℝ → Res ℝ)) (n : ℕ) (x : ℕ → ℝ) : Prop :=
  match f with
  | none => ∀ i ≤ n, x i = (i : ℝ) / n
  | some f => ∀ i ≤ n, f ((i : ℝ) / n) = .ok (x i)

theorem exists_samples (f : Option (ℝ → Res ℝ)) (hf : ∀ g, f = some g → Clusters g) (n : ℕ) (hn : 1 ≤ n) :
    ∃ x, SampledBy f n x ∧ Samples n x := by
  have hn0 : (n : ℝ) ≠ 0 := by positivity
  cases f with
  | none =>
    exact ⟨fun i => (i : ℝ) / n, fun _ _ => rfl, fun i hi => unit_div n i hn hi, by simp, div_self hn0⟩
  | some g =>
    obtain ⟨h1, h2, h3⟩ := hf g rfl
    have : ∀ i : ℕ, ∃ u : ℝ, i ≤ n → g ((i : ℝ) / n) = .ok u ∧ 0 ≤ u ∧ u ≤ 1 := by
      intro i
      by_cases hi : i ≤ n
      · obtain ⟨a, b⟩ := unit_div n i hn hi
        obtain ⟨u, hu⟩ := h1 _ a b
        exact ⟨u, fun _ => hu⟩
      · exact ⟨0, fun h => absurd h hi⟩
    choose x hx using this
    refine ⟨x, fun i hi => (hx i hi).1, fun i hi => (hx i hi).2, ?_, ?_⟩
    · have := (hx 0 (Nat.zero_le _)).1
      rw [Nat.cast_zero, zero_div, h2] at this
      exact (Except.ok.inj this).symm
    · have := (hx n le_rfl).1
      rw [div_self hn0, h3] at this
      exact (Except.ok.inj this).symm

theorem linspace01_succ (n : ℕ) : linspace01 (n + 1) = (List.range (n + 1)).map fun (i : ℕ) => (i : ℝ) / n := by
  unfold linspace01
  push_cast
  simp

theorem sampled_list (f : Option (ℝ → Res ℝ)) (n : ℕ) (hn : 1 ≤ n) (x : ℕ → ℝ) (hx : SampledBy f n x) :
    (match f with
      | some g => (linspace01 (n + 1)).mapM g
      | none => defaultVertexFunc 0 1 (n + 1) 1) = .ok ((List.range (n + 1)).map x) := by
  cases f with
  | none =>
    show defaultVertexFunc 0 1 (n + 1) 1 = _
    rw [C40_uniform n hn]
    congr 1
    apply List.map_congr_left
    intro i hi
    exact (hx i (by have := List.mem_range.1 hi; omega)).symm
  | some g =>
    show (linspace01 (n + 1)).mapM g = _
    rw [linspace01_succ, mapM_ok_iff, List.forall₂_map_left_iff, List.forall₂_map_right_iff, List.forall₂_same]
    intro i hi
    exact hx i (by have := List.mem_range.1 hi; omega)

/-- Meshing with clustering options samples the patch at the clustered parameters. -/
theorem stl_grid_clustered (F : Surf) (n : ℕ) (hn : 1 ≤ n) (f g : Option (ℝ → Res ℝ)) (x y : ℕ → ℝ) (hx : SampledBy f n x)
    (hy : SampledBy g n y) (P : ℕ → ℕ → V) (h : ∀ i ≤ n, ∀ j ≤ n, F (x i) (y j) = .ok (P i j)) :
    surfceToStl F n n { i_clustering := f, j_clustering := g } = .ok (gridMesh MeshArith.real false n n P) := by
  have hr : rList { i_clustering := f, j_clustering := g } n = .ok ((List.range (n + 1)).map x) := sampled_list f n hn x hx
  have hs : sList { i_clustering := f, j_clustering := g } n n = .ok ((List.range (n + 1)).map y) := sampled_list g n hn y hy
  unfold surfceToStl
  rw [hr, hs, ok_bind, ok_bind]
  apply meshFromLists_eq
  intro i hi j hj
  refine pointAt_ok.2 ⟨x i, y j, ?_, ?_, h i hi j hj⟩
  · rw [List.getElem?_map, List.getElem?_range (by omega)]; rfl
  · rw [List.getElem?_map, List.getElem?_range (by omega)]; rfl

/-- The grid of a patch at the samples. -/
noncomputable def sampleGrid (x y : ℕ → ℝ) (F : Surf) (i j : ℕ) : V := okv (F (x i) (y j))

theorem clustered_meshOf (ps : List (String × Surf)) (ht : AllTotal (ps.map Prod.snd)) (n : ℕ) (hn : 1 ≤ n)
    (f g : Option (ℝ → Res ℝ)) (x y : ℕ → ℝ) (hx : SampledBy f n x) (hy : SampledBy g n y) (sx : Samples n x) (sy : Samples n y) :
    MeshOf { i_clustering := f, j_clustering := g } (fun _ => n) (fun _ => n) ps
      (((ps.map Prod.snd).map (sampleGrid x y)).map (gridMesh MeshArith.real false n n)).flatten := by
  refine ⟨_, ?_, rfl⟩
  rw [List.map_map, List.map_map, List.forall₂_map_right_iff, List.forall₂_same]
  intro e he
  apply stl_grid_clustered e.2 n hn f g x y hx hy
  intro i hi j hj
  exact okv_eq (ht e.2 (List.mem_map_of_mem he) _ _ (sx.1 i hi).1 (sx.1 i hi).2 (sy.1 j hj).1 (sy.1 j hj).2)

theorem gridSide_sample (n : ℕ) (x y : ℕ → ℝ) (sx : Samples n x) (sy : Samples n y) (F : Surf) (k : Fin 4) (j : ℕ) :
    gridSide n (sampleGrid x y F) k j = okv (border F k (if alongR k then x j else y j)) := by
  fin_cases k <;> simp [gridSide, sampleGrid, border, alongR, sx.2.1, sx.2.2, sy.2.1, sy.2.2]

/-- Component meshes with clustering. -/
theorem clustered_mesh (c : Comp) (n : ℕ) (hn : 1 ≤ n) (hr : c.stl_resolution = .int n) (hm : c.mesh_ = none)
    (hs : c.surfaces = none) (hk : (c.patches.map Prod.fst).Nodup) (hne : c.patches ≠ []) (ht : AllTotal (c.patches.map Prod.snd))
    (f g : Option (ℝ → Res ℝ)) (hc : c.clustering = { i_clustering := f, j_clustering := g })
    (x y : ℕ → ℝ) (hx : SampledBy f n x) (hy : SampledBy g n y) (sx : Samples n x) (sy : Samples n y) :
    ∃ M c', c.mesh = (.ok M, c') ∧
      M.tris = (((c.patches.map Prod.snd).map (sampleGrid x y)).map (gridMesh MeshArith.real false n n)).flatten := by
  obtain ⟨M, c', h1, h2, -⟩ := (C52_mesh c n hn hr hm hs hk hne).1 _ (by
    rw [hc]; exact clustered_meshOf c.patches ht n hn f g x y hx hy sx sy)
  exact ⟨M, c', h1, h2⟩

/-- C100, where it holds for all clustering functions: if the sides of the patches of a component are glued in pairs that run
along the same parameter in the same direction, its mesh is closed whatever clustering functions are used in the two
directions (none, one or both). -/
theorem C100_along_partial (c : Comp) (n : ℕ) (hn : 1 ≤ n) (hr : c.stl_resolution = .int n) (hm : c.mesh_ = none)
    (hs : c.surfaces = none) (hk : (c.patches.map Prod.fst).Nodup) (hne : c.patches ≠ []) (ht : AllTotal (c.patches.map Prod.snd))
    (f g : Option (ℝ → Res ℝ)) (hf : ∀ u, f = some u → Clusters u) (hg : ∀ u, g = some u → Clusters u)
    (hc : c.clustering = { i_clustering := f, j_clustering := g }) (hsewn : SewnAlong (c.patches.map Prod.snd)) :
    ∃ M c', c.mesh = (.ok M, c') ∧ Closed M.tris := by
  obtain ⟨x, hx, sx⟩ := exists_samples f hf n hn
  obtain ⟨y, hy, sy⟩ := exists_samples g hg n hn
  obtain ⟨M, c', h1, h2⟩ := clustered_mesh c n hn hr hm hs hk hne ht f g hc x y hx hy sx sy
  refine ⟨M, c', h1, ?_⟩
  rw [h2]
  set ps := c.patches.map Prod.snd with hps
  obtain ⟨σ, hσ, h⟩ := hsewn
  have hl : (ps.map (sampleGrid x y)).length = ps.length := List.length_map _
  refine sewn_grids n _ (fun i => (Fin.cast hl.symm (σ (Fin.cast hl i.1, i.2)).1, (σ (Fin.cast hl i.1, i.2)).2)) ?_ ?_
  · intro i
    simp only [Fin.cast_cast, Fin.cast_eq_self, Prod.mk.eta, hσ _]
  · intro i
    have e : ∀ k : Fin (ps.map (sampleGrid x y)).length, (ps.map (sampleGrid x y))[k] = sampleGrid x y ps[Fin.cast hl k] := by
      intro k; simp
    simp only [e, gridSide_sample n x y sx sy, Fin.cast_cast, Fin.cast_eq_self]
    have hb : ∀ k : Fin 4, ∀ j ≤ n, 0 ≤ (if alongR k then x j else y j) ∧ (if alongR k then x j else y j) ≤ 1 := by
      intro k j hj
      split_ifs
      · exact sx.1 j hj
      · exact sy.1 j hj
    rcases h (Fin.cast hl i.1, i.2) with ⟨a1, p, a2⟩ | ⟨a1, a2, a3⟩
    · left
      refine ⟨?_, p, ?_⟩
      · rw [a1]; simp
      · intro j hj
        rw [a2 _ (hb _ j hj).1 (hb _ j hj).2]
        rfl
    · right; left
      refine ⟨a1, fun j hj => ?_⟩
      rw [gridSide_sample n x y sx sy, gridSide_sample n x y sx sy, ← a2]
      exact congrArg okv (a3 _ (hb _ j hj).1 (hb _ j hj).2)

/-- C100 for all glued components, as far as it holds: with one and the same symmetric clustering function in both directions
(or none at all) the mesh is closed.  Missing: other clustering functions, for which it fails. -/
theorem C100_symmetric_partial (c : Comp) (n : ℕ) (hn : 1 ≤ n) (hr : c.stl_resolution = .int n) (hm : c.mesh_ = none)
    (hs : c.surfaces = none) (hk : (c.patches.map Prod.fst).Nodup) (hne : c.patches ≠ []) (ht : AllTotal (c.patches.map Prod.snd))
    (f : Option (ℝ → Res ℝ)) (hf : ∀ u, f = some u → Clusters u ∧ Symmetric u)
    (hc : c.clustering = { i_clustering := f, j_clustering := f }) (hsewn : Sewn (c.patches.map Prod.snd)) :
    ∃ M c', c.mesh = (.ok M, c') ∧ Closed M.tris := by
  have hn0 : (n : ℝ) ≠ 0 := by positivity
  obtain ⟨x, hx, sx⟩ := exists_samples f (fun u hu => (hf u hu).1) n hn
  have hsym : ∀ j ≤ n, x (n - j) = 1 - x j := by
    intro j hj
    have ej : ((n - j : ℕ) : ℝ) / n = 1 - (j : ℝ) / n := by rw [Nat.cast_sub hj, sub_div, div_self hn0]
    cases f with
    | none => rw [hx j hj, hx (n - j) (by omega), ej]
    | some u =>
      have h1 := hx j hj
      have h2 := hx (n - j) (Nat.sub_le _ _)
      obtain ⟨a, b⟩ := unit_div n j hn hj
      rw [ej, (hf u rfl).2 _ _ a b h1] at h2
      exact (Except.ok.inj h2).symm
  obtain ⟨M, c', h1, h2⟩ := clustered_mesh c n hn hr hm hs hk hne ht f f hc x x hx hx sx sx
  refine ⟨M, c', h1, ?_⟩
  rw [h2]
  set ps := c.patches.map Prod.snd with hps
  obtain ⟨σ, hσ, h⟩ := hsewn
  have hl : (ps.map (sampleGrid x x)).length = ps.length := List.length_map _
  refine sewn_grids n _ (fun i => (Fin.cast hl.symm (σ (Fin.cast hl i.1, i.2)).1, (σ (Fin.cast hl i.1, i.2)).2)) ?_ ?_
  · intro i
    simp only [Fin.cast_cast, Fin.cast_eq_self, Prod.mk.eta, hσ _]
  · intro i
    have e : ∀ k : Fin (ps.map (sampleGrid x x)).length, (ps.map (sampleGrid x x))[k] = sampleGrid x x ps[Fin.cast hl k] := by
      intro k; simp
    simp only [e, gridSide_sample n x x sx sx, Fin.cast_cast, Fin.cast_eq_self, ite_self]
    rcases h (Fin.cast hl i.1, i.2) with ⟨a1, p, a2⟩ | ⟨a1, a3⟩ | ⟨a1, a3⟩
    · left
      refine ⟨?_, p, ?_⟩
      · rw [a1]; simp
      · intro j hj
        rw [a2 _ (sx.1 j hj).1 (sx.1 j hj).2]
        rfl
    · right; left
      refine ⟨a1, fun j hj => ?_⟩
      rw [gridSide_sample n x x sx sx, gridSide_sample n x x sx sx, ite_self, ite_self]
      exact congrArg okv (a3 _ (sx.1 j hj).1 (sx.1 j hj).2)
    · right; right
      refine ⟨a1, fun j hj => ?_⟩
      rw [gridSide_sample n x x sx sx, gridSide_sample n x x sx sx, ite_self, ite_self, hsym j hj]
      exact congrArg okv (a3 _ (sx.1 j hj).1 (sx.1 j hj).2)

/-! ## Generated components -/

theorem sewnAlong_ofFn {m : ℕ} (F : Fin m → Surf) (σ : Fin m × Fin 4 → Fin m × Fin 4) (hσ : Function.Involutive σ)
    (h : ∀ i, (σ i = i ∧ ∃ p, ∀ t, 0 ≤ t → t ≤ 1 → border (F i.1) i.2 t = .ok p) ∨
      (forwards i.2 ≠ forwards (σ i).2 ∧ alongR i.2 = alongR (σ i).2 ∧
        ∀ t, 0 ≤ t → t ≤ 1 → border (F (σ i).1) (σ i).2 t = border (F i.1) i.2 t)) : SewnAlong (List.ofFn F) := by
  have hl : (List.ofFn F).length = m := List.length_ofFn
  refine ⟨fun i => (Fin.cast hl.symm (σ (Fin.cast hl i.1, i.2)).1, (σ (Fin.cast hl i.1, i.2)).2), ?_, ?_⟩
  · intro i
    simp only [Fin.cast_cast, Fin.cast_eq_self, Prod.mk.eta, hσ _]
  · intro i
    have e : ∀ k : Fin (List.ofFn F).length, (List.ofFn F)[k] = F (Fin.cast hl k) := by intro k; simp [Fin.cast]
    simp only [e, Fin.cast_cast, Fin.cast_eq_self]
    rcases h (Fin.cast hl i.1, i.2) with ⟨a, b⟩ | ⟨a, b⟩
    · left
      refine ⟨?_, b⟩
      rw [a]; simp
    · right
      exact ⟨a, b⟩

theorem sewn_ofFn {m : ℕ} (F : Fin m → Surf) (σ : Fin m × Fin 4 → Fin m × Fin 4) (hσ : Function.Involutive σ)
    (h : ∀ i, (σ i = i ∧ ∃ p, ∀ t, 0 ≤ t → t ≤ 1 → border (F i.1) i.2 t = .ok p) ∨
      (forwards i.2 ≠ forwards (σ i).2 ∧ ∀ t, 0 ≤ t → t ≤ 1 → border (F (σ i).1) (σ i).2 t = border (F i.1) i.2 t) ∨
      (forwards i.2 = forwards (σ i).2 ∧ ∀ t, 0 ≤ t → t ≤ 1 → border (F (σ i).1) (σ i).2 t = border (F i.1) i.2 (1 - t))) :
    Sewn (List.ofFn F) := by
  have hl : (List.ofFn F).length = m := List.length_ofFn
  refine ⟨fun i => (Fin.cast hl.symm (σ (Fin.cast hl i.1, i.2)).1, (σ (Fin.cast hl i.1, i.2)).2), ?_, ?_⟩
  · intro i
    simp only [Fin.cast_cast, Fin.cast_eq_self, Prod.mk.eta, hσ _]
  · intro i
    have e : ∀ k : Fin (List.ofFn F).length, (List.ofFn F)[k] = F (Fin.cast hl k) := by intro k; simp [Fin.cast]
    simp only [e, Fin.cast_cast, Fin.cast_eq_self]
    rcases h (Fin.cast hl i.1, i.2) with ⟨a, b⟩ | ⟨a, b⟩ | ⟨a, b⟩
    · left
      refine ⟨?_, b⟩
      rw [a]; simp
    · right; left
      exact ⟨a, b⟩
    · right; right
      exact ⟨a, b⟩

/-- Generating the patches of a new component with clustering options. -/
theorem generated_comp (h : Heap) (id : ℕ) (out : Reso → GenOut) (hgen : (h id).gen = .into out) (res : Reso)
    (hres : (h id).stl_resolution = res) (hp : (h id).patches = []) (herr : (out res).err = none)
    (hk : ((out res).items.map Prod.fst).Nodup) :
    ∃ h', generatePatches h id = (.ok (), h') ∧ (h' id).patches = (out res).items ∧
      (h' id).stl_resolution = (h id).stl_resolution ∧ (h' id).mesh_ = (h id).mesh_ ∧ (h' id).surfaces = (h id).surfaces ∧
      (h' id).clustering = (h id).clustering := by
  have hg : generatePatches h id = (.ok (), h.upd id ((h id).genInto (out res)).2) := by
    simp only [generatePatches, Composite.genLeaf, hgen, Comp.genInto, hres, herr]
  refine ⟨_, hg, ?_⟩
  rw [upd_self]
  refine ⟨?_, rfl, rfl, rfl, rfl⟩
  simp only [Comp.genInto, hp]
  exact Dict.setAll_nil_nodup _ hk

theorem addClusteringOptions_new (c : Comp) (hc : c.clustering = {}) (f g : Option (ℝ → Res ℝ)) :
    c.addClusteringOptions f g = { c with clustering := { i_clustering := f, j_clustering := g } } := by
  unfold Comp.addClusteringOptions
  rw [hc]
  cases f <;> cases g <;> rfl

/-- C100 for bodies of revolution: they stay watertight under any clustering functions in either direction. -/
theorem C100_revolved_partial (line : PathObj) (f : ℝ → V) (hl : ∀ t, 0 ≤ t → t ≤ 1 → line.call t = .ok (f t))
    (h0 : (f 0).y = 0 ∧ (f 0).z = 0) (h1 : (f 1).y = 0 ∧ (f 1).z = 0) (n : ℕ) (hn : 1 ≤ n) (name : Option String)
    (u v : Option (ℝ → Res ℝ)) (hu : ∀ w, u = some w → Clusters w) (hv : ∀ w, v = some w → Clusters w)
    (h : Heap) (id : ℕ) (hid : h id = (RevolvedComponent line n name).addClusteringOptions u v) :
    ∃ h' M c', generatePatches h id = (.ok (), h') ∧ (h' id).mesh = (.ok M, c') ∧ Closed M.tris := by
  rw [addClusteringOptions_new _ rfl] at hid
  have hsteps : runSteps ((List.range 4).map fun (i : ℕ) => GenStep.patch ("revolved_fuse_" ++ toString i)
      (.ok (RevolvedPatch line (i * Real.pi / 2) (((i : ℝ) + 1) * Real.pi / 2)))) =
      ⟨(List.range 4).map fun (i : ℕ) => ("revolved_fuse_" ++ toString i,
        RevolvedPatch line (i * Real.pi / 2) (((i : ℝ) + 1) * Real.pi / 2)), [], [], none⟩ :=
    runSteps_patches (List.range 4) (fun i => "revolved_fuse_" ++ toString i)
      (fun (i : ℕ) => RevolvedPatch line (i * Real.pi / 2) (((i : ℝ) + 1) * Real.pi / 2))
  obtain ⟨h', g1, g2, g3, g4, g5, g6⟩ := generated_comp h id (fun _ => runSteps ((List.range 4).map fun (i : ℕ) =>
      GenStep.patch ("revolved_fuse_" ++ toString i)
      (.ok (RevolvedPatch line (i * Real.pi / 2) (((i : ℝ) + 1) * Real.pi / 2))))) (by rw [hid]; rfl) (.int n)
    (by rw [hid]; rfl) (by rw [hid]; rfl) (by rw [hsteps]) (by rw [hsteps, List.map_map]; exact prefix_ix_nodup _ 4)
  rw [hsteps] at g2
  dsimp only at g2
  set F : Fin 4 → Surf := fun k => RevolvedPatch line ((k : ℕ) * Real.pi / 2) ((((k : ℕ) : ℝ) + 1) * Real.pi / 2) with hF
  have hps : (h' id).patches.map Prod.snd = List.ofFn F := by
    rw [g2, List.map_map]
    rfl
  have hnd : ((h' id).patches.map Prod.fst).Nodup := by
    rw [g2, List.map_map]; exact prefix_ix_nodup _ 4
  have hval : ∀ (k : Fin 4) (r s : ℝ), 0 ≤ r → r ≤ 1 → F k r s = .ok (revolveRot
      (((k : ℕ) * Real.pi / 2) * (1 - s) + ((((k : ℕ) : ℝ) + 1) * Real.pi / 2) * s) (f r)) := by
    intro k r s r0 r1
    exact RevolvedPatch_eq line _ _ r s _ (hl r r0 r1)
  obtain ⟨M, c', m1, m2⟩ := C100_along_partial (h' id) n hn (by rw [g3, hid]; rfl) (by rw [g4, hid]; rfl) (by rw [g5, hid]; rfl)
    hnd (by rw [g2]; simp) (by
      rw [hps]
      intro G hG r s r0 r1 _ _
      obtain ⟨k, rfl⟩ := (List.mem_ofFn' _ _).1 hG
      exact ⟨_, hval k r s r0 r1⟩) u v hu hv (by rw [g6, hid]) (by
      rw [hps]
      refine sewnAlong_ofFn F (fun i => match i.2 with
        | 0 => (i.1 + 3, 2)
        | 1 => (i.1, 1)
        | 2 => (i.1 + 1, 0)
        | 3 => (i.1, 3)) (fun i => by revert i; decide) ?_
      have hseam : ∀ (k : Fin 4) (t : ℝ), 0 ≤ t → t ≤ 1 → F (k + 1) t 0 = F k t 1 := by
        intro k t t0 t1
        rw [hval _ _ _ t0 t1, hval _ _ _ t0 t1]
        congr 1
        have key : ∀ m : ℕ, (m = (k : ℕ) + 1 ∨ ((k : ℕ) = 3 ∧ m = 0)) →
            revolveRot ((m : ℝ) * Real.pi / 2 * (1 - 0) + (((m : ℝ) + 1) * Real.pi / 2) * 0) (f t) =
            revolveRot (((k : ℕ) : ℝ) * Real.pi / 2 * (1 - 1) + ((((k : ℕ) : ℝ) + 1) * Real.pi / 2) * 1) (f t) := by
          rintro m (rfl | ⟨hk, rfl⟩)
          · congr 1
            push_cast
            ring
          · rw [hk]
            have e1 : ((0 : ℕ) : ℝ) * Real.pi / 2 * (1 - 0) + ((((0 : ℕ) : ℝ) + 1) * Real.pi / 2) * 0 = 0 := by simp
            have e2 : ((3 : ℕ) : ℝ) * Real.pi / 2 * (1 - 1) + ((((3 : ℕ) : ℝ) + 1) * Real.pi / 2) * 1 = 2 * Real.pi := by
              push_cast; ring
            rw [e1, e2]
            simp [revolveRot]
        apply key
        clear key
        revert k
        decide
      rintro ⟨k, s⟩
      fin_cases s
      · right
        refine ⟨by decide +revert, by decide +revert, fun t t0 t1 => ?_⟩
        show F (k + 3) t 1 = F k t 0
        rw [← hseam (k + 3) t t0 t1]
        congr 1
        fin_cases k <;> rfl
      · left
        refine ⟨rfl, ⟨(f 1).x, 0, 0⟩, fun t t0 t1 => ?_⟩
        show F k 1 t = _
        rw [hval _ _ _ zero_le_one le_rfl]
        simp [revolveRot, h1.1, h1.2]
      · right
        refine ⟨by decide +revert, by decide +revert, fun t t0 t1 => hseam k t t0 t1⟩
      · left
        refine ⟨rfl, ⟨(f 0).x, 0, 0⟩, fun t t0 t1 => ?_⟩
        show F k 0 t = _
        rw [hval _ _ _ le_rfl zero_le_one]
        simp [revolveRot, h0.1, h0.2])
  exact ⟨h', M, c', g1, m1, m2⟩

/-- The end patches of a swept component and their sides. -/
theorem end_borders (S : List (List PathObj)) (hcl : ExactlyClosed S) (htot : EdgesTotal S) (cs : List PathObj)
    (hcs : cs ∈ S) (h4 : cs.length = 4) :
    (∀ (_ : S[0]? = some cs), ∃ F, Swept.frontPatch S = .ok F ∧ AllTotal [F] ∧ ∀ t, 0 ≤ t → t ≤ 1 →
      border F 0 t = (edgeOf 0 cs).call t ∧ border F 1 t = (edgeOf 1 cs).call t ∧
      border F 2 t = (edgeOf 2 cs).call (1 - t) ∧ border F 3 t = (edgeOf 3 cs).call (1 - t)) ∧
    (∀ (_ : S[S.length - 1]? = some cs), ∃ F, Swept.rearPatch S = .ok F ∧ AllTotal [F] ∧ ∀ t, 0 ≤ t → t ≤ 1 →
      border F 0 t = (edgeOf 0 cs).call (1 - t) ∧ border F 1 t = (edgeOf 3 cs).call (1 - t) ∧
      border F 2 t = (edgeOf 2 cs).call t ∧ border F 3 t = (edgeOf 1 cs).call t) := by
  have ht : ∀ ne < 4, ∀ t : ℝ, 0 ≤ t → t ≤ 1 → ∃ p, (edgeOf ne cs).call t = .ok p := fun ne hne =>
    htot cs hcs _ (edgeOf_mem (by omega))
  have hr : ∀ ne < 4, ∀ t : ℝ, 0 ≤ t → t ≤ 1 → ∃ p, (ReversedPath (edgeOf ne cs)).call t = .ok p := by
    intro ne hne t t0 t1
    rw [reversed_call]
    exact ht ne hne _ (by linarith) (by linarith)
  have hj : ∀ ne < 4, (edgeOf ne cs).call 1 = (edgeOf ((ne + 1) % 4) cs).call 0 := by
    intro ne hne
    refine hcl cs hcs ne _ _ (getElem?_edgeOf (by omega)) ?_
    rw [h4]
    exact getElem?_edgeOf (by omega)
  have hg : ∀ ne < 4, SweptPatch.getIdx cs ne = .ok (edgeOf ne cs) := fun ne hne => by
    rw [getIdx_ok]; exact getElem?_edgeOf (by omega)
  have j0 := hj 0 (by omega)
  have j1 := hj 1 (by omega)
  have j2 := hj 2 (by omega)
  have j3 := hj 3 (by omega)
  simp only [zero_add, Nat.reduceAdd, Nat.reduceMod] at j0 j1 j2 j3
  constructor
  · intro hf
    obtain ⟨F, hF, hs⟩ := coons_sides (ReversedPath (edgeOf 2 cs)) (edgeOf 1 cs) (edgeOf 0 cs) (ReversedPath (edgeOf 3 cs))
      (hr 2 (by omega)) (ht 1 (by omega)) (ht 0 (by omega)) (hr 3 (by omega))
      (by rw [reversed_call, sub_zero, j3]) (by rw [j0])
      (by rw [reversed_call, reversed_call, sub_zero, sub_self, j2]) (by rw [reversed_call, sub_self, j1])
    refine ⟨F, ?_, ?_, ?_⟩
    · unfold Swept.frontPatch
      rw [getIdx_ok.2 hf]
      simp only [ok_bind, hg 0 (by omega), hg 1 (by omega), hg 2 (by omega), hg 3 (by omega)]
      exact hF
    · intro G hG r s r0 r1 s0 s1
      rw [List.mem_singleton] at hG
      subst hG
      exact (hs r s r0 r1 s0 s1).1
    · intro t t0 t1
      obtain ⟨-, b0, b2, b3, b1⟩ := hs t t t0 t1 t0 t1
      rw [reversed_call] at b2 b3
      exact ⟨b0, b1, b2, b3⟩
  · intro hl
    obtain ⟨F, hF, hs⟩ := coons_sides (edgeOf 2 cs) (ReversedPath (edgeOf 3 cs)) (ReversedPath (edgeOf 0 cs)) (edgeOf 1 cs)
      (ht 2 (by omega)) (hr 3 (by omega)) (hr 0 (by omega)) (ht 1 (by omega))
      (by rw [reversed_call, sub_zero, j0]) (by rw [reversed_call, reversed_call, sub_zero, sub_self, j3])
      (by rw [j1]) (by rw [reversed_call, sub_self, j2])
    refine ⟨F, ?_, ?_, ?_⟩
    · unfold Swept.rearPatch
      rw [getIdx_ok.2 hl]
      simp only [ok_bind, hg 0 (by omega), hg 1 (by omega), hg 2 (by omega), hg 3 (by omega)]
      exact hF
    · intro G hG r s r0 r1 s0 s1
      rw [List.mem_singleton] at hG
      subst hG
      exact (hs r s r0 r1 s0 s1).1
    · intro t t0 t1
      obtain ⟨-, b0, b2, b3, b1⟩ := hs t t t0 t1 t0 t1
      rw [reversed_call] at b0 b1
      exact ⟨b0, b1, b2, b3⟩

/-- The six patches of a closed-ended swept component, with the sides described by the edges of the sections. -/
theorem swept_patches (S : List (List PathObj)) (first last : List PathObj) (hf : S[0]? = some first)
    (hl : S[S.length - 1]? = some last) (h2 : 2 ≤ S.length) (hlen : ∀ cs ∈ S, cs.length = 4) (htot : EdgesTotal S)
    (hcl : ExactlyClosed S) (n : ℕ) (hn : 1 ≤ n) (name : Option String) (f g : Option (ℝ → Res ℝ)) :
    ∃ c, Swept.init S true (.int n) name = .ok c ∧ ∀ (h : Heap) (id : ℕ), h id = c.addClusteringOptions f g →
    ∃ h' F, generatePatches h id = (.ok (), h') ∧ (h' id).patches.map Prod.snd = List.ofFn (n := 6) F ∧
      (h' id).stl_resolution = .int n ∧ (h' id).mesh_ = none ∧ (h' id).surfaces = none ∧
      (h' id).clustering = { i_clustering := f, j_clustering := g } ∧ ((h' id).patches.map Prod.fst).Nodup ∧
      AllTotal (List.ofFn F) ∧
      (∀ t : ℝ, F 0 t 1 = F 1 t 0 ∧ F 1 t 1 = F 2 t 0 ∧ F 2 t 1 = F 3 t 0 ∧ F 3 t 1 = F 0 t 0) ∧
      (∀ t : ℝ, F 0 0 t = (edgeOf 0 first).call t ∧ F 1 0 t = (edgeOf 1 first).call t ∧ F 2 0 t = (edgeOf 2 first).call t ∧
        F 3 0 t = (edgeOf 3 first).call t) ∧
      (∀ t : ℝ, F 0 1 t = (edgeOf 0 last).call t ∧ F 1 1 t = (edgeOf 1 last).call t ∧ F 2 1 t = (edgeOf 2 last).call t ∧
        F 3 1 t = (edgeOf 3 last).call t) ∧
      (∀ t : ℝ, 0 ≤ t → t ≤ 1 → F 4 t 0 = (edgeOf 0 first).call t ∧ F 4 1 t = (edgeOf 1 first).call t ∧
        F 4 t 1 = (edgeOf 2 first).call (1 - t) ∧ F 4 0 t = (edgeOf 3 first).call (1 - t)) ∧
      (∀ t : ℝ, 0 ≤ t → t ≤ 1 → F 5 t 0 = (edgeOf 0 last).call (1 - t) ∧ F 5 1 t = (edgeOf 3 last).call (1 - t) ∧
        F 5 t 1 = (edgeOf 2 last).call t ∧ F 5 0 t = (edgeOf 1 last).call t) := by
  obtain ⟨c, hc, -⟩ := closed_swept_mesh S first last hf hl h2 hlen htot hcl (.int n) n n (.inl ⟨rfl, rfl⟩) hn hn name
  refine ⟨c, hc, ?_⟩
  have hfm : first ∈ S := List.mem_of_getElem? hf
  have hlm : last ∈ S := List.mem_of_getElem? hl
  have h4 : first.length = 4 := hlen _ hfm
  have hcomp : c = Swept.comp S 4 true (.int n) name := by
    have hg : SweptPatch.getIdx S 0 = .ok first := by rw [getIdx_ok]; exact hf
    unfold Swept.init at hc
    rw [hg, ok_bind, bind_ok] at hc
    obtain ⟨u, -, hu⟩ := hc
    cases hu
    rw [h4]
  subst hcomp
  intro h id hid
  rw [addClusteringOptions_new _ rfl] at hid
  obtain ⟨F0, hF0, ht0, hb0⟩ := (end_borders S hcl htot first hfm h4).1 hf
  obtain ⟨F1, hF1, ht1, hb1⟩ := (end_borders S hcl htot last hlm (hlen _ hlm)).2 hl
  set W : ℕ → Surf := fun ne => SweptPatchfromEdges (S.map (edgeOf ne)) with hW
  have hsteps : runSteps (Swept.steps S 4 true (.int n)) = ⟨((List.range 4).map fun ne => ("swept_patch_" ++ toString ne, W ne)) ++
        [("swept_patch_end_0", F0), ("swept_patch_end_1", F1)],
      ((List.range 4).map fun ne => ("swept_patch_" ++ toString ne, n)) ++ [("swept_patch_end_0", n), ("swept_patch_end_1", n)],
      ((List.range 4).map fun ne => ("swept_patch_" ++ toString ne, n)) ++
        [("swept_patch_end_0", n), ("swept_patch_end_1", n)], none⟩ := by
    have hedges := runSteps_edges S (.int n) W n (fun _ => n) (List.range 4)
      (fun ne hne => edgePatch_eq S 4 hlen ne (List.mem_range.1 hne)) rfl (fun _ _ => rfl)
    have hends : runSteps (Swept.endSteps S (.int n)) = ⟨[("swept_patch_end_0", F0), ("swept_patch_end_1", F1)],
        [("swept_patch_end_0", n), ("swept_patch_end_1", n)], [("swept_patch_end_0", n), ("swept_patch_end_1", n)], none⟩ := by
      simp [Swept.endSteps, hF0, hF1, Swept.resOf, runSteps]
    unfold Swept.steps
    simp only [if_true]
    rw [runSteps_append _ _ (by rw [hedges]), hedges, hends]
  have hnames : ((List.range 4).map fun ne => "swept_patch_" ++ toString ne) =
      ["swept_patch_0", "swept_patch_1", "swept_patch_2", "swept_patch_3"] := by decide
  have hnd : ((runSteps (Swept.steps S 4 true (.int n))).items.map Prod.fst).Nodup := by
    rw [hsteps]
    simp only [List.map_append, List.map_map, Function.comp_def, hnames]
    simp
  obtain ⟨h', g1, g2, g3, g4, g5, g6⟩ := generated_comp h id (fun res => runSteps (Swept.steps S 4 true res))
    (by rw [hid]; rfl) (.int n) (by rw [hid]; rfl) (by rw [hid]; rfl) (by rw [hsteps]) hnd
  have hseam : ∀ ne < 4, ∀ t : ℝ, W ne t 1 = W ((ne + 1) % 4) t 0 := by
    intro ne hne t
    apply swept_congr
    intro cs hcs
    refine hcl cs hcs ne _ _ (getElem?_edgeOf (by rw [hlen cs hcs]; exact hne)) ?_
    rw [hlen cs hcs]
    exact getElem?_edgeOf (by rw [hlen cs hcs]; exact Nat.mod_lt _ (by omega))
  have hfirst : ∀ ne (t : ℝ), W ne 0 t = (edgeOf ne first).call t := by
    intro ne t
    have := C30_on_edges (S.map (edgeOf ne)) 0 (by rw [List.length_map]; omega) (by rwa [List.length_map]) t
    simp only [Nat.cast_zero, zero_div] at this
    rw [hW]
    dsimp only
    rw [this, List.getElem_map]
    have : S[0] = first := (List.getElem?_eq_some_iff.1 hf).2
    rw [this]
  have hlast : ∀ ne (t : ℝ), W ne 1 t = (edgeOf ne last).call t := by
    intro ne t
    have := C30_on_edges (S.map (edgeOf ne)) (S.length - 1) (by rw [List.length_map]; omega) (by rwa [List.length_map]) t
    have e : (((S.length - 1 : ℕ) : ℝ) / (((S.map (edgeOf ne)).length : ℝ) - 1)) = 1 := by
      rw [List.length_map, Nat.cast_sub (by omega), Nat.cast_one, div_self]
      have : (2 : ℝ) ≤ S.length := by exact_mod_cast h2
      linarith
    rw [e] at this
    rw [hW]
    dsimp only
    rw [this, List.getElem_map]
    have : S[S.length - 1] = last := (List.getElem?_eq_some_iff.1 hl).2
    rw [this]
  refine ⟨h', ![W 0, W 1, W 2, W 3, F0, F1], g1, ?_, by rw [g3, hid]; rfl, by rw [g4, hid]; rfl, by rw [g5, hid]; rfl,
    by rw [g6, hid], by rw [g2]; exact hnd, ?_, ?_, ?_, ?_, ?_, ?_⟩
  · rw [g2, hsteps]; rfl
  · have hWt : ∀ ne < 4, AllTotal [W ne] := by
      intro ne hne G hG r s r0 r1 s0 s1
      rw [List.mem_singleton] at hG
      subst hG
      refine (C30_total (S.map (edgeOf ne)) (by rwa [List.length_map]) _ _).1 r0 r1 ?_
      intro e he
      obtain ⟨cs, hcs, rfl⟩ := List.mem_map.1 he
      exact htot cs hcs _ (edgeOf_mem (by rw [hlen cs hcs]; exact hne)) _ s0 s1
    intro G hG
    obtain ⟨k, rfl⟩ := (List.mem_ofFn' _ _).1 hG
    fin_cases k
    · exact hWt 0 (by omega) _ (by simp)
    · exact hWt 1 (by omega) _ (by simp)
    · exact hWt 2 (by omega) _ (by simp)
    · exact hWt 3 (by omega) _ (by simp)
    · exact ht0 _ (by simp)
    · exact ht1 _ (by simp)
  · intro t
    exact ⟨hseam 0 (by omega) t, hseam 1 (by omega) t, hseam 2 (by omega) t, hseam 3 (by omega) t⟩
  · intro t
    exact ⟨hfirst 0 t, hfirst 1 t, hfirst 2 t, hfirst 3 t⟩
  · intro t
    exact ⟨hlast 0 t, hlast 1 t, hlast 2 t, hlast 3 t⟩
  · exact hb0
  · exact hb1

/-- How the sides of the six patches are glued. -/
def sweptGlue : Fin 6 × Fin 4 → Fin 6 × Fin 4
  | (0, 0) => (3, 2) | (1, 0) => (0, 2) | (2, 0) => (1, 2) | (3, 0) => (2, 2)
  | (0, 2) => (1, 0) | (1, 2) => (2, 0) | (2, 2) => (3, 0) | (3, 2) => (0, 0)
  | (0, 3) => (4, 0) | (1, 3) => (4, 1) | (2, 3) => (4, 2) | (3, 3) => (4, 3)
  | (4, 0) => (0, 3) | (4, 1) => (1, 3) | (4, 2) => (2, 3) | (4, 3) => (3, 3)
  | (0, 1) => (5, 0) | (1, 1) => (5, 3) | (2, 1) => (5, 2) | (3, 1) => (5, 1)
  | (5, 0) => (0, 1) | (5, 3) => (1, 1) | (5, 2) => (2, 1) | (5, 1) => (3, 1)

/-- C100 for swept components with closed ends: with one symmetric clustering function in both directions, or none, they are
watertight.  Missing: other clustering functions, for which it fails. -/
theorem C100_swept_partial (S : List (List PathObj)) (h2 : 2 ≤ S.length) (hlen : ∀ cs ∈ S, cs.length = 4) (htot : EdgesTotal S)
    (hcl : ExactlyClosed S) (n : ℕ) (hn : 1 ≤ n) (name : Option String) (f : Option (ℝ → Res ℝ))
    (hf : ∀ u, f = some u → Clusters u ∧ Symmetric u) :
    ∃ c, Swept.init S true (.int n) name = .ok c ∧ ∀ (h : Heap) (id : ℕ), h id = c.addClusteringOptions f f →
    ∃ h' M c', generatePatches h id = (.ok (), h') ∧ (h' id).mesh = (.ok M, c') ∧ Closed M.tris := by
  obtain ⟨c, hc, hh⟩ := swept_patches S S[0] S[S.length - 1] (by simp) (by simp) h2 hlen htot hcl n hn name f f
  refine ⟨c, hc, ?_⟩
  intro h id hid
  obtain ⟨h', F, g1, g2, g3, g4, g5, g6, g7, g8, b1, b2, b3, b4, b5⟩ := hh h id hid
  obtain ⟨M, c', m1, m2⟩ := C100_symmetric_partial (h' id) n hn g3 g4 g5 g7 (by
      intro he
      rw [he] at g2
      simp at g2) (by rw [g2]; exact g8) f hf g6 (by
      rw [g2]
      refine sewn_ofFn F sweptGlue (fun i => by revert i; decide) ?_
      rintro ⟨k, s⟩
      right
      fin_cases k <;> fin_cases s
      · left; exact ⟨by decide, fun t _ _ => (b1 t).2.2.2⟩
      · right; exact ⟨by decide, fun t t0 t1 => (b5 t t0 t1).1.trans (b3 _).1.symm⟩
      · left; exact ⟨by decide, fun t _ _ => (b1 t).1.symm⟩
      · left; exact ⟨by decide, fun t t0 t1 => (b4 t t0 t1).1.trans (b2 _).1.symm⟩
      · left; exact ⟨by decide, fun t _ _ => (b1 t).1⟩
      · left; exact ⟨by decide, fun t t0 t1 => (b5 t t0 t1).2.2.2.trans (b3 _).2.1.symm⟩
      · left; exact ⟨by decide, fun t _ _ => (b1 t).2.1.symm⟩
      · left; exact ⟨by decide, fun t t0 t1 => (b4 t t0 t1).2.1.trans (b2 _).2.1.symm⟩
      · left; exact ⟨by decide, fun t _ _ => (b1 t).2.1⟩
      · left; exact ⟨by decide, fun t t0 t1 => (b5 t t0 t1).2.2.1.trans (b3 _).2.2.1.symm⟩
      · left; exact ⟨by decide, fun t _ _ => (b1 t).2.2.1.symm⟩
      · right; exact ⟨by decide, fun t t0 t1 => (b4 t t0 t1).2.2.1.trans (b2 _).2.2.1.symm⟩
      · left; exact ⟨by decide, fun t _ _ => (b1 t).2.2.1⟩
      · right; exact ⟨by decide, fun t t0 t1 => (b5 t t0 t1).2.1.trans (b3 _).2.2.2.symm⟩
      · left; exact ⟨by decide, fun t _ _ => (b1 t).2.2.2.symm⟩
      · right; exact ⟨by decide, fun t t0 t1 => (b4 t t0 t1).2.2.2.trans (b2 _).2.2.2.symm⟩
      all_goals
        have r0 : ∀ t : ℝ, 1 - (1 - t) = t := fun t => by ring
      · left; exact ⟨by decide, fun t t0 t1 => (b2 t).1.trans (b4 t t0 t1).1.symm⟩
      · left; exact ⟨by decide, fun t t0 t1 => (b2 t).2.1.trans (b4 t t0 t1).2.1.symm⟩
      · right; exact ⟨by decide, fun t t0 t1 => (b2 t).2.2.1.trans (by
          have := (b4 (1 - t) (by linarith) (by linarith)).2.2.1
          rw [r0] at this
          exact this.symm)⟩
      · right; exact ⟨by decide, fun t t0 t1 => (b2 t).2.2.2.trans (by
          have := (b4 (1 - t) (by linarith) (by linarith)).2.2.2
          rw [r0] at this
          exact this.symm)⟩
      · right; exact ⟨by decide, fun t t0 t1 => (b3 t).1.trans (by
          have := (b5 (1 - t) (by linarith) (by linarith)).1
          rw [r0] at this
          exact this.symm)⟩
      · right; exact ⟨by decide, fun t t0 t1 => (b3 t).2.2.2.trans (by
          have := (b5 (1 - t) (by linarith) (by linarith)).2.1
          rw [r0] at this
          exact this.symm)⟩
      · left; exact ⟨by decide, fun t t0 t1 => (b3 t).2.2.1.trans (b5 t t0 t1).2.2.1.symm⟩
      · left; exact ⟨by decide, fun t t0 t1 => (b3 t).2.1.trans (b5 t t0 t1).2.2.2.symm⟩)
  exact ⟨h', M, c', g1, m1, m2⟩

/-- Clustering towards 0, keeping both ends of the unit interval. -/
theorem square_clusters : Clusters fun t => .ok (t ^ 2) :=
  ⟨fun t t0 t1 => ⟨_, rfl, by positivity, by nlinarith⟩, by norm_num, by norm_num⟩

/-- C100 fails: with a clustering function in the `i` direction alone, the watertight unit box gets a mesh that is not closed,
because the end patches sample the section edges with either parameter while the walls use the second one only. -/
theorem C100_violated : ∃ (S : List (List PathObj)) (n : ℕ) (f : ℝ → Res ℝ) (c : Comp), 2 ≤ S.length ∧ (∀ cs ∈ S, cs.length = 4) ∧
    EdgesTotal S ∧ ExactlyClosed S ∧ 1 ≤ n ∧ Clusters f ∧ Swept.init S true (.int n) none = .ok c ∧
    ∀ (h : Heap) (id : ℕ), h id = c.addClusteringOptions (some f) none →
    ∃ h' M c', generatePatches h id = (.ok (), h') ∧ (h' id).mesh = (.ok M, c') ∧ ¬ Closed M.tris := by
  obtain ⟨h1, h2, h3⟩ := squareSections [squareSection 0, squareSection 1] (by simp)
  obtain ⟨c, hc, hh⟩ := swept_patches [squareSection 0, squareSection 1] (squareSection 0) (squareSection 1) rfl rfl (by simp)
    h1 h2 h3 2 (by norm_num) none (some fun t => .ok (t ^ 2)) none
  refine ⟨_, 2, _, c, by simp, h1, h2, h3, by norm_num, square_clusters, hc, ?_⟩
  intro h id hid
  obtain ⟨h', F, g1, g2, g3, g4, g5, g6, g7, g8, b1, b2, b3, b4, b5⟩ := hh h id hid
  obtain ⟨x, hx⟩ : ∃ x : ℕ → ℝ, x = fun i : ℕ => ((i : ℝ) / (2 : ℕ)) ^ 2 := ⟨_, rfl⟩
  obtain ⟨y, hy⟩ : ∃ y : ℕ → ℝ, y = fun i : ℕ => (i : ℝ) / (2 : ℕ) := ⟨_, rfl⟩
  have sx : Samples 2 x := by
    rw [hx]
    refine ⟨fun i hi => ?_, by norm_num, by norm_num⟩
    obtain ⟨a, b⟩ := unit_div 2 i (by norm_num) hi
    exact ⟨by positivity, by nlinarith⟩
  have sy : Samples 2 y := by
    rw [hy]
    exact ⟨fun i hi => unit_div 2 i (by norm_num) hi, by norm_num, by norm_num⟩
  obtain ⟨M, c', m1, m2⟩ := clustered_mesh (h' id) 2 (by norm_num) g3 g4 g5 g7 (by
      intro he
      rw [he] at g2
      simp at g2) (by rw [g2]; exact g8) _ _ g6 x y (by rw [hx]; exact fun i _ => rfl) (by rw [hy]; exact fun i _ => rfl) sx sy
  refine ⟨h', M, c', g1, m1, ?_⟩
  intro hclosed
  have hanti : Anti midWeight := by
    intro a b
    unfold midWeight
    ring
  have h0 := edgeSum_eq_zero_of_balanced midWeight hanti (fun a ha => by linarith) _ hclosed
  rw [m2, g2, edgeSum_grids midWeight hanti, List.map_ofFn, List.map_ofFn, List.sum_ofFn] at h0
  have x0 : x 0 = 0 := sx.2.1
  have x1 : x 1 = 1 / 4 := by rw [hx]; norm_num
  have x2 : x 2 = 1 := sx.2.2
  have y0 : y 0 = 0 := sy.2.1
  have y1 : y 1 = 1 / 2 := by rw [hy]; norm_num
  have y2 : y 2 = 1 := sy.2.2
  have u0 : (0 : ℝ) ≤ 0 ∧ (0 : ℝ) ≤ 1 := by norm_num
  have u1 : (0 : ℝ) ≤ 1 ∧ (1 : ℝ) ≤ 1 := by norm_num
  have uh : (0 : ℝ) ≤ 1 / 2 ∧ (1 / 2 : ℝ) ≤ 1 := by norm_num
  have uq : (0 : ℝ) ≤ 1 / 4 ∧ (1 / 4 : ℝ) ≤ 1 := by norm_num
  simp only [Fin.sum_univ_six, Function.comp, bdry, pathSum, Finset.sum_range_succ, Finset.sum_range_zero, sampleGrid, x0, x1, x2,
    y0, y1, y2, zero_add, Nat.reduceAdd] at h0
  have s0 : ∀ t, F 0 t 1 = F 1 t 0 := fun t => (b1 t).1
  have s1 : ∀ t, F 1 t 1 = F 2 t 0 := fun t => (b1 t).2.1
  have s2 : ∀ t, F 2 t 1 = F 3 t 0 := fun t => (b1 t).2.2.1
  have s3 : ∀ t, F 3 t 1 = F 0 t 0 := fun t => (b1 t).2.2.2
  have c0 := b4 0 u0.1 u0.2
  have c1 := b4 1 u1.1 u1.2
  have ch := b4 (1 / 2) uh.1 uh.2
  have cq := b4 (1 / 4) uq.1 uq.2
  have d0 := b5 0 u0.1 u0.2
  have d1 := b5 1 u1.1 u1.2
  have dh := b5 (1 / 2) uh.1 uh.2
  have dq := b5 (1 / 4) uq.1 uq.2
  simp only [s0, s1, s2, s3, c0, c1, ch, cq, d0, d1, dh, dq, fun t => (b2 t).1, fun t => (b2 t).2.1,
    fun t => (b2 t).2.2.1, fun t => (b2 t).2.2.2, fun t => (b3 t).1, fun t => (b3 t).2.1, fun t => (b3 t).2.2.1,
    fun t => (b3 t).2.2.2] at h0
  simp only [edgeOf, squareSection, List.getD_cons_zero, List.getD_cons_succ, Line, lineAt, okv, midWeight] at h0
  norm_num at h0
  linarith

/-- A symmetric clustering function that is not the identity. -/
theorem smoothstep_clusters : Clusters (fun t => .ok (3 * t ^ 2 - 2 * t ^ 3)) ∧ Symmetric (fun t => .ok (3 * t ^ 2 - 2 * t ^ 3)) := by
  refine ⟨⟨fun t t0 t1 => ⟨_, rfl, ?_, ?_⟩, by norm_num, by norm_num⟩, ?_⟩
  · nlinarith [mul_nonneg (sq_nonneg t) (by linarith : 0 ≤ 3 - 2 * t)]
  · nlinarith [mul_nonneg (sq_nonneg (1 - t)) (by linarith : 0 ≤ 1 + 2 * t)]
  · intro t u _ _ h
    cases h
    show Except.ok _ = _
    congr 1
    ring

/-- The hypotheses of `C100_swept_partial`, and so of `C100_symmetric_partial`, are met by a box with this function. -/
example : ∃ c, Swept.init [squareSection 0, squareSection 1] true (.int 3) none = .ok c ∧ ∀ (h : Heap) (id : ℕ),
    h id = c.addClusteringOptions (some fun t => .ok (3 * t ^ 2 - 2 * t ^ 3)) (some fun t => .ok (3 * t ^ 2 - 2 * t ^ 3)) →
    ∃ h' M c', generatePatches h id = (.ok (), h') ∧ (h' id).mesh = (.ok M, c') ∧ Closed M.tris := by
  obtain ⟨h1, h2, h3⟩ := squareSections [squareSection 0, squareSection 1] (by simp)
  refine C100_swept_partial _ (by simp) h1 h2 h3 3 (by norm_num) none _ ?_
  intro u hu
  cases hu
  exact smoothstep_clusters

/-- The hypotheses of `C100_revolved_partial`, and so of `C100_along_partial`, are met with different functions in the two
directions. -/
example (h : Heap) (hid : h 0 = (RevolvedComponent ⟨fun t => .ok ⟨t, t * (1 - t), 0⟩, .ok 0⟩ 3 none).addClusteringOptions
      (some fun t => .ok (t ^ 2)) (some fun t => .ok (3 * t ^ 2 - 2 * t ^ 3))) :
    ∃ h' M c', generatePatches h 0 = (.ok (), h') ∧ (h' 0).mesh = (.ok M, c') ∧ Closed M.tris := by
  refine C100_revolved_partial _ (fun t => ⟨t, t * (1 - t), 0⟩) (fun _ _ _ => rfl) (by norm_num) (by norm_num) 3 (by norm_num) none
    _ _ ?_ ?_ h 0 hid
  · intro w hw; cases hw; exact square_clusters
  · intro w hw; cases hw; exact smoothstep_clusters.1

end HV
