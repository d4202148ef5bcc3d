import Verif.Props.Mesh
import Verif.Props.Component
import Verif.Props.Revolved
import Mathlib.Analysis.SpecialFunctions.Complex.Circle
import Mathlib.Topology.UniformSpace.HeineCantor
import Mathlib.Analysis.Normed.Module.Convex

/-!
# C101: meshes converge to the surface
-/

namespace HV
open Spec

/-- The solid triangle in Euclidean space. -/
def Spec.solid (t : Tri ℝ) : Set E3 := convexHull ℝ {toE t.v0, toE t.v1, toE t.v2}

/-- The points of a patch over the unit square. -/
def Spec.pointsOf (F : Surf) : Set E3 := {x | ∃ r ∈ Set.Icc (0 : ℝ) 1, ∃ s ∈ Set.Icc (0 : ℝ) 1, ∃ p, F r s = .ok p ∧ x = toE p}

/-- The mesh and the point set are within `ε` of each other (Hausdorff distance). -/
def Spec.MeshWithin (ε : ℝ) (m : TriMesh ℝ) (S : Set E3) : Prop :=
  (∀ t ∈ m, ∀ x ∈ solid t, ∃ y ∈ S, dist x y ≤ ε) ∧ ∀ y ∈ S, ∃ t ∈ m, ∃ x ∈ solid t, dist y x ≤ ε

/-- A patch that evaluates on the unit square and depends continuously on its parameters. -/
def Spec.ContinuousPatch (F : Surf) : Prop :=
  ∃ G : ℝ → ℝ → V, (∀ r ∈ Set.Icc (0 : ℝ) 1, ∀ s ∈ Set.Icc (0 : ℝ) 1, F r s = .ok (G r s)) ∧
    ContinuousOn (fun q : ℝ × ℝ => toE (G q.1 q.2)) (Set.Icc 0 1 ×ˢ Set.Icc 0 1)

/-- Neighbouring samples are within `ε`. -/
def FineGrid (G : ℝ → ℝ → V) (n m : ℕ) (ε : ℝ) : Prop :=
  ∀ r ∈ Set.Icc (0 : ℝ) 1, ∀ r' ∈ Set.Icc (0 : ℝ) 1, ∀ s ∈ Set.Icc (0 : ℝ) 1, ∀ s' ∈ Set.Icc (0 : ℝ) 1,
    |r - r'| ≤ 1 / n → |s - s'| ≤ 1 / m → dist (toE (G r s)) (toE (G r' s')) ≤ ε

theorem frac_mem {i n : ℕ} (hn : 1 ≤ n) (hi : i ≤ n) : (i : ℝ) / n ∈ Set.Icc (0 : ℝ) 1 := by
  have hn0 : (0 : ℝ) < n := by exact_mod_cast hn
  have : (i : ℝ) ≤ n := by exact_mod_cast hi
  exact ⟨by positivity, (div_le_one hn0).2 this⟩

theorem frac_step {i n : ℕ} (hn : 1 ≤ n) : |(((i + 1 : ℕ) : ℝ)) / n - (i : ℝ) / n| ≤ 1 / n ∧
    |(i : ℝ) / n - (((i + 1 : ℕ) : ℝ)) / n| ≤ 1 / n := by
  have hn0 : (0 : ℝ) < n := by exact_mod_cast hn
  have e : (((i + 1 : ℕ) : ℝ)) / n - (i : ℝ) / n = 1 / n := by push_cast; ring
  have e' : (i : ℝ) / n - (((i + 1 : ℕ) : ℝ)) / n = -(1 / n) := by push_cast; ring
  rw [e, e', abs_neg, abs_of_pos (by positivity)]
  exact ⟨le_rfl, le_rfl⟩

/-- The cell of a parameter. -/
theorem cell_of {n : ℕ} (hn : 1 ≤ n) {r : ℝ} (hr : r ∈ Set.Icc (0 : ℝ) 1) : ∃ i < n, |r - (i : ℝ) / n| ≤ 1 / n := by
  have hn0 : (0 : ℝ) < n := by exact_mod_cast hn
  rcases eq_or_lt_of_le hr.2 with rfl | h1
  · refine ⟨n - 1, by omega, ?_⟩
    have : ((n - 1 : ℕ) : ℝ) = n - 1 := by rw [Nat.cast_sub hn]; simp
    rw [this]
    have e : 1 - ((n : ℝ) - 1) / n = 1 / n := by field_simp; ring
    rw [e, abs_of_pos (by positivity)]
  · refine ⟨⌊r * n⌋₊, ?_, ?_⟩
    · rw [Nat.floor_lt (by have := hr.1; positivity)]
      nlinarith
    · have h2 := Nat.floor_le (by have := hr.1; positivity : 0 ≤ r * n)
      have h3 := Nat.lt_floor_add_one (r * n)
      rw [abs_le]
      constructor
      · have : (⌊r * n⌋₊ : ℝ) / n ≤ r := by rw [div_le_iff₀ hn0]; exact h2
        have : 0 < 1 / (n : ℝ) := by positivity
        linarith
      · have : r < (⌊r * n⌋₊ + 1 : ℝ) / n := by rw [lt_div_iff₀ hn0]; exact h3
        rw [add_div] at this
        linarith

/-- Meshes of a patch with fine samples. -/
theorem within_of_fine (F : Surf) (G : ℝ → ℝ → V) (n m : ℕ) (hn : 1 ≤ n) (hm : 1 ≤ m) (ε : ℝ)
    (hF : ∀ r ∈ Set.Icc (0 : ℝ) 1, ∀ s ∈ Set.Icc (0 : ℝ) 1, F r s = .ok (G r s)) (hG : FineGrid G n m ε) :
    ∃ M, surfceToStl F n m = .ok M ∧ MeshWithin ε M (pointsOf F) := by
  set P : ℕ → ℕ → V := fun i j => G ((i : ℝ) / n) ((j : ℝ) / m)
  refine ⟨gridMesh MeshArith.real false n m P, ?_, ?_, ?_⟩
  · unfold surfceToStl rList sList
    simp only [C40_uniform n hn, C40_uniform m hm, ok_bind]
    apply meshFromLists_eq
    intro i hi j hj
    rw [pointAt_ok]
    refine ⟨(i : ℝ) / n, (j : ℝ) / m, ?_, ?_, hF _ (frac_mem hn hi) _ (frac_mem hm hj)⟩
    · rw [List.getElem?_map, List.getElem?_range (by omega)]; rfl
    · rw [List.getElem?_map, List.getElem?_range (by omega)]; rfl
  · intro t ht x hx
    obtain ⟨i, hi, j, hj, ht⟩ := (mem_gridMesh _ _ _ _ _ _).1 ht
    refine ⟨toE (P i j), ⟨_, frac_mem hn hi.le, _, frac_mem hm hj.le, _, hF _ (frac_mem hn hi.le) _ (frac_mem hm hj.le), rfl⟩, ?_⟩
    have hv : ∀ p : V, meshVertex MeshArith.real false p = p := by
      intro p; ext <;> simp [meshVertex, MeshArith.real]
    have h0 : |(i : ℝ) / n - (i : ℝ) / n| ≤ 1 / n := by rw [sub_self, abs_zero]; positivity
    have h0' : |(j : ℝ) / m - (j : ℝ) / m| ≤ 1 / m := by rw [sub_self, abs_zero]; positivity
    have fi := frac_mem hn hi.le
    have fi' : (((i + 1 : ℕ) : ℝ)) / n ∈ Set.Icc (0 : ℝ) 1 := frac_mem hn (by omega)
    have fj := frac_mem hm hj.le
    have fj' : (((j + 1 : ℕ) : ℝ)) / m ∈ Set.Icc (0 : ℝ) 1 := frac_mem hm (by omega)
    have b00 : toE (P i j) ∈ Metric.closedBall (toE (P i j)) ε := hG _ fi _ fi _ fj _ fj h0 h0'
    have b10 : toE (P (i + 1) j) ∈ Metric.closedBall (toE (P i j)) ε := hG _ fi' _ fi _ fj _ fj (frac_step hn).1 h0'
    have b01 : toE (P i (j + 1)) ∈ Metric.closedBall (toE (P i j)) ε := hG _ fi _ fi _ fj' _ fj h0 (frac_step hm).1
    have b11 : toE (P (i + 1) (j + 1)) ∈ Metric.closedBall (toE (P i j)) ε :=
      hG _ fi' _ fi _ fj' _ fj (frac_step hn).1 (frac_step hm).1
    have hball := convex_closedBall (toE (P i j)) ε
    have bc : toE (cellCentre MeshArith.real (P i j) (P (i + 1) j) (P i (j + 1)) (P (i + 1) (j + 1))) ∈
        Metric.closedBall (toE (P i j)) ε := by
      have h1 := hball b00 b10 (a := 1 / 2) (b := 1 / 2) (by norm_num) (by norm_num) (by norm_num)
      have h2 := hball b01 b11 (a := 1 / 2) (b := 1 / 2) (by norm_num) (by norm_num) (by norm_num)
      have h3 := hball h1 h2 (a := 1 / 2) (b := 1 / 2) (by norm_num) (by norm_num) (by norm_num)
      convert h3 using 1
      ext k
      fin_cases k <;> simp [toE, cellCentre, MeshArith.real] <;> ring
    simp only [cellTris, hv, List.mem_cons, List.not_mem_nil, or_false] at ht
    have sub : ∀ a b c : E3, a ∈ Metric.closedBall (toE (P i j)) ε → b ∈ Metric.closedBall (toE (P i j)) ε →
        c ∈ Metric.closedBall (toE (P i j)) ε → convexHull ℝ {a, b, c} ⊆ Metric.closedBall (toE (P i j)) ε := by
      intro a b c ha hb hc
      refine convexHull_min ?_ hball
      intro y hy
      rcases hy with rfl | rfl | rfl <;> assumption
    rcases ht with rfl | rfl | rfl | rfl
    · exact sub _ _ _ b00 b10 bc hx
    · exact sub _ _ _ b10 b11 bc hx
    · exact sub _ _ _ b11 b01 bc hx
    · exact sub _ _ _ b01 b00 bc hx
  · rintro y ⟨r, hr, s, hs, p, hp, rfl⟩
    rw [hF r hr s hs] at hp
    obtain rfl := Except.ok.inj hp
    obtain ⟨i, hi, h1⟩ := cell_of hn hr
    obtain ⟨j, hj, h2⟩ := cell_of hm hs
    have hv : ∀ p : V, meshVertex MeshArith.real false p = p := by
      intro p; ext <;> simp [meshVertex, MeshArith.real]
    refine ⟨_, (mem_gridMesh _ _ _ _ _ _).2 ⟨i, hi, j, hj, List.mem_cons_self⟩, toE (P i j), ?_, ?_⟩
    · rw [hv]
      exact subset_convexHull _ _ (by simp)
    · exact hG _ hr _ (frac_mem hn hi.le) _ hs _ (frac_mem hm hj.le) h1 h2

/-- C101: if the patch is Lipschitz with constant `L` in its parameters, the mesh with `n × m` cells is within
`L (1/n + 1/m)` of the patch. -/
theorem C101_rate (F : Surf) (G : ℝ → ℝ → V)
    (hF : ∀ r ∈ Set.Icc (0 : ℝ) 1, ∀ s ∈ Set.Icc (0 : ℝ) 1, F r s = .ok (G r s)) (L : ℝ) (hL : 0 ≤ L)
    (hG : ∀ r ∈ Set.Icc (0 : ℝ) 1, ∀ r' ∈ Set.Icc (0 : ℝ) 1, ∀ s ∈ Set.Icc (0 : ℝ) 1, ∀ s' ∈ Set.Icc (0 : ℝ) 1,
      vdist (G r s) (G r' s') ≤ L * (|r - r'| + |s - s'|)) (n m : ℕ) (hn : 1 ≤ n) (hm : 1 ≤ m) :
    ∃ M, surfceToStl F n m = .ok M ∧ MeshWithin (L * (1 / n + 1 / m)) M (pointsOf F) := by
  refine within_of_fine F G n m hn hm _ hF ?_
  intro r hr r' hr' s hs s' hs' h1 h2
  exact (hG r hr r' hr' s hs s' hs').trans (mul_le_mul_of_nonneg_left (add_le_add h1 h2) hL)

theorem fine_eventually (G : ℝ → ℝ → V) (hG : ContinuousOn (fun q : ℝ × ℝ => toE (G q.1 q.2)) (Set.Icc 0 1 ×ˢ Set.Icc 0 1))
    (ε : ℝ) (hε : 0 < ε) : ∃ N : ℕ, 1 ≤ N ∧ ∀ n ≥ N, ∀ m ≥ N, FineGrid G n m ε := by
  have hu := ((isCompact_Icc (a := (0 : ℝ)) (b := 1)).prod (isCompact_Icc (a := (0 : ℝ)) (b := 1))).uniformContinuousOn_of_continuous hG
  rw [Metric.uniformContinuousOn_iff] at hu
  obtain ⟨δ, hδ, hu⟩ := hu ε hε
  obtain ⟨N, hN⟩ := exists_nat_gt (1 / δ)
  have hN0 : (0 : ℝ) < N := lt_trans (by positivity) hN
  have hb : ∀ n ≥ N, 1 / (n : ℝ) < δ := by
    intro n hn
    have : (N : ℝ) ≤ n := by exact_mod_cast hn
    rw [div_lt_iff₀ (by linarith)]
    rw [div_lt_iff₀ hδ] at hN
    nlinarith
  refine ⟨N, by exact_mod_cast hN0, fun n hn m hm r hr r' hr' s hs s' hs' h1 h2 => ?_⟩
  refine (hu (r, s) ⟨hr, hs⟩ (r', s') ⟨hr', hs'⟩ ?_).le
  rw [Prod.dist_eq, max_lt_iff, Real.dist_eq, Real.dist_eq]
  exact ⟨h1.trans_lt (hb n hn), h2.trans_lt (hb m hm)⟩

/-- C101: the meshes of every continuous patch converge to the patch as both resolutions grow. -/
theorem C101_patch (F : Surf) (hF : ContinuousPatch F) (ε : ℝ) (hε : 0 < ε) :
    ∃ N : ℕ, ∀ n ≥ N, ∀ m ≥ N, ∃ M, surfceToStl F n m = .ok M ∧ MeshWithin ε M (pointsOf F) := by
  obtain ⟨G, hF, hG⟩ := hF
  obtain ⟨N, h1, hN⟩ := fine_eventually G hG ε hε
  exact ⟨N, fun n hn m hm => within_of_fine F G n m (by omega) (by omega) ε hF (hN n hn m hm)⟩

theorem within_flatten (ε : ℝ) : ∀ (l : List (String × Surf)) (parts : List (TriMesh ℝ)),
    List.Forall₂ (fun e part => MeshWithin ε part (pointsOf e.2)) l parts →
    MeshWithin ε parts.flatten {x | ∃ e ∈ l, x ∈ pointsOf e.2}
  | _, _, .nil => ⟨by simp, by simp⟩
  | _, _, .cons (a := e) (b := part) (l₁ := l) (l₂ := parts) h hs => by
    have ih := within_flatten ε l parts hs
    constructor
    · intro t ht x hx
      rw [List.flatten_cons, List.mem_append] at ht
      rcases ht with ht | ht
      · obtain ⟨y, hy, hd⟩ := h.1 t ht x hx
        exact ⟨y, ⟨e, by simp, hy⟩, hd⟩
      · obtain ⟨y, ⟨e', he', hy⟩, hd⟩ := ih.1 t ht x hx
        exact ⟨y, ⟨e', by simp [he'], hy⟩, hd⟩
    · rintro y ⟨e', he', hy⟩
      rcases List.mem_cons.1 he' with rfl | he'
      · obtain ⟨t, ht, x, hx, hd⟩ := h.2 y hy
        exact ⟨t, by simp [ht], x, hx, hd⟩
      · obtain ⟨t, ht, x, hx, hd⟩ := ih.2 y ⟨e', he', hy⟩
        exact ⟨t, by rw [List.flatten_cons]; exact List.mem_append_right _ ht, x, hx, hd⟩

theorem meshOf_within (ε : ℝ) (hε : 0 < ε) : ∀ (l : List (String × Surf)), (∀ e ∈ l, ContinuousPatch e.2) →
    ∃ N : ℕ, ∀ n ≥ N, ∃ parts : List (TriMesh ℝ),
      List.Forall₂ (fun (e : String × Surf) part => surfceToStl e.2 n n = .ok part) l parts ∧
      List.Forall₂ (fun (e : String × Surf) part => MeshWithin ε part (pointsOf e.2)) l parts
  | [], _ => ⟨0, fun _ _ => ⟨[], .nil, .nil⟩⟩
  | e :: l, h => by
    obtain ⟨N1, h1⟩ := C101_patch e.2 (h e (by simp)) ε hε
    obtain ⟨N2, h2⟩ := meshOf_within ε hε l fun e he => h e (by simp [he])
    refine ⟨max N1 N2, fun n hn => ?_⟩
    obtain ⟨M, hM, hw⟩ := h1 n (by omega) n (by omega)
    obtain ⟨parts, hp, hq⟩ := h2 n (by omega)
    exact ⟨M :: parts, .cons hM hp, .cons hw hq⟩

/-- C101: a component all of whose patches are continuous; from some resolution on, its mesh is within `ε` of the union of
its patches. -/
theorem C101_component (c : Comp) (hc : ∀ e ∈ c.patches, ContinuousPatch e.2) (hk : (c.patches.map Prod.fst).Nodup)
    (hne : c.patches ≠ []) (hm : c.mesh_ = none) (hs : c.surfaces = none) (ho : c.clustering = {}) (ε : ℝ) (hε : 0 < ε) :
    ∃ N : ℕ, ∀ n ≥ N, ∃ M c', ({ c with stl_resolution := .int n } : Comp).mesh = (.ok M, c') ∧
      MeshWithin ε M.tris {x | ∃ e ∈ c.patches, x ∈ pointsOf e.2} := by
  obtain ⟨N, hN⟩ := meshOf_within ε hε c.patches hc
  refine ⟨max N 1, fun n hn => ?_⟩
  obtain ⟨parts, hp, hw⟩ := hN n (by omega)
  obtain ⟨h1, -⟩ := C52_mesh { c with stl_resolution := .int n } n (by omega) rfl hm hs hk hne
  obtain ⟨M, c', h2, h3, -⟩ := h1 parts.flatten ⟨parts, by simpa only [ho] using hp, rfl⟩
  exact ⟨M, c', h2, by rw [h3]; exact within_flatten ε _ _ hw⟩

/-! ## Bodies of revolution -/

/-- The surface swept by a curve turning about the `x` axis. -/
def Spec.revolution (f : ℝ → V) : Set E3 :=
  {x | ∃ t ∈ Set.Icc (0 : ℝ) 1, x 0 = (f t).x ∧ x 1 ^ 2 + x 2 ^ 2 = (f t).y ^ 2 + (f t).z ^ 2}

/-- Points at equal distance from the origin of the plane are rotations of each other. -/
theorem exists_turn (y z y' z' : ℝ) (h : y' ^ 2 + z' ^ 2 = y ^ 2 + z ^ 2) :
    ∃ a, 0 ≤ a ∧ a < 2 * Real.pi ∧ y' = y * Real.cos a + z * Real.sin a ∧ z' = z * Real.cos a - y * Real.sin a := by
  have hpi := Real.pi_pos
  by_cases h0 : y ^ 2 + z ^ 2 = 0
  · have hy : y = 0 := by nlinarith [sq_nonneg y, sq_nonneg z]
    have hz : z = 0 := by nlinarith [sq_nonneg y, sq_nonneg z]
    have hy' : y' = 0 := by nlinarith [sq_nonneg y', sq_nonneg z']
    have hz' : z' = 0 := by nlinarith [sq_nonneg y', sq_nonneg z']
    exact ⟨0, le_rfl, by linarith, by simp [hy, hz, hy'], by simp [hy, hz, hz']⟩
  · have hpos : 0 < y ^ 2 + z ^ 2 := lt_of_le_of_ne (by positivity) (Ne.symm h0)
    set c := (y * y' + z * z') / (y ^ 2 + z ^ 2) with hc
    set d := (z * y' - y * z') / (y ^ 2 + z ^ 2) with hd
    have hcd : c ^ 2 + d ^ 2 = 1 := by
      rw [hc, hd]; field_simp
      linear_combination (y ^ 2 + z ^ 2) * h
    obtain ⟨φ, h1, h2⟩ : ∃ φ, c = Real.cos φ ∧ d = Real.sin φ := by
      have hn : ‖(⟨c, d⟩ : ℂ)‖ = 1 := by
        rw [Complex.norm_def, Complex.normSq_mk]
        rw [show c * c + d * d = 1 by nlinarith]; simp
      refine ⟨Complex.arg ⟨c, d⟩, ?_, ?_⟩
      · have := Complex.norm_mul_cos_arg (⟨c, d⟩ : ℂ)
        rw [hn, one_mul] at this; exact this.symm
      · have := Complex.norm_mul_sin_arg (⟨c, d⟩ : ℂ)
        rw [hn, one_mul] at this; exact this.symm
    have hmem := toIcoMod_mem_Ico (Real.two_pi_pos) 0 φ
    rw [zero_add] at hmem
    have hsub : toIcoMod Real.two_pi_pos 0 φ = φ - toIcoDiv Real.two_pi_pos 0 φ * (2 * Real.pi) := by
      rw [toIcoMod, zsmul_eq_mul]
    refine ⟨toIcoMod Real.two_pi_pos 0 φ, hmem.1, hmem.2, ?_, ?_⟩ <;>
      rw [hsub, Real.cos_sub_int_mul_two_pi, Real.sin_sub_int_mul_two_pi, ← h1, ← h2, hc, hd] <;> field_simp <;> ring

theorem revolved_points (line : PathObj) (f : ℝ → V) (hl : ∀ t, 0 ≤ t → t ≤ 1 → line.call t = .ok (f t)) :
    {x | ∃ e ∈ (List.range 4).map (fun (i : ℕ) => ("revolved_fuse_" ++ toString i,
      RevolvedPatch line (i * Real.pi / 2) (((i : ℝ) + 1) * Real.pi / 2))), x ∈ pointsOf e.2} = revolution f := by
  have hpi := Real.pi_pos
  ext x
  constructor
  · rintro ⟨e, he, r, hr, s, hs, p, hp, rfl⟩
    obtain ⟨k, hk, rfl⟩ := List.mem_map.1 he
    simp only [RevolvedPatch_eq line _ _ r s _ (hl r hr.1 hr.2), Except.ok.injEq] at hp
    subst hp
    refine ⟨r, hr, by simp [toE], ?_⟩
    simp only [toE, PiLp.toLp_apply, Matrix.cons_val_one, Matrix.cons_val_zero, Matrix.cons_val]
    generalize (k * Real.pi / 2 * (1 - s) + ((k : ℝ) + 1) * Real.pi / 2 * s) = a
    have := Real.sin_sq_add_cos_sq a
    linear_combination ((f r).y ^ 2 + (f r).z ^ 2) * this
  · rintro ⟨t, ht, hx, hyz⟩
    obtain ⟨a, ha, ha2, h1, h2⟩ := exists_turn _ _ _ _ hyz
    have hq : 0 ≤ a / (Real.pi / 2) := by positivity
    set k := ⌊a / (Real.pi / 2)⌋₊ with hk
    have hk4 : k < 4 := by
      rw [hk, Nat.floor_lt hq, div_lt_iff₀ (by positivity)]
      push_cast; linarith
    have hk1 := Nat.floor_le hq
    have hk2 := Nat.lt_floor_add_one (a / (Real.pi / 2))
    rw [← hk] at hk1 hk2
    refine ⟨_, List.mem_map.2 ⟨k, List.mem_range.2 hk4, rfl⟩, t, ht, a / (Real.pi / 2) - k, ⟨by linarith, by linarith⟩, _,
      RevolvedPatch_eq line _ _ t _ _ (hl t ht.1 ht.2), ?_⟩
    have e : ((k : ℝ) * Real.pi / 2) * (1 - (a / (Real.pi / 2) - k)) + ((k : ℝ) + 1) * Real.pi / 2 * (a / (Real.pi / 2) - k) = a := by
      field_simp; ring
    rw [e, ← h1, ← h2, ← hx]
    ext i
    fin_cases i <;> simp [toE]

theorem revolved_continuous (line : PathObj) (f : ℝ → V) (hl : ∀ t, 0 ≤ t → t ≤ 1 → line.call t = .ok (f t))
    (hc : ContinuousOn (fun t => toE (f t)) (Set.Icc 0 1)) (a0 a1 : ℝ) : ContinuousPatch (RevolvedPatch line a0 a1) := by
  refine ⟨fun r s => ⟨(f r).x, (f r).y * Real.cos (a0 * (1 - s) + a1 * s) + (f r).z * Real.sin (a0 * (1 - s) + a1 * s),
    (f r).z * Real.cos (a0 * (1 - s) + a1 * s) - (f r).y * Real.sin (a0 * (1 - s) + a1 * s)⟩,
    fun r hr s hs => RevolvedPatch_eq line a0 a1 r s _ (hl r hr.1 hr.2), ?_⟩
  have hfst : ContinuousOn (fun q : ℝ × ℝ => q.1) (Set.Icc 0 1 ×ˢ Set.Icc 0 1) := continuous_fst.continuousOn
  have hmaps : Set.MapsTo (fun q : ℝ × ℝ => q.1) (Set.Icc (0 : ℝ) 1 ×ˢ Set.Icc (0 : ℝ) 1) (Set.Icc 0 1) := fun q hq => hq.1
  have hcoord : ∀ i : Fin 3, ContinuousOn (fun t => toE (f t) i) (Set.Icc 0 1) := fun i =>
    (EuclideanSpace.proj (𝕜 := ℝ) i).continuous.comp_continuousOn hc
  have hx : ContinuousOn (fun q : ℝ × ℝ => (f q.1).x) (Set.Icc 0 1 ×ˢ Set.Icc 0 1) := (hcoord 0).comp hfst hmaps
  have hy : ContinuousOn (fun q : ℝ × ℝ => (f q.1).y) (Set.Icc 0 1 ×ˢ Set.Icc 0 1) := (hcoord 1).comp hfst hmaps
  have hz : ContinuousOn (fun q : ℝ × ℝ => (f q.1).z) (Set.Icc 0 1 ×ˢ Set.Icc 0 1) := (hcoord 2).comp hfst hmaps
  have hang : Continuous (fun q : ℝ × ℝ => a0 * (1 - q.2) + a1 * q.2) := by fun_prop
  have hcos := (Real.continuous_cos.comp hang).continuousOn (s := Set.Icc (0 : ℝ) 1 ×ˢ Set.Icc (0 : ℝ) 1)
  have hsin := (Real.continuous_sin.comp hang).continuousOn (s := Set.Icc (0 : ℝ) 1 ×ˢ Set.Icc (0 : ℝ) 1)
  apply (PiLp.continuous_toLp 2 _).comp_continuousOn
  rw [continuousOn_pi]
  intro i
  fin_cases i
  · exact hx
  · exact (hy.mul hcos).add (hz.mul hsin)
  · exact (hz.mul hcos).sub (hy.mul hsin)

/-- C101 for bodies of revolution: the meshes of a `RevolvedComponent` with a continuous line converge to the surface swept by
the line turning once about the `x` axis. -/
theorem C101_revolved (line : PathObj) (f : ℝ → V) (hl : ∀ t, 0 ≤ t → t ≤ 1 → line.call t = .ok (f t))
    (hc : ContinuousOn (fun t => toE (f t)) (Set.Icc 0 1)) (ε : ℝ) (hε : 0 < ε) :
    ∃ N : ℕ, ∀ n ≥ N, ∀ (name : Option String) (h : Heap) (id : ℕ), h id = RevolvedComponent line n name →
      ∃ h' M c', generatePatches h id = (.ok (), h') ∧ (h' id).mesh = (.ok M, c') ∧ MeshWithin ε M.tris (revolution f) := by
  have hsteps : runSteps ((List.range 4).map fun (i : ℕ) => GenStep.patch ("revolved_fuse_" ++ toString i)
      (.ok (RevolvedPatch line (i * Real.pi / 2) (((i : ℝ) + 1) * Real.pi / 2)))) =
      ⟨(List.range 4).map fun (i : ℕ) => ("revolved_fuse_" ++ toString i,
        RevolvedPatch line (i * Real.pi / 2) (((i : ℝ) + 1) * Real.pi / 2)), [], [], none⟩ :=
    runSteps_patches (List.range 4) (fun i => "revolved_fuse_" ++ toString i)
      (fun (i : ℕ) => RevolvedPatch line (i * Real.pi / 2) (((i : ℝ) + 1) * Real.pi / 2))
  set items : List (String × Surf) := (List.range 4).map fun (i : ℕ) => ("revolved_fuse_" ++ toString i,
        RevolvedPatch line (i * Real.pi / 2) (((i : ℝ) + 1) * Real.pi / 2)) with hitems
  have hnd : (items.map Prod.fst).Nodup := by rw [hitems, List.map_map]; exact prefix_ix_nodup _ 4
  have hcont : ∀ e ∈ items, ContinuousPatch e.2 := by
    intro e he
    obtain ⟨k, -, rfl⟩ := List.mem_map.1 he
    exact revolved_continuous line f hl hc _ _
  obtain ⟨N, hN⟩ := meshOf_within ε hε items hcont
  refine ⟨max N 1, fun n hn name h id hid => ?_⟩
  obtain ⟨parts, hp, hw⟩ := hN n (by omega)
  have hg : generatePatches h id = (.ok (), h.upd id { RevolvedComponent line n name with patches := items }) := by
    simp only [generatePatches, Composite.genLeaf, hid, RevolvedComponent, Comp.genInto, hsteps]
    rw [show Dict.setAll [] items = items from Dict.setAll_nil_nodup _ hnd]
    rfl
  obtain ⟨h1, -⟩ := C52_mesh { RevolvedComponent line n name with patches := items } n (by omega) rfl rfl rfl hnd (by simp [hitems])
  obtain ⟨M, c', h2, h3, -⟩ := h1 parts.flatten ⟨parts, hp, rfl⟩
  refine ⟨_, M, c', hg, by rw [upd_self]; exact h2, ?_⟩
  rw [h3, ← revolved_points line f hl]
  exact within_flatten ε _ _ hw

/-- Witness: a cone. -/
example : ∃ N : ℕ, ∀ n ≥ N, ∀ (name : Option String) (h : Heap) (id : ℕ),
    h id = RevolvedComponent (Line ⟨0, 0, 0⟩ ⟨1, 1, 0⟩) n name →
      ∃ h' M c', generatePatches h id = (.ok (), h') ∧ (h' id).mesh = (.ok M, c') ∧
        MeshWithin 0.001 M.tris (revolution fun t => ⟨t, t, 0⟩) := by
  refine C101_revolved _ _ (fun t _ _ => ?_) ?_ _ (by norm_num)
  · simp only [Line, lineAt, Except.ok.injEq]; ext <;> simp
  · apply (PiLp.continuous_toLp 2 _).comp_continuousOn
    rw [continuousOn_pi]
    intro i
    fin_cases i
    · exact continuousOn_id
    · exact continuousOn_id
    · exact continuousOn_const

/-- Witness for the rate: the unit square. -/
example : ∃ M, surfceToStl (fun r s => .ok ⟨r, s, 0⟩) 10 10 = .ok M ∧
    MeshWithin (1 * (1 / (10 : ℕ) + 1 / (10 : ℕ))) M (pointsOf fun r s => .ok ⟨r, s, 0⟩) := by
  refine C101_rate _ (fun r s => ⟨r, s, 0⟩) (fun _ _ _ _ => rfl) 1 zero_le_one ?_ 10 10 (by norm_num) (by norm_num)
  intro r _ r' _ s _ s' _
  rw [vdist, EuclideanSpace.dist_eq, one_mul]
  apply Real.sqrt_le_iff.2
  refine ⟨by positivity, ?_⟩
  simp only [toE, Fin.sum_univ_three, PiLp.toLp_apply, Matrix.cons_val_zero, Matrix.cons_val_one, Matrix.cons_val, Real.dist_eq,
    sub_self, abs_zero]
  nlinarith [abs_nonneg (r - r'), abs_nonneg (s - s')]

end HV
