import Verif.Props.Convergence
import Mathlib.MeasureTheory.Integral.DominatedConvergence
import Mathlib.Analysis.Calculus.MeanValue

/-! Limits of sums over the triangles of finer and finer meshes of one patch. -/

namespace HV
open Spec Filter Topology

/-- The coordinates of a vector. -/
def Spec.co (v : V) : Fin 3 → ℝ := ![v.x, v.y, v.z]

/-- The cross product. -/
def Spec.crossF (a b : Fin 3 → ℝ) : Fin 3 → ℝ := ![a 1 * b 2 - a 2 * b 1, a 2 * b 0 - a 0 * b 2, a 0 * b 1 - a 1 * b 0]

/-- The closed unit square. -/
def Spec.unitSq : Set (ℝ × ℝ) := Set.Icc 0 1 ×ˢ Set.Icc 0 1

/-- A surface over the unit square with continuous partial derivatives. -/
structure Spec.SmoothOn (G Gr Gs : ℝ → ℝ → V) : Prop where
  cont : ContinuousOn (fun q : ℝ × ℝ => co (G q.1 q.2)) unitSq
  contr : ContinuousOn (fun q : ℝ × ℝ => co (Gr q.1 q.2)) unitSq
  conts : ContinuousOn (fun q : ℝ × ℝ => co (Gs q.1 q.2)) unitSq
  dr : ∀ r ∈ Set.Ioo (0 : ℝ) 1, ∀ s ∈ Set.Icc (0 : ℝ) 1, HasDerivAt (fun r => co (G r s)) (co (Gr r s)) r
  ds : ∀ r ∈ Set.Icc (0 : ℝ) 1, ∀ s ∈ Set.Ioo (0 : ℝ) 1, HasDerivAt (fun s => co (G r s)) (co (Gs r s)) s

/-- A quantity of a triangle that depends continuously on its corners and is proportional to its normal. -/
structure Spec.TriQuantity (φ : (Fin 3 → ℝ) → (Fin 3 → ℝ) → (Fin 3 → ℝ) → (Fin 3 → ℝ) → ℝ) : Prop where
  cont : Continuous fun q : (Fin 3 → ℝ) × (Fin 3 → ℝ) × (Fin 3 → ℝ) × (Fin 3 → ℝ) => φ q.1 q.2.1 q.2.2.1 q.2.2.2
  hom : ∀ a b c n (t : ℝ), 0 < t → φ a b c (t • n) = t * φ a b c n

/-- The sum of a quantity over the triangles of a mesh. -/
def Spec.meshSum (φ : (Fin 3 → ℝ) → (Fin 3 → ℝ) → (Fin 3 → ℝ) → (Fin 3 → ℝ) → ℝ) (m : TriMesh ℝ) : ℝ :=
  (m.map fun t => φ (co t.v0) (co t.v1) (co t.v2) (triArea2 t)).sum

theorem triArea2_cross (t : Tri ℝ) : triArea2 t = crossF (co t.v1 - co t.v0) (co t.v2 - co t.v0) := by
  funext k
  fin_cases k <;> simp [triArea2, crossF, co]

theorem crossF_smul (h : ℝ) (a b : Fin 3 → ℝ) : crossF (h • a) (h • b) = h ^ 2 • crossF a b := by
  funext k
  fin_cases k <;> simp [crossF] <;> ring

theorem crossF_cont {X : Type} [TopologicalSpace X] {f g : X → Fin 3 → ℝ} {s : Set X} (hf : ContinuousOn f s) (hg : ContinuousOn g s) :
    ContinuousOn (fun x => crossF (f x) (g x)) s := by
  rw [continuousOn_pi] at hf hg ⊢
  intro k
  fin_cases k
  · exact ((hf 1).mul (hg 2)).sub ((hf 2).mul (hg 1))
  · exact ((hf 2).mul (hg 0)).sub ((hf 0).mul (hg 2))
  · exact ((hf 0).mul (hg 1)).sub ((hf 1).mul (hg 0))

/-! ### Sums over cells and integrals -/

/-- The sum of values that are close to a function on every cell is close to its integral. -/
theorem riemann_close (f : ℝ → ℝ → ℝ) (hf : Continuous fun q : ℝ × ℝ => f q.1 q.2) (n : ℕ) (hn : 1 ≤ n) (a : ℕ → ℕ → ℝ) (ε : ℝ)
    (h : ∀ i < n, ∀ j < n, ∀ r ∈ Set.Icc ((i : ℝ) / n) (((i + 1 : ℕ) : ℝ) / n), ∀ s ∈ Set.Icc ((j : ℝ) / n) (((j + 1 : ℕ) : ℝ) / n), |f r s - a i j| ≤ ε) :
    |(∑ i ∈ Finset.range n, ∑ j ∈ Finset.range n, a i j / (n : ℝ) ^ 2) - ∫ r in (0 : ℝ)..1, ∫ s in (0 : ℝ)..1, f r s| ≤ ε := by
  have hn0 : (0 : ℝ) < n := by exact_mod_cast hn
  have hc1 : ∀ r, Continuous (f r) := fun r => hf.comp (by fun_prop : Continuous fun s : ℝ => (r, s))
  have hc2 : ∀ u v : ℝ, Continuous fun r => ∫ s in u..v, f r s := fun u v => intervalIntegral.continuous_parametric_intervalIntegral_of_continuous' hf u v
  have hstep : ∀ i : ℕ, ((i + 1 : ℕ) : ℝ) / n - (i : ℝ) / n = 1 / n := fun i => by push_cast; ring
  have hle : ∀ i : ℕ, (i : ℝ) / n ≤ ((i + 1 : ℕ) : ℝ) / n := fun i => by
    have := hstep i
    have h1 : 0 < 1 / (n : ℝ) := by positivity
    linarith
  have e1 : ∫ r in (0 : ℝ)..1, ∫ s in (0 : ℝ)..1, f r s =
      ∑ i ∈ Finset.range n, ∑ j ∈ Finset.range n, ∫ r in ((i : ℝ) / n)..(((i + 1 : ℕ) : ℝ) / n), ∫ s in ((j : ℝ) / n)..(((j + 1 : ℕ) : ℝ) / n), f r s := by
    have split : ∀ g : ℝ → ℝ, Continuous g → ∫ r in (0 : ℝ)..1, g r = ∑ i ∈ Finset.range n, ∫ r in ((i : ℝ) / n)..(((i + 1 : ℕ) : ℝ) / n), g r := by
      intro g hg
      rw [intervalIntegral.sum_integral_adjacent_intervals (a := fun i : ℕ => (i : ℝ) / n) (fun k _ => hg.intervalIntegrable _ _)]
      simp [div_self hn0.ne']
    rw [split _ (hc2 0 1)]
    refine Finset.sum_congr rfl fun i _ => ?_
    rw [← intervalIntegral.integral_finsetSum (fun j _ => (hc2 _ _).intervalIntegrable _ _)]
    exact intervalIntegral.integral_congr fun r _ => split _ (hc1 r)
  have e2 : ∀ i < n, ∀ j < n, |a i j / (n : ℝ) ^ 2 - ∫ r in ((i : ℝ) / n)..(((i + 1 : ℕ) : ℝ) / n), ∫ s in ((j : ℝ) / n)..(((j + 1 : ℕ) : ℝ) / n), f r s| ≤
      ε / (n : ℝ) ^ 2 := by
    intro i hi j hj
    have c1 : a i j / (n : ℝ) ^ 2 = ∫ r in ((i : ℝ) / n)..(((i + 1 : ℕ) : ℝ) / n), ∫ s in ((j : ℝ) / n)..(((j + 1 : ℕ) : ℝ) / n), a i j := by
      simp only [intervalIntegral.integral_const, hstep, smul_eq_mul]
      field_simp
    rw [c1, abs_sub_comm, ← intervalIntegral.integral_sub ((hc2 _ _).intervalIntegrable _ _) (continuous_const.intervalIntegrable _ _)]
    have key : ∀ r ∈ Set.uIoc ((i : ℝ) / n) (((i + 1 : ℕ) : ℝ) / n),
        ‖(∫ s in ((j : ℝ) / n)..(((j + 1 : ℕ) : ℝ) / n), f r s) - ∫ s in ((j : ℝ) / n)..(((j + 1 : ℕ) : ℝ) / n), a i j‖ ≤ ε * (1 / n) := by
      intro r hr
      rw [Set.uIoc_of_le (hle i)] at hr
      rw [← intervalIntegral.integral_sub ((hc1 r).intervalIntegrable _ _) (continuous_const.intervalIntegrable _ _)]
      have := intervalIntegral.norm_integral_le_of_norm_le_const (a := (j : ℝ) / n) (b := ((j + 1 : ℕ) : ℝ) / n) (f := fun s => f r s - a i j) (C := ε)
        (fun s hs => by
          rw [Set.uIoc_of_le (hle j)] at hs
          exact h i hi j hj r ⟨hr.1.le, hr.2⟩ s ⟨hs.1.le, hs.2⟩)
      rwa [hstep, abs_of_pos (by positivity)] at this
    have := intervalIntegral.norm_integral_le_of_norm_le_const key
    rw [hstep, abs_of_pos (by positivity : (0 : ℝ) < 1 / n)] at this
    calc _ ≤ ε * (1 / n) * (1 / n) := this
      _ = ε / (n : ℝ) ^ 2 := by field_simp
  rw [e1, ← Finset.sum_sub_distrib]
  calc |∑ i ∈ Finset.range n, (∑ j ∈ Finset.range n, a i j / (n : ℝ) ^ 2 -
        ∑ j ∈ Finset.range n, ∫ r in ((i : ℝ) / n)..(((i + 1 : ℕ) : ℝ) / n), ∫ s in ((j : ℝ) / n)..(((j + 1 : ℕ) : ℝ) / n), f r s)|
      ≤ ∑ i ∈ Finset.range n, ∑ j ∈ Finset.range n, ε / (n : ℝ) ^ 2 := by
        refine (Finset.abs_sum_le_sum_abs _ _).trans (Finset.sum_le_sum fun i hi => ?_)
        rw [← Finset.sum_sub_distrib]
        exact (Finset.abs_sum_le_sum_abs _ _).trans (Finset.sum_le_sum fun j hj => e2 i (Finset.mem_range.1 hi) j (Finset.mem_range.1 hj))
    _ = ε := by
      simp only [Finset.sum_const, Finset.card_range, nsmul_eq_mul]
      field_simp

/-! ### One cell -/

/-- The quantity of the four triangles of a cell, divided by the square of its side, in terms of the corners and of the difference quotients along its
four sides. -/
noncomputable def cellQ (φ : (Fin 3 → ℝ) → (Fin 3 → ℝ) → (Fin 3 → ℝ) → (Fin 3 → ℝ) → ℝ) (x : Fin 8 → Fin 3 → ℝ) : ℝ :=
  φ (x 0) (x 1) ((1 / 4 : ℝ) • (x 0 + x 1 + x 2 + x 3)) (crossF (x 4) ((1 / 4 : ℝ) • (x 4 + x 5 + (2 : ℝ) • x 6))) +
  φ (x 1) (x 3) ((1 / 4 : ℝ) • (x 0 + x 1 + x 2 + x 3)) (crossF (x 7) ((1 / 4 : ℝ) • ((2 : ℝ) • x 7 - x 4 - x 5))) +
  φ (x 3) (x 2) ((1 / 4 : ℝ) • (x 0 + x 1 + x 2 + x 3)) (crossF (-x 5) ((1 / 4 : ℝ) • (-x 6 - (2 : ℝ) • x 5 - x 7))) +
  φ (x 2) (x 0) ((1 / 4 : ℝ) • (x 0 + x 1 + x 2 + x 3)) (crossF (-x 6) ((1 / 4 : ℝ) • (x 4 + x 5 - (2 : ℝ) • x 6)))

theorem crossF_continuous {X : Type} [TopologicalSpace X] {f g : X → Fin 3 → ℝ} (hf : Continuous f) (hg : Continuous g) :
    Continuous fun x => crossF (f x) (g x) :=
  continuousOn_univ.1 (crossF_cont hf.continuousOn hg.continuousOn)

theorem cellQ_continuous {φ : (Fin 3 → ℝ) → (Fin 3 → ℝ) → (Fin 3 → ℝ) → (Fin 3 → ℝ) → ℝ} (hφ : TriQuantity φ) : Continuous (cellQ φ) := by
  unfold cellQ
  have h : ∀ k : Fin 8, Continuous fun x : Fin 8 → Fin 3 → ℝ => x k := fun k => continuous_apply k
  have hc : Continuous fun x : Fin 8 → Fin 3 → ℝ => (1 / 4 : ℝ) • (x 0 + x 1 + x 2 + x 3) := by fun_prop
  refine ((Continuous.add (Continuous.add (Continuous.add ?_ ?_) ?_) ?_))
  · exact hφ.cont.comp ((h 0).prodMk ((h 1).prodMk (hc.prodMk (crossF_continuous (by fun_prop) (by fun_prop)))))
  · exact hφ.cont.comp ((h 1).prodMk ((h 3).prodMk (hc.prodMk (crossF_continuous (by fun_prop) (by fun_prop)))))
  · exact hφ.cont.comp ((h 3).prodMk ((h 2).prodMk (hc.prodMk (crossF_continuous (by fun_prop) (by fun_prop)))))
  · exact hφ.cont.comp ((h 2).prodMk ((h 0).prodMk (hc.prodMk (crossF_continuous (by fun_prop) (by fun_prop)))))

theorem cellQ_diag {φ : (Fin 3 → ℝ) → (Fin 3 → ℝ) → (Fin 3 → ℝ) → (Fin 3 → ℝ) → ℝ} (hφ : TriQuantity φ) (p u v : Fin 3 → ℝ) :
    cellQ φ ![p, p, p, p, u, u, v, v] = 2 * φ p p p (crossF u v) := by
  have hc : (1 / 4 : ℝ) • (p + p + p + p) = p := by funext k; simp; ring
  have e1 : crossF u ((1 / 4 : ℝ) • (u + u + (2 : ℝ) • v)) = (1 / 2 : ℝ) • crossF u v := by
    funext k; fin_cases k <;> simp [crossF] <;> ring
  have e2 : crossF v ((1 / 4 : ℝ) • ((2 : ℝ) • v - u - u)) = (1 / 2 : ℝ) • crossF u v := by
    funext k; fin_cases k <;> simp [crossF] <;> ring
  have e3 : crossF (-u) ((1 / 4 : ℝ) • (-v - (2 : ℝ) • u - v)) = (1 / 2 : ℝ) • crossF u v := by
    funext k; fin_cases k <;> simp [crossF] <;> ring
  have e4 : crossF (-v) ((1 / 4 : ℝ) • (u + u - (2 : ℝ) • v)) = (1 / 2 : ℝ) • crossF u v := by
    funext k; fin_cases k <;> simp [crossF] <;> ring
  show φ p p ((1 / 4 : ℝ) • (p + p + p + p)) (crossF u ((1 / 4 : ℝ) • (u + u + (2 : ℝ) • v))) +
    φ p p ((1 / 4 : ℝ) • (p + p + p + p)) (crossF v ((1 / 4 : ℝ) • ((2 : ℝ) • v - u - u))) +
    φ p p ((1 / 4 : ℝ) • (p + p + p + p)) (crossF (-u) ((1 / 4 : ℝ) • (-v - (2 : ℝ) • u - v))) +
    φ p p ((1 / 4 : ℝ) • (p + p + p + p)) (crossF (-v) ((1 / 4 : ℝ) • (u + u - (2 : ℝ) • v))) = _
  rw [hc, e1, e2, e3, e4, hφ.hom p p p _ _ (by norm_num)]
  ring

/-- The four triangles of a cell whose sides are `h` times the given vectors. -/
theorem cellQ_sum {φ : (Fin 3 → ℝ) → (Fin 3 → ℝ) → (Fin 3 → ℝ) → (Fin 3 → ℝ) → ℝ} (hφ : TriQuantity φ) (p00 p10 p01 p11 : V) (α β γ δ : Fin 3 → ℝ) (h : ℝ) (hh : 0 < h)
    (h1 : co p10 - co p00 = h • α) (h2 : co p11 - co p01 = h • β) (h3 : co p01 - co p00 = h • γ) (h4 : co p11 - co p10 = h • δ) :
    meshSum φ (cellTris MeshArith.real false p00 p10 p01 p11) = h ^ 2 * cellQ φ ![co p00, co p10, co p01, co p11, α, β, γ, δ] := by
  have hv : ∀ p : V, meshVertex MeshArith.real false p = p := by
    intro p; ext <;> simp [meshVertex, MeshArith.real]
  have hc : co (cellCentre MeshArith.real p00 p10 p01 p11) = (1 / 4 : ℝ) • (co p00 + co p10 + co p01 + co p11) := by
    funext k; fin_cases k <;> simp [co, cellCentre, MeshArith.real] <;> norm_num
  have k1 := fun k => congrFun h1 k
  have k2 := fun k => congrFun h2 k
  have k3 := fun k => congrFun h3 k
  have k4 := fun k => congrFun h4 k
  simp only [Pi.sub_apply, Pi.smul_apply, smul_eq_mul] at k1 k2 k3 k4
  have c1 : (1 / 4 : ℝ) • (co p00 + co p10 + co p01 + co p11) - co p00 = h • ((1 / 4 : ℝ) • (α + β + (2 : ℝ) • γ)) := by
    funext k
    simp only [Pi.sub_apply, Pi.smul_apply, smul_eq_mul, Pi.add_apply]
    linear_combination (1 / 4) * k1 k + (1 / 4) * k2 k + (1 / 2) * k3 k
  have c2 : (1 / 4 : ℝ) • (co p00 + co p10 + co p01 + co p11) - co p10 = h • ((1 / 4 : ℝ) • ((2 : ℝ) • δ - α - β)) := by
    funext k
    simp only [Pi.sub_apply, Pi.smul_apply, smul_eq_mul, Pi.add_apply]
    linear_combination (1 / 2) * k4 k - (1 / 4) * k1 k - (1 / 4) * k2 k
  have c3 : (1 / 4 : ℝ) • (co p00 + co p10 + co p01 + co p11) - co p11 = h • ((1 / 4 : ℝ) • (-γ - (2 : ℝ) • β - δ)) := by
    funext k
    simp only [Pi.sub_apply, Pi.smul_apply, smul_eq_mul, Pi.add_apply, Pi.neg_apply]
    linear_combination -(1 / 4) * k3 k - (1 / 2) * k2 k - (1 / 4) * k4 k
  have c4 : (1 / 4 : ℝ) • (co p00 + co p10 + co p01 + co p11) - co p01 = h • ((1 / 4 : ℝ) • (α + β - (2 : ℝ) • γ)) := by
    funext k
    simp only [Pi.sub_apply, Pi.smul_apply, smul_eq_mul, Pi.add_apply]
    linear_combination (1 / 4) * k1 k + (1 / 4) * k2 k - (1 / 2) * k3 k
  have d3 : co p01 - co p11 = h • (-β) := by rw [smul_neg, ← h2]; abel
  have d4 : co p00 - co p01 = h • (-γ) := by rw [smul_neg, ← h3]; abel
  have hp : 0 < h ^ 2 := by positivity
  show meshSum φ [⟨_, _, _⟩, ⟨_, _, _⟩, ⟨_, _, _⟩, ⟨_, _, _⟩] = h ^ 2 * (
    φ (co p00) (co p10) ((1 / 4 : ℝ) • (co p00 + co p10 + co p01 + co p11)) (crossF α ((1 / 4 : ℝ) • (α + β + (2 : ℝ) • γ))) +
    φ (co p10) (co p11) ((1 / 4 : ℝ) • (co p00 + co p10 + co p01 + co p11)) (crossF δ ((1 / 4 : ℝ) • ((2 : ℝ) • δ - α - β))) +
    φ (co p11) (co p01) ((1 / 4 : ℝ) • (co p00 + co p10 + co p01 + co p11)) (crossF (-β) ((1 / 4 : ℝ) • (-γ - (2 : ℝ) • β - δ))) +
    φ (co p01) (co p00) ((1 / 4 : ℝ) • (co p00 + co p10 + co p01 + co p11)) (crossF (-γ) ((1 / 4 : ℝ) • (α + β - (2 : ℝ) • γ))))
  simp only [meshSum, List.map_cons, List.map_nil, List.sum_cons, List.sum_nil, hv, triArea2_cross, hc, h1, h4, d3, d4, c1, c2, c3, c4, crossF_smul, hφ.hom _ _ _ _ _ hp]
  ring

theorem meshSum_append (φ : (Fin 3 → ℝ) → (Fin 3 → ℝ) → (Fin 3 → ℝ) → (Fin 3 → ℝ) → ℝ) (a b : TriMesh ℝ) : meshSum φ (a ++ b) = meshSum φ a + meshSum φ b := by
  simp [meshSum]

theorem meshSum_flatten (φ : (Fin 3 → ℝ) → (Fin 3 → ℝ) → (Fin 3 → ℝ) → (Fin 3 → ℝ) → ℝ) (l : List (TriMesh ℝ)) :
    meshSum φ l.flatten = (l.map (meshSum φ)).sum := by
  induction l with
  | nil => rfl
  | cons a l ih => rw [List.flatten_cons, List.map_cons, List.sum_cons, ← ih, meshSum_append]

theorem meshSum_grid (φ : (Fin 3 → ℝ) → (Fin 3 → ℝ) → (Fin 3 → ℝ) → (Fin 3 → ℝ) → ℝ) (n m : ℕ) (P : ℕ → ℕ → V) :
    meshSum φ (gridMesh MeshArith.real false n m P) = ∑ i ∈ Finset.range n, ∑ j ∈ Finset.range m,
      meshSum φ (cellTris MeshArith.real false (P i j) (P (i + 1) j) (P i (j + 1)) (P (i + 1) (j + 1))) := by
  unfold gridMesh
  have sr : ∀ (k : ℕ) (f : ℕ → ℝ), ((List.range k).map f).sum = ∑ i ∈ Finset.range k, f i := by
    intro k f
    rw [← List.sum_toFinset f List.nodup_range, List.toFinset_range]
  rw [meshSum_flatten, List.map_map, sr]
  refine Finset.sum_congr rfl fun i _ => ?_
  simp only [Function.comp_apply]
  rw [meshSum_flatten, List.map_map, sr]
  rfl

/-! ### The limit -/

/-- Difference quotients along a side of a cell. -/
theorem side_quotient (g g' : ℝ → Fin 3 → ℝ) (hc : ContinuousOn g (Set.Icc 0 1)) (hd : ∀ t ∈ Set.Ioo (0 : ℝ) 1, HasDerivAt g (g' t) t) (n i : ℕ) (hn : 1 ≤ n) (hi : i < n) :
    ∃ ξ : Fin 3 → ℝ, (∀ l, ξ l ∈ Set.Icc ((i : ℝ) / n) (((i + 1 : ℕ) : ℝ) / n)) ∧
      g (((i + 1 : ℕ) : ℝ) / n) - g ((i : ℝ) / n) = (1 / n : ℝ) • fun l => g' (ξ l) l := by
  have hn0 : (0 : ℝ) < n := by exact_mod_cast hn
  have hstep : ((i + 1 : ℕ) : ℝ) / n - (i : ℝ) / n = 1 / n := by push_cast; ring
  have hlt : (i : ℝ) / n < ((i + 1 : ℕ) : ℝ) / n := by
    have h1 : 0 < 1 / (n : ℝ) := by positivity
    linarith
  have m0 := frac_mem hn hi.le
  have m1 : ((i + 1 : ℕ) : ℝ) / n ∈ Set.Icc (0 : ℝ) 1 := frac_mem hn hi
  have key : ∀ l, ∃ ξ ∈ Set.Icc ((i : ℝ) / n) (((i + 1 : ℕ) : ℝ) / n), g (((i + 1 : ℕ) : ℝ) / n) l - g ((i : ℝ) / n) l = 1 / n * g' ξ l := by
    intro l
    obtain ⟨ξ, hξ, e⟩ := exists_hasDerivAt_eq_slope (fun t => g t l) (fun t => g' t l) hlt
      (fun t ht => ((continuousOn_pi.1 hc l) t ⟨m0.1.trans ht.1, ht.2.trans m1.2⟩).mono fun t ht => ⟨m0.1.trans ht.1, ht.2.trans m1.2⟩)
      (fun t ht => (hasDerivAt_pi.1 (hd t ⟨m0.1.trans_lt ht.1, ht.2.trans_le m1.2⟩)) l)
    refine ⟨ξ, ⟨hξ.1.le, hξ.2.le⟩, ?_⟩
    rw [hstep] at e
    rw [e]
    field_simp
  choose ξ h1 h2 using key
  refine ⟨ξ, h1, ?_⟩
  funext l
  exact h2 l

/-- The surface and its derivatives, as used for the corners and the sides of a cell. -/
def fields (G Gr Gs : ℝ → ℝ → V) : Fin 8 → ℝ × ℝ → Fin 3 → ℝ :=
  ![fun q => co (G q.1 q.2), fun q => co (G q.1 q.2), fun q => co (G q.1 q.2), fun q => co (G q.1 q.2), fun q => co (Gr q.1 q.2), fun q => co (Gr q.1 q.2),
    fun q => co (Gs q.1 q.2), fun q => co (Gs q.1 q.2)]

/-- The fields evaluated at one point for each entry. -/
def spread (G Gr Gs : ℝ → ℝ → V) (q : Fin 8 → Fin 3 → ℝ × ℝ) : Fin 8 → Fin 3 → ℝ := fun k l => fields G Gr Gs k (q k l) l

theorem spread_cell {G Gr Gs : ℝ → ℝ → V} (hG : SmoothOn G Gr Gs) {φ : (Fin 3 → ℝ) → (Fin 3 → ℝ) → (Fin 3 → ℝ) → (Fin 3 → ℝ) → ℝ} (hφ : TriQuantity φ)
    (n i j : ℕ) (hn : 1 ≤ n) (hi : i < n) (hj : j < n) :
    ∃ q : Fin 8 → Fin 3 → ℝ × ℝ, (∀ k l, (q k l).1 ∈ Set.Icc ((i : ℝ) / n) (((i + 1 : ℕ) : ℝ) / n) ∧ (q k l).2 ∈ Set.Icc ((j : ℝ) / n) (((j + 1 : ℕ) : ℝ) / n)) ∧
      meshSum φ (cellTris MeshArith.real false (G ((i : ℝ) / n) ((j : ℝ) / n)) (G (((i + 1 : ℕ) : ℝ) / n) ((j : ℝ) / n)) (G ((i : ℝ) / n) (((j + 1 : ℕ) : ℝ) / n))
        (G (((i + 1 : ℕ) : ℝ) / n) (((j + 1 : ℕ) : ℝ) / n))) = cellQ φ (spread G Gr Gs q) / (n : ℝ) ^ 2 := by
  have hn0 : (0 : ℝ) < n := by exact_mod_cast hn
  have hle : ∀ i : ℕ, (i : ℝ) / n ≤ ((i + 1 : ℕ) : ℝ) / n := fun i => by
    have h1 : 0 < 1 / (n : ℝ) := by positivity
    have : ((i + 1 : ℕ) : ℝ) / n - (i : ℝ) / n = 1 / n := by push_cast; ring
    linarith
  have mi := frac_mem hn hi.le
  have mi' : ((i + 1 : ℕ) : ℝ) / n ∈ Set.Icc (0 : ℝ) 1 := frac_mem hn hi
  have mj := frac_mem hn hj.le
  have mj' : ((j + 1 : ℕ) : ℝ) / n ∈ Set.Icc (0 : ℝ) 1 := frac_mem hn hj
  have cr : ∀ s ∈ Set.Icc (0 : ℝ) 1, ContinuousOn (fun r => co (G r s)) (Set.Icc 0 1) := fun s hs =>
    hG.cont.comp (by fun_prop : Continuous fun r : ℝ => (r, s)).continuousOn fun r hr => ⟨hr, hs⟩
  have cs : ∀ r ∈ Set.Icc (0 : ℝ) 1, ContinuousOn (fun s => co (G r s)) (Set.Icc 0 1) := fun r hr =>
    hG.cont.comp (by fun_prop : Continuous fun s : ℝ => (r, s)).continuousOn fun s hs => ⟨hr, hs⟩
  obtain ⟨α, a1, a2⟩ := side_quotient (fun r => co (G r ((j : ℝ) / n))) (fun r => co (Gr r ((j : ℝ) / n))) (cr _ mj) (fun r hr => hG.dr r hr _ mj) n i hn hi
  obtain ⟨β, b1, b2⟩ := side_quotient (fun r => co (G r (((j + 1 : ℕ) : ℝ) / n))) (fun r => co (Gr r (((j + 1 : ℕ) : ℝ) / n))) (cr _ mj') (fun r hr => hG.dr r hr _ mj') n i hn hi
  obtain ⟨γ, c1, c2⟩ := side_quotient (fun s => co (G ((i : ℝ) / n) s)) (fun s => co (Gs ((i : ℝ) / n) s)) (cs _ mi) (fun s hs => hG.ds _ mi s hs) n j hn hj
  obtain ⟨δ, d1, d2⟩ := side_quotient (fun s => co (G (((i + 1 : ℕ) : ℝ) / n) s)) (fun s => co (Gs (((i + 1 : ℕ) : ℝ) / n) s)) (cs _ mi') (fun s hs => hG.ds _ mi' s hs) n j hn hj
  have l0 : ∀ i : ℕ, (i : ℝ) / n ∈ Set.Icc ((i : ℝ) / n) (((i + 1 : ℕ) : ℝ) / n) := fun i => ⟨le_rfl, hle i⟩
  have l1 : ∀ i : ℕ, ((i + 1 : ℕ) : ℝ) / n ∈ Set.Icc ((i : ℝ) / n) (((i + 1 : ℕ) : ℝ) / n) := fun i => ⟨hle i, le_rfl⟩
  refine ⟨![fun _ => ((i : ℝ) / n, (j : ℝ) / n), fun _ => (((i + 1 : ℕ) : ℝ) / n, (j : ℝ) / n), fun _ => ((i : ℝ) / n, ((j + 1 : ℕ) : ℝ) / n),
    fun _ => (((i + 1 : ℕ) : ℝ) / n, ((j + 1 : ℕ) : ℝ) / n), fun l => (α l, (j : ℝ) / n), fun l => (β l, ((j + 1 : ℕ) : ℝ) / n),
    fun l => ((i : ℝ) / n, γ l), fun l => (((i + 1 : ℕ) : ℝ) / n, δ l)], ?_, ?_⟩
  · intro k l
    fin_cases k
    · exact ⟨l0 i, l0 j⟩
    · exact ⟨l1 i, l0 j⟩
    · exact ⟨l0 i, l1 j⟩
    · exact ⟨l1 i, l1 j⟩
    · exact ⟨a1 l, l0 j⟩
    · exact ⟨b1 l, l1 j⟩
    · exact ⟨l0 i, c1 l⟩
    · exact ⟨l1 i, d1 l⟩
  · rw [cellQ_sum hφ _ _ _ _ _ _ _ _ (1 / n : ℝ) (by positivity) a2 b2 c2 d2]
    have e : spread G Gr Gs ![fun _ => ((i : ℝ) / n, (j : ℝ) / n), fun _ => (((i + 1 : ℕ) : ℝ) / n, (j : ℝ) / n), fun _ => ((i : ℝ) / n, ((j + 1 : ℕ) : ℝ) / n),
        fun _ => (((i + 1 : ℕ) : ℝ) / n, ((j + 1 : ℕ) : ℝ) / n), fun l => (α l, (j : ℝ) / n), fun l => (β l, ((j + 1 : ℕ) : ℝ) / n),
        fun l => ((i : ℝ) / n, γ l), fun l => (((i + 1 : ℕ) : ℝ) / n, δ l)] = ![co (G ((i : ℝ) / n) ((j : ℝ) / n)), co (G (((i + 1 : ℕ) : ℝ) / n) ((j : ℝ) / n)),
        co (G ((i : ℝ) / n) (((j + 1 : ℕ) : ℝ) / n)), co (G (((i + 1 : ℕ) : ℝ) / n) (((j + 1 : ℕ) : ℝ) / n)), fun l => co (Gr (α l) ((j : ℝ) / n)) l,
        fun l => co (Gr (β l) (((j + 1 : ℕ) : ℝ) / n)) l, fun l => co (Gs ((i : ℝ) / n) (γ l)) l, fun l => co (Gs (((i + 1 : ℕ) : ℝ) / n) (δ l)) l] := by
      funext k
      fin_cases k <;> rfl
    rw [e, one_div, inv_pow]
    exact (div_eq_inv_mul _ _).symm

theorem spread_cont {G Gr Gs : ℝ → ℝ → V} (hG : SmoothOn G Gr Gs) :
    ContinuousOn (spread G Gr Gs) (Set.univ.pi fun _ => Set.univ.pi fun _ => unitSq) := by
  unfold spread
  refine continuousOn_pi.2 fun k => continuousOn_pi.2 fun l => ?_
  have hk : ContinuousOn (fields G Gr Gs k) unitSq := by
    fin_cases k
    · exact hG.cont
    · exact hG.cont
    · exact hG.cont
    · exact hG.cont
    · exact hG.contr
    · exact hG.contr
    · exact hG.conts
    · exact hG.conts
  exact (continuousOn_pi.1 hk l).comp ((continuous_apply l).comp (continuous_apply k)).continuousOn fun q hq => hq k (Set.mem_univ k) l (Set.mem_univ l)

/-- The sum of a quantity over the triangles of the mesh with `n × n` cells converges to the integral of twice the quantity of the surface. -/
theorem meshSum_limit {G Gr Gs : ℝ → ℝ → V} (hG : SmoothOn G Gr Gs) {φ : (Fin 3 → ℝ) → (Fin 3 → ℝ) → (Fin 3 → ℝ) → (Fin 3 → ℝ) → ℝ} (hφ : TriQuantity φ) :
    Tendsto (fun n : ℕ => meshSum φ (gridMesh MeshArith.real false n n fun i j => G ((i : ℝ) / n) ((j : ℝ) / n))) atTop
      (𝓝 (∫ r in (0 : ℝ)..1, ∫ s in (0 : ℝ)..1, 2 * φ (co (G r s)) (co (G r s)) (co (G r s)) (crossF (co (Gr r s)) (co (Gs r s))))) := by
  set f : ℝ → ℝ → ℝ := fun r s => 2 * φ (co (G r s)) (co (G r s)) (co (G r s)) (crossF (co (Gr r s)) (co (Gs r s))) with hf
  have hfd : ∀ r s, f r s = cellQ φ (spread G Gr Gs fun _ _ => (r, s)) := by
    intro r s
    have e : spread G Gr Gs (fun _ _ => (r, s)) = ![co (G r s), co (G r s), co (G r s), co (G r s), co (Gr r s), co (Gr r s), co (Gs r s), co (Gs r s)] := by
      funext k
      fin_cases k <;> rfl
    rw [e, cellQ_diag hφ]
  have hfc : ContinuousOn (fun q : ℝ × ℝ => f q.1 q.2) unitSq := by
    have h1 : ContinuousOn (fun q : ℝ × ℝ => cellQ φ (spread G Gr Gs fun _ _ => q)) unitSq :=
      (cellQ_continuous hφ).comp_continuousOn ((spread_cont hG).comp (by fun_prop : Continuous fun q : ℝ × ℝ => fun (_ : Fin 8) (_ : Fin 3) => q).continuousOn
        fun q hq _ _ _ _ => hq)
    exact h1.congr fun q _ => hfd q.1 q.2
  -- a continuous extension to the plane
  set pr : ℝ → ℝ := fun r => (Set.projIcc (0 : ℝ) 1 zero_le_one r : ℝ) with hpr
  have prc : Continuous pr := continuous_subtype_val.comp continuous_projIcc
  have prm : ∀ r, pr r ∈ Set.Icc (0 : ℝ) 1 := fun r => (Set.projIcc (0 : ℝ) 1 zero_le_one r).2
  have pri : ∀ r ∈ Set.Icc (0 : ℝ) 1, pr r = r := fun r hr => by simp only [hpr, Set.projIcc_of_mem zero_le_one hr]
  have hgc : Continuous fun q : ℝ × ℝ => f (pr q.1) (pr q.2) := by
    have := hfc.comp_continuous (f := fun q : ℝ × ℝ => (pr q.1, pr q.2)) (by fun_prop) fun q => ⟨prm _, prm _⟩
    exact this
  have hI : ∫ r in (0 : ℝ)..1, ∫ s in (0 : ℝ)..1, f r s = ∫ r in (0 : ℝ)..1, ∫ s in (0 : ℝ)..1, f (pr r) (pr s) := by
    refine intervalIntegral.integral_congr fun r hr => intervalIntegral.integral_congr fun s hs => ?_
    rw [Set.uIcc_of_le zero_le_one] at hr hs
    simp only [pri r hr, pri s hs]
  rw [hI]
  have hK : IsCompact (Set.univ.pi fun _ : Fin 8 => Set.univ.pi fun _ : Fin 3 => unitSq) :=
    isCompact_univ_pi fun _ => isCompact_univ_pi fun _ => isCompact_Icc.prod isCompact_Icc
  have hu := hK.uniformContinuousOn_of_continuous ((cellQ_continuous hφ).comp_continuousOn (spread_cont hG))
  rw [Metric.uniformContinuousOn_iff] at hu
  rw [Metric.tendsto_atTop]
  intro ε hε
  obtain ⟨δ, hδ, hu⟩ := hu (ε / 2) (by positivity)
  obtain ⟨N, hN⟩ := exists_nat_gt (1 / δ)
  refine ⟨max N 1, fun n hn => ?_⟩
  have hn1 : 1 ≤ n := (le_max_right _ _).trans hn
  have hn0 : (0 : ℝ) < n := by exact_mod_cast hn1
  have hnδ : 1 / (n : ℝ) < δ := by
    have : (N : ℝ) ≤ n := by exact_mod_cast (le_max_left _ _).trans hn
    rw [div_lt_iff₀ hn0]
    have h1 : 1 / δ < n := lt_of_lt_of_le hN this
    rw [div_lt_iff₀ hδ] at h1
    linarith
  rw [meshSum_grid]
  have hstep : ∀ i : ℕ, ((i + 1 : ℕ) : ℝ) / n - (i : ℝ) / n = 1 / n := fun i => by push_cast; ring
  have cell : ∀ i j : ℕ, ∃ a : ℝ, (i < n → j < n → meshSum φ (cellTris MeshArith.real false (G ((i : ℝ) / n) ((j : ℝ) / n)) (G (((i + 1 : ℕ) : ℝ) / n) ((j : ℝ) / n))
        (G ((i : ℝ) / n) (((j + 1 : ℕ) : ℝ) / n)) (G (((i + 1 : ℕ) : ℝ) / n) (((j + 1 : ℕ) : ℝ) / n))) = a / (n : ℝ) ^ 2) ∧
      (i < n → j < n → ∀ r ∈ Set.Icc ((i : ℝ) / n) (((i + 1 : ℕ) : ℝ) / n), ∀ s ∈ Set.Icc ((j : ℝ) / n) (((j + 1 : ℕ) : ℝ) / n), |f (pr r) (pr s) - a| ≤ ε / 2) := by
    intro i j
    by_cases hi : i < n
    · by_cases hj : j < n
      · obtain ⟨q, h1, h2⟩ := spread_cell hG hφ n i j hn1 hi hj
        refine ⟨_, fun _ _ => h2, fun _ _ r hr s hs => ?_⟩
        have mi := frac_mem hn1 hi.le
        have mi' : ((i + 1 : ℕ) : ℝ) / n ∈ Set.Icc (0 : ℝ) 1 := frac_mem hn1 hi
        have mj := frac_mem hn1 hj.le
        have mj' : ((j + 1 : ℕ) : ℝ) / n ∈ Set.Icc (0 : ℝ) 1 := frac_mem hn1 hj
        have hr' : r ∈ Set.Icc (0 : ℝ) 1 := ⟨mi.1.trans hr.1, hr.2.trans mi'.2⟩
        have hs' : s ∈ Set.Icc (0 : ℝ) 1 := ⟨mj.1.trans hs.1, hs.2.trans mj'.2⟩
        rw [pri r hr', pri s hs', hfd, ← Real.dist_eq]
        refine (hu _ (fun k _ l _ => ⟨hr', hs'⟩) q (fun k _ l _ => ⟨⟨mi.1.trans (h1 k l).1.1, (h1 k l).1.2.trans mi'.2⟩,
          ⟨mj.1.trans (h1 k l).2.1, (h1 k l).2.2.trans mj'.2⟩⟩) ?_).le
        refine lt_of_le_of_lt ?_ hnδ
        refine (dist_pi_le_iff (by positivity)).2 fun k => (dist_pi_le_iff (by positivity)).2 fun l => ?_
        rw [Prod.dist_eq]
        have hsi := hstep i
        have hsj := hstep j
        obtain ⟨⟨q1, q2⟩, q3, q4⟩ := h1 k l
        obtain ⟨r1, r2⟩ := hr
        obtain ⟨s1, s2⟩ := hs
        refine max_le ?_ ?_
        · rw [Real.dist_eq, abs_le]
          constructor <;> simp only <;> linarith
        · rw [Real.dist_eq, abs_le]
          constructor <;> simp only <;> linarith
      · exact ⟨0, fun _ h => absurd h hj, fun _ h => absurd h hj⟩
    · exact ⟨0, fun h => absurd h hi, fun h => absurd h hi⟩
  choose a ha hb using cell
  have e : ∑ i ∈ Finset.range n, ∑ j ∈ Finset.range n, meshSum φ (cellTris MeshArith.real false (G ((i : ℝ) / n) ((j : ℝ) / n)) (G (((i + 1 : ℕ) : ℝ) / n) ((j : ℝ) / n))
        (G ((i : ℝ) / n) (((j + 1 : ℕ) : ℝ) / n)) (G (((i + 1 : ℕ) : ℝ) / n) (((j + 1 : ℕ) : ℝ) / n))) = ∑ i ∈ Finset.range n, ∑ j ∈ Finset.range n, a i j / (n : ℝ) ^ 2 :=
    Finset.sum_congr rfl fun i hi => Finset.sum_congr rfl fun j hj => ha i j (Finset.mem_range.1 hi) (Finset.mem_range.1 hj)
  rw [e, Real.dist_eq]
  exact lt_of_le_of_lt (riemann_close (fun r s => f (pr r) (pr s)) hgc n hn1 a (ε / 2) fun i hi j hj => hb i j hi hj) (by linarith)

end HV
