import Verif.Props.AreaLimit
import Verif.Props.BodyArea
import Verif.Props.SymmetricFalcon
import Verif.Props.RevolvedComposite

/-! C163: the mass, the centre of gravity and the tensor of inertia reported for bodies of revolution converge to those of the exact solid. -/

namespace HV
open Spec Filter Topology

namespace Spec

/-- A curve and its continuous derivative. -/
structure SmoothPiece (p : (ℝ → V) × (ℝ → V)) : Prop where
  cont : ContinuousOn (fun t => co (p.1 t)) (Set.Icc 0 1)
  cont' : ContinuousOn (fun t => co (p.2 t)) (Set.Icc 0 1)
  deriv : ∀ t ∈ Set.Ioo (0 : ℝ) 1, HasDerivAt (fun t => co (p.1 t)) (co (p.2 t)) t

/-- The integral over the solid swept by the curves as they turn about the x axis of a function whose integral over the disc of squared radius `w` at `x` is `g x w`:
the discs are summed along the axis. -/
noncomputable def sliceSum (ps : List ((ℝ → V) × (ℝ → V))) (g : ℝ → ℝ → ℝ) : ℝ :=
  (ps.map fun p => ∫ t in (0 : ℝ)..1, g (p.1 t).x ((p.1 t).y ^ 2 + (p.1 t).z ^ 2) * (p.2 t).x).sum

/-- The volume of the solid: the disc has area `π w`. -/
noncomputable def bodyVolume (ps : List ((ℝ → V) × (ℝ → V))) : ℝ := sliceSum ps fun _ w => Real.pi * w

/-- The place of the centre of gravity of the solid on the axis. -/
noncomputable def bodyCentre (ps : List ((ℝ → V) × (ℝ → V))) : ℝ := sliceSum ps (fun x w => x * (Real.pi * w)) / bodyVolume ps

/-- The integral of `y² + z²` over the solid: over the disc it is `π w² / 2`. -/
noncomputable def bodyAxial (ps : List ((ℝ → V) × (ℝ → V))) : ℝ := sliceSum ps fun _ w => Real.pi * w ^ 2 / 2

/-- The integral over the solid of the squared distance to the axis through the centre of gravity that is parallel to the y axis. -/
noncomputable def bodyTransverse (ps : List ((ℝ → V) × (ℝ → V))) : ℝ :=
  bodyAxial ps / 2 + sliceSum ps (fun x w => (x - bodyCentre ps) ^ 2 * (Real.pi * w))

end Spec

/-! ## Second moments of meshes -/

theorem secondMoment_sum (m : TriMesh ℝ) (i j : Fin 3) : secondMoment m i j =
    meshSum (fun a b c n => dotF a n / 120 * (a i * a j + b i * b j + c i * c j + (a i + b i + c i) * (a j + b j + c j))) m := by
  have h : ∀ t : Tri ℝ, det3 t.v0 t.v1 t.v2 = dotF (co t.v0) (triArea2 t) := by
    intro t
    simp [det3, dotF, co, triArea2]
    ring
  unfold secondMoment meshSum
  congr 1
  refine List.map_congr_left fun t _ => ?_
  rw [h]
  have e : ∀ v : V, coord v = co v := fun v => rfl
  simp only [e]
  ring

theorem secondQ (i j : Fin 3) :
    TriQuantity fun a b c n => dotF a n / 120 * (a i * a j + b i * b j + c i * c j + (a i + b i + c i) * (a j + b j + c j)) := by
  constructor
  · unfold dotF
    fun_prop
  · intro a b c n t _
    simp only [dotF, Pi.smul_apply, smul_eq_mul]
    ring

theorem Spec.TriQuantity.add {φ ψ : (Fin 3 → ℝ) → (Fin 3 → ℝ) → (Fin 3 → ℝ) → (Fin 3 → ℝ) → ℝ} (h : TriQuantity φ) (h' : TriQuantity ψ) :
    TriQuantity fun a b c n => φ a b c n + ψ a b c n := by
  constructor
  · exact h.1.add h'.1
  · intro a b c n t ht
    simp only [h.2 a b c n t ht, h'.2 a b c n t ht]
    ring

theorem meshSum_add (φ ψ : (Fin 3 → ℝ) → (Fin 3 → ℝ) → (Fin 3 → ℝ) → (Fin 3 → ℝ) → ℝ) (m : TriMesh ℝ) :
    meshSum (fun a b c n => φ a b c n + ψ a b c n) m = meshSum φ m + meshSum ψ m := by
  unfold meshSum
  induction m with
  | nil => simp
  | cons t m ih => simp only [List.map_cons, List.sum_cons, ih]; ring

/-! ## A quarter of a surface of revolution -/

/-- The flux of the position through a quarter of the surface. -/
theorem quarter_flux (f f' : ℝ → V) (k : ℕ) (r s : ℝ) :
    dotF (co ((quarterSheet f f' k).G r s)) (crossF (co ((quarterSheet f f' k).Gr r s)) (co ((quarterSheet f f' k).Gs r s))) =
      Real.pi / 2 * ((f' r).x * ((f r).y ^ 2 + (f r).z ^ 2) - (f r).x * ((f r).y * (f' r).y + (f r).z * (f' r).z)) := by
  simp only [dotF, quarterSheet, crossF, co, revolveRot, Matrix.cons_val_zero, Matrix.cons_val_one, Matrix.cons_val]
  have h := Real.sin_sq_add_cos_sq ((k * Real.pi / 2) * (1 - s) + (((k : ℝ) + 1) * Real.pi / 2) * s)
  generalize Real.sin ((k * Real.pi / 2) * (1 - s) + (((k : ℝ) + 1) * Real.pi / 2) * s) = S at *
  generalize Real.cos ((k * Real.pi / 2) * (1 - s) + (((k : ℝ) + 1) * Real.pi / 2) * s) = C at *
  generalize (f r).x = x
  generalize (f r).y = y
  generalize (f r).z = z
  generalize (f' r).x = x'
  generalize (f' r).y = y'
  generalize (f' r).z = z'
  linear_combination (Real.pi / 2) * (x' * (y ^ 2 + z ^ 2) - x * (y * y' + z * z')) * h

theorem quarter_radius (f f' : ℝ → V) (k : ℕ) (r s : ℝ) :
    co ((quarterSheet f f' k).G r s) 0 = (f r).x ∧
    co ((quarterSheet f f' k).G r s) 1 ^ 2 + co ((quarterSheet f f' k).G r s) 2 ^ 2 = (f r).y ^ 2 + (f r).z ^ 2 := by
  simp only [quarterSheet, co, revolveRot, Matrix.cons_val_zero, Matrix.cons_val_one, Matrix.cons_val]
  have h := Real.sin_sq_add_cos_sq ((k * Real.pi / 2) * (1 - s) + (((k : ℝ) + 1) * Real.pi / 2) * s)
  generalize Real.sin ((k * Real.pi / 2) * (1 - s) + (((k : ℝ) + 1) * Real.pi / 2) * s) = S at *
  generalize Real.cos ((k * Real.pi / 2) * (1 - s) + (((k : ℝ) + 1) * Real.pi / 2) * s) = C at *
  refine ⟨trivial, ?_⟩
  linear_combination ((f r).y ^ 2 + (f r).z ^ 2) * h

/-! ## The limit of a sum over the triangles of a body of revolution -/

theorem tendsto_listSum {α : Type} (l : List α) (F : ℕ → α → ℝ) (L : α → ℝ) (h : ∀ a ∈ l, Tendsto (fun n => F n a) atTop (𝓝 (L a))) :
    Tendsto (fun n => (l.map (F n)).sum) atTop (𝓝 (l.map L).sum) := by
  induction l with
  | nil => simp
  | cons a l ih =>
    simp only [List.map_cons, List.sum_cons]
    exact (h a (by simp)).add (ih fun b hb => h b (by simp [hb]))

theorem stack_limit (ps : List ((ℝ → V) × (ℝ → V))) (hs : ∀ p ∈ ps, SmoothPiece p) (he : EndsMeet (ps.map Prod.fst))
    {φ : (Fin 3 → ℝ) → (Fin 3 → ℝ) → (Fin 3 → ℝ) → (Fin 3 → ℝ) → ℝ} (hφ : TriQuantity φ) (α β : ℝ) (a b : ℕ)
    (h1 : ∀ (f f' : ℝ → V) (k : ℕ) (r s : ℝ), let S := quarterSheet f f' k
      8 * φ (co (S.G r s)) (co (S.G r s)) (co (S.G r s)) (crossF (co (S.Gr r s)) (co (S.Gs r s))) =
        α * (f r).x ^ a * ((f r).y ^ 2 + (f r).z ^ 2) ^ (b + 1) * (f' r).x +
        β * ((a + 1 : ℕ) * (f r).x ^ a * (f' r).x * ((f r).y ^ 2 + (f r).z ^ 2) ^ (b + 1) +
          (f r).x ^ (a + 1) * ((b + 1 : ℕ) * ((f r).y ^ 2 + (f r).z ^ 2) ^ b * (2 * ((f r).y * (f' r).y + (f r).z * (f' r).z))))) :
    Tendsto (fun n => meshSum φ ((allGrids n (ps.map Prod.fst)).map (gridMesh MeshArith.real false n n)).flatten) atTop
      (𝓝 (sliceSum ps fun x w => α * x ^ a * w ^ (b + 1))) := by
  set dK : (ℝ → V) × (ℝ → V) → ℝ → ℝ := fun p t => (a + 1 : ℕ) * (p.1 t).x ^ a * (p.2 t).x * ((p.1 t).y ^ 2 + (p.1 t).z ^ 2) ^ (b + 1) +
    (p.1 t).x ^ (a + 1) * ((b + 1 : ℕ) * ((p.1 t).y ^ 2 + (p.1 t).z ^ 2) ^ b * (2 * ((p.1 t).y * (p.2 t).y + (p.1 t).z * (p.2 t).z))) with hdK
  set K : V → ℝ := fun v => v.x ^ (a + 1) * (v.y ^ 2 + v.z ^ 2) ^ (b + 1) with hK
  have hcomp : ∀ p ∈ ps, (∀ t ∈ Set.Ioo (0 : ℝ) 1, HasDerivAt (fun t => K (p.1 t)) (dK p t) t) ∧ ContinuousOn (fun t => K (p.1 t)) (Set.Icc 0 1) ∧
      ContinuousOn (dK p) (Set.Icc 0 1) ∧
      ContinuousOn (fun t => α * (p.1 t).x ^ a * ((p.1 t).y ^ 2 + (p.1 t).z ^ 2) ^ (b + 1) * (p.2 t).x) (Set.Icc 0 1) := by
    intro p hp
    obtain ⟨c, c', d⟩ := hs p hp
    have cx : ContinuousOn (fun t => (p.1 t).x) (Set.Icc 0 1) := continuousOn_pi.1 c 0
    have cy : ContinuousOn (fun t => (p.1 t).y) (Set.Icc 0 1) := continuousOn_pi.1 c 1
    have cz : ContinuousOn (fun t => (p.1 t).z) (Set.Icc 0 1) := continuousOn_pi.1 c 2
    have dx : ContinuousOn (fun t => (p.2 t).x) (Set.Icc 0 1) := continuousOn_pi.1 c' 0
    have dy : ContinuousOn (fun t => (p.2 t).y) (Set.Icc 0 1) := continuousOn_pi.1 c' 1
    have dz : ContinuousOn (fun t => (p.2 t).z) (Set.Icc 0 1) := continuousOn_pi.1 c' 2
    refine ⟨fun t ht => ?_, ?_, ?_, ?_⟩
    · have hd := hasDerivAt_pi.1 (d t ht)
      have ex : HasDerivAt (fun t => (p.1 t).x) (p.2 t).x t := hd 0
      have ey : HasDerivAt (fun t => (p.1 t).y) (p.2 t).y t := hd 1
      have ez : HasDerivAt (fun t => (p.1 t).z) (p.2 t).z t := hd 2
      refine ((ex.pow (a + 1)).mul (((ey.pow 2).add (ez.pow 2)).pow (b + 1))).congr_deriv ?_
      simp only [hdK, Pi.add_apply, Pi.pow_apply, Nat.cast_ofNat, Nat.add_one_sub_one, pow_one]
      ring
    · simp only [hK]; fun_prop
    · simp only [hdK]; fun_prop
    · fun_prop
  have hflat : ∀ n, meshSum φ ((allGrids n (ps.map Prod.fst)).map (gridMesh MeshArith.real false n n)).flatten =
      (ps.map fun p => ((List.range 4).map fun k => meshSum φ (gridMesh MeshArith.real false n n fun i j =>
        (quarterSheet p.1 p.2 k).G ((i : ℝ) / n) ((j : ℝ) / n))).sum).sum := by
    intro n
    rw [meshSum_flatten]
    unfold allGrids
    rw [List.flatMap_map]
    clear hcomp he hs
    induction ps with
    | nil => rfl
    | cons p ps ih =>
      rw [List.flatMap_cons, List.map_append, List.map_append, List.sum_append, ih, List.map_cons, List.sum_cons, List.map_map, List.map_map]
      rfl
  have hpiece : ∀ p ∈ ps, Tendsto (fun n : ℕ => ((List.range 4).map fun k => meshSum φ (gridMesh MeshArith.real false n n fun i j =>
        (quarterSheet p.1 p.2 k).G ((i : ℝ) / n) ((j : ℝ) / n))).sum) atTop
      (𝓝 ((∫ t in (0 : ℝ)..1, α * (p.1 t).x ^ a * ((p.1 t).y ^ 2 + (p.1 t).z ^ 2) ^ (b + 1) * (p.2 t).x) + β * (K (p.1 1) - K (p.1 0)))) := by
    intro p hp
    obtain ⟨d, c1, c2, c3⟩ := hcomp p hp
    have hq := tendsto_listSum (List.range 4) (fun n k => meshSum φ (gridMesh MeshArith.real false n n fun i j =>
        (quarterSheet p.1 p.2 k).G ((i : ℝ) / n) ((j : ℝ) / n)))
        (fun _ => ((∫ t in (0 : ℝ)..1, α * (p.1 t).x ^ a * ((p.1 t).y ^ 2 + (p.1 t).z ^ 2) ^ (b + 1) * (p.2 t).x) + β * (K (p.1 1) - K (p.1 0))) / 4) (by
      intro k _
      have := meshSum_limit (quarter_smooth p.1 p.2 k (hs p hp).cont (hs p hp).cont' (hs p hp).deriv) hφ
      have e : ∀ r s, 2 * φ (co ((quarterSheet p.1 p.2 k).G r s)) (co ((quarterSheet p.1 p.2 k).G r s)) (co ((quarterSheet p.1 p.2 k).G r s))
          (crossF (co ((quarterSheet p.1 p.2 k).Gr r s)) (co ((quarterSheet p.1 p.2 k).Gs r s))) =
          (α * (p.1 r).x ^ a * ((p.1 r).y ^ 2 + (p.1 r).z ^ 2) ^ (b + 1) * (p.2 r).x + β * dK p r) / 4 := by
        intro r s
        have := h1 p.1 p.2 k r s
        simp only [hdK]
        simp only at this
        linarith
      simp only [e, intervalIntegral.integral_const, sub_zero, one_smul, intervalIntegral.integral_div] at this
      rw [← Set.uIcc_of_le (zero_le_one' ℝ)] at c1 c2 c3
      rw [intervalIntegral.integral_add c3.intervalIntegrable (c2.intervalIntegrable.const_mul β), intervalIntegral.integral_const_mul,
        intervalIntegral.integral_eq_sub_of_hasDerivAt_of_le zero_le_one (by rwa [Set.uIcc_of_le (zero_le_one' ℝ)] at c1) d c2.intervalIntegrable] at this
      exact this)
    refine hq.trans (le_of_eq ?_)
    congr 1
    simp only [show List.range 4 = [0, 1, 2, 3] from rfl, List.map_cons, List.map_nil, List.sum_cons, List.sum_nil]
    ring
  simp only [hflat]
  refine (tendsto_listSum ps _ _ hpiece).trans (le_of_eq ?_)
  congr 1
  have hz := endsMeet_sum K (fun v hy hz => by simp [hK, hy, hz]) _ he
  rw [List.map_map, List.map_map] at hz
  have hsplit : ∀ l : List ((ℝ → V) × (ℝ → V)), (l.map fun p => (∫ t in (0 : ℝ)..1, α * (p.1 t).x ^ a * ((p.1 t).y ^ 2 + (p.1 t).z ^ 2) ^ (b + 1) * (p.2 t).x) +
      β * (K (p.1 1) - K (p.1 0))).sum = sliceSum l (fun x w => α * x ^ a * w ^ (b + 1)) +
      β * ((l.map fun p => K (p.1 1)).sum - (l.map fun p => K (p.1 0)).sum) := by
    intro l
    unfold sliceSum
    induction l with
    | nil => simp
    | cons p l ih => simp only [List.map_cons, List.sum_cons, ih]; ring
  rw [hsplit]
  simp only [Function.comp_def] at hz
  rw [hz, sub_self, mul_zero, add_zero]

theorem stack_quantities (ps : List ((ℝ → V) × (ℝ → V))) (hs : ∀ p ∈ ps, SmoothPiece p) (he : EndsMeet (ps.map Prod.fst)) :
    let m := fun n => ((allGrids n (ps.map Prod.fst)).map (gridMesh MeshArith.real false n n)).flatten
    Tendsto (fun n => signedVolume (m n)) atTop (𝓝 (bodyVolume ps)) ∧
    Tendsto (fun n => (firstMoment (m n)).x) atTop (𝓝 (sliceSum ps fun x w => x * (Real.pi * w))) ∧
    Tendsto (fun n => secondMoment (m n) 0 0) atTop (𝓝 (sliceSum ps fun x w => x ^ 2 * (Real.pi * w))) ∧
    Tendsto (fun n => secondMoment (m n) 1 1 + secondMoment (m n) 2 2) atTop (𝓝 (bodyAxial ps)) := by
  intro m
  refine ⟨?_, ?_, ?_, ?_⟩
  · have := stack_limit ps hs he volumeQ Real.pi (-(Real.pi / 3)) 0 0 (by
      intro f f' k r s
      simp only [quarter_flux]
      push_cast
      ring)
    simp only [← signedVolume_sum] at this
    refine this.trans (le_of_eq ?_)
    simp [bodyVolume]
  · have := stack_limit ps hs he (momentQ 0) Real.pi (-(Real.pi / 4)) 1 0 (by
      intro f f' k r s
      simp only [quarter_flux, (quarter_radius f f' k r s).1]
      push_cast
      ring)
    simp only [← firstMoment_sum] at this
    refine this.trans (le_of_eq ?_)
    congr 2
    funext x w
    ring
  · have := stack_limit ps hs he (secondQ 0 0) Real.pi (-(Real.pi / 5)) 2 0 (by
      intro f f' k r s
      simp only [quarter_flux, (quarter_radius f f' k r s).1]
      push_cast
      ring)
    simp only [← secondMoment_sum] at this
    refine this.trans (le_of_eq ?_)
    congr 2
    funext x w
    ring
  · have := stack_limit ps hs he ((secondQ 1 1).add (secondQ 2 2)) (Real.pi / 2) (-(Real.pi / 10)) 0 1 (by
      intro f f' k r s
      have h2 := (quarter_radius f f' k r s).2
      simp only [quarter_flux]
      push_cast
      generalize co ((quarterSheet f f' k).G r s) 1 = u at *
      generalize co ((quarterSheet f f' k).G r s) 2 = v at *
      linear_combination (2 * Real.pi / 5 * ((f' r).x * ((f r).y ^ 2 + (f r).z ^ 2) - (f r).x * ((f r).y * (f' r).y + (f r).z * (f' r).z))) * h2)
    simp only [meshSum_add, ← secondMoment_sum] at this
    refine this.trans (le_of_eq ?_)
    unfold bodyAxial
    congr 2
    funext x w
    ring

theorem allGrids_closed (n : ℕ) (hn : 1 ≤ n) (fs : List (ℝ → V)) (he : EndsMeet fs) :
    Closed ((allGrids n fs).map (gridMesh MeshArith.real false n n)).flatten := by
  rw [closed_iff_edgeSum]
  intro φ hφ
  rw [edgeSum_grids φ hφ, allGrids_ends φ n hn fs, endsMeet_sum (ringSum φ n) (ringSum_axis φ hφ n) fs he, sub_self]

/-- The integral of the squared distance to the centre of gravity along the axis. -/
theorem slice_steiner (ps : List ((ℝ → V) × (ℝ → V))) (hs : ∀ p ∈ ps, SmoothPiece p) (hv : bodyVolume ps ≠ 0) :
    sliceSum ps (fun x w => (x - bodyCentre ps) ^ 2 * (Real.pi * w)) =
      sliceSum ps (fun x w => x ^ 2 * (Real.pi * w)) - bodyVolume ps * bodyCentre ps ^ 2 := by
  have key : ∀ c, sliceSum ps (fun x w => (x - c) ^ 2 * (Real.pi * w)) = sliceSum ps (fun x w => x ^ 2 * (Real.pi * w)) -
      2 * c * sliceSum ps (fun x w => x * (Real.pi * w)) + c ^ 2 * sliceSum ps (fun _ w => Real.pi * w) := by
    intro c
    unfold sliceSum
    clear hv
    induction ps with
    | nil => simp
    | cons p ps ih =>
      simp only [List.map_cons, List.sum_cons]
      rw [ih fun q hq => hs q (by simp [hq])]
      obtain ⟨k, k', -⟩ := hs p (by simp)
      rw [← Set.uIcc_of_le (zero_le_one' ℝ)] at k k'
      have cx : ContinuousOn (fun t => (p.1 t).x) (Set.uIcc 0 1) := continuousOn_pi.1 k 0
      have cy : ContinuousOn (fun t => (p.1 t).y) (Set.uIcc 0 1) := continuousOn_pi.1 k 1
      have cz : ContinuousOn (fun t => (p.1 t).z) (Set.uIcc 0 1) := continuousOn_pi.1 k 2
      have dx : ContinuousOn (fun t => (p.2 t).x) (Set.uIcc 0 1) := continuousOn_pi.1 k' 0
      have i2 : IntervalIntegrable (fun t => (p.1 t).x ^ 2 * (Real.pi * ((p.1 t).y ^ 2 + (p.1 t).z ^ 2)) * (p.2 t).x) MeasureTheory.volume 0 1 :=
        ContinuousOn.intervalIntegrable (by fun_prop)
      have i1 : IntervalIntegrable (fun t => (p.1 t).x * (Real.pi * ((p.1 t).y ^ 2 + (p.1 t).z ^ 2)) * (p.2 t).x) MeasureTheory.volume 0 1 :=
        ContinuousOn.intervalIntegrable (by fun_prop)
      have i0 : IntervalIntegrable (fun t => Real.pi * ((p.1 t).y ^ 2 + (p.1 t).z ^ 2) * (p.2 t).x) MeasureTheory.volume 0 1 :=
        ContinuousOn.intervalIntegrable (by fun_prop)
      have e : ∀ t, ((p.1 t).x - c) ^ 2 * (Real.pi * ((p.1 t).y ^ 2 + (p.1 t).z ^ 2)) * (p.2 t).x =
          (p.1 t).x ^ 2 * (Real.pi * ((p.1 t).y ^ 2 + (p.1 t).z ^ 2)) * (p.2 t).x -
          2 * c * ((p.1 t).x * (Real.pi * ((p.1 t).y ^ 2 + (p.1 t).z ^ 2)) * (p.2 t).x) +
          c ^ 2 * (Real.pi * ((p.1 t).y ^ 2 + (p.1 t).z ^ 2) * (p.2 t).x) := fun t => by ring
      simp only [e]
      rw [intervalIntegral.integral_add (i2.sub (i1.const_mul _)) (i0.const_mul _), intervalIntegral.integral_sub i2 (i1.const_mul _),
        intervalIntegral.integral_const_mul, intervalIntegral.integral_const_mul]
      ring
  rw [key]
  have hc : sliceSum ps (fun x w => x * (Real.pi * w)) = bodyCentre ps * bodyVolume ps := by
    unfold bodyCentre
    rw [div_mul_cancel₀ _ hv]
  rw [hc]
  show _ - _ + bodyCentre ps ^ 2 * bodyVolume ps = _
  ring

namespace Spec

/-- The reported mass properties are within `ε` of those of the solid of density `ρ` swept by the curves as they turn about the x axis; where symmetry
decides, they are exact. -/
structure NearBody (q : MassProps) (ps : List ((ℝ → V) × (ℝ → V))) (ρ ε : ℝ) : Prop where
  volume : |q.volume - bodyVolume ps| < ε
  mass : |q.mass - ρ * bodyVolume ps| < ε
  cog : |q.cog.x - bodyCentre ps| < ε ∧ q.cog.y = 0 ∧ q.cog.z = 0
  axial : |q.moi 0 0 - ρ * bodyAxial ps| < ε
  transverse : |q.moi 1 1 - ρ * bodyTransverse ps| < ε ∧ q.moi 1 1 = q.moi 2 2
  products : ∀ i j, i ≠ j → q.moi i j = 0

end Spec

theorem body_near (lib : Lib) (hl : NumpyStlInertia lib) (ps : List ((ℝ → V) × (ℝ → V))) (hs : ∀ p ∈ ps, SmoothPiece p)
    (he : EndsMeet (ps.map Prod.fst)) (hv : bodyVolume ps ≠ 0) (ρ ε : ℝ) (hε : 0 < ε) :
    ∃ N : ℕ, 1 ≤ N ∧ ∀ n ≥ N, ∀ M : StlMesh, M.tris = ((allGrids n (ps.map Prod.fst)).map (gridMesh MeshArith.real false n n)).flatten →
      ∀ q, lib.massProps M ρ = .ok q → NearBody q ps ρ ε := by
  obtain ⟨l1, l2, l3, l4⟩ := stack_quantities ps hs he
  set m := fun n => ((allGrids n (ps.map Prod.fst)).map (gridMesh MeshArith.real false n n)).flatten with hm
  have lc : Tendsto (fun n => (firstMoment (m n)).x / signedVolume (m n)) atTop (𝓝 (bodyCentre ps)) := l2.div l1 hv
  have lt : Tendsto (fun n => ρ * ((secondMoment (m n) 1 1 + secondMoment (m n) 2 2) / 2 + (secondMoment (m n) 0 0 -
      signedVolume (m n) * ((firstMoment (m n)).x / signedVolume (m n)) ^ 2))) atTop (𝓝 (ρ * bodyTransverse ps)) := by
    unfold bodyTransverse
    rw [slice_steiner ps hs hv]
    exact ((l4.div_const 2).add (l3.sub (l1.mul (lc.pow 2)))).const_mul ρ
  have lm := l1.const_mul ρ
  have la := l4.const_mul ρ
  have near : ∀ {u : ℕ → ℝ} {L : ℝ}, Tendsto u atTop (𝓝 L) → ∀ᶠ n in atTop, |u n - L| < ε := by
    intro u L hu
    have := Metric.tendsto_nhds.1 hu ε hε
    simpa only [Real.dist_eq] using this
  have ev := (l1.eventually_ne hv).and ((near l1).and ((near lm).and ((near lc).and ((near la).and (near lt)))))
  obtain ⟨N, hN⟩ := eventually_atTop.1 ev
  refine ⟨max N 1, le_max_right _ _, fun n hn M hM q hq => ?_⟩
  obtain ⟨n0, n1, n2, n3, n4, n5⟩ := hN n (le_trans (le_max_left _ _) hn)
  have hM' : M.tris = m n := hM
  have hcl : Closed M.tris := by rw [hM]; exact allGrids_closed n (le_trans (le_max_right _ _) hn) _ he
  have hsy : TurnSymmetric M.tris := by rw [hM]; exact allGrids_symmetric n _
  have h0 : signedVolume M.tris ≠ 0 := by rw [hM']; exact n0
  obtain ⟨q1, q2, q3⟩ := C111_component lib hl.toNumpyStl M hcl ρ q hq
  obtain ⟨s1, s2, s3, s4⟩ := C128_component lib hl M hcl hsy ρ q hq h0
  have hmoi := C128_inertia lib hl M hcl ρ q hq h0
  obtain ⟨y0, z0⟩ := centroid_symmetric hsy
  have hS := (secondMoment_symmetric hsy).1
  have hcx : (centroid M.tris).x = (firstMoment M.tris).x / signedVolume M.tris := by
    show (firstMoment M.tris).x * (1 / _) = _
    ring
  refine ⟨?_, ?_, ⟨?_, s1, s2⟩, ?_, ⟨?_, s3⟩, s4⟩
  · rw [q1, hM']; exact n1
  · rw [q2, hM']; exact n2
  · rw [q3 h0, hcx, hM']; exact n3
  · have : q.moi 0 0 = ρ * (secondMoment M.tris 1 1 + secondMoment M.tris 2 2) := by
      rw [hmoi, inertiaOf]
      simp only [if_true, coord, Matrix.cons_val_zero, y0, z0]
      ring
    rw [this, hM']
    exact n4
  · have : q.moi 1 1 = ρ * ((secondMoment M.tris 1 1 + secondMoment M.tris 2 2) / 2 + (secondMoment M.tris 0 0 -
        signedVolume M.tris * ((firstMoment M.tris).x / signedVolume M.tris) ^ 2)) := by
      rw [hmoi, inertiaOf, ← hcx]
      simp only [if_true, coord, Matrix.cons_val_one, Matrix.cons_val_zero, y0, z0]
      rw [hS]
      ring
    rw [this, hM']
    exact n5

/-- C163: if a smooth line that begins and ends on the axis is revolved, the mass properties reported for the component are, for every fine enough resolution, as close
as desired to those of the exact solid. -/
theorem C163_revolved (lib : Lib) (hl : NumpyStlInertia lib) (line : PathObj) (f f' : ℝ → V) (hc : ∀ t, 0 ≤ t → t ≤ 1 → line.call t = .ok (f t))
    (hs : SmoothPiece (f, f')) (h0 : (f 0).y = 0 ∧ (f 0).z = 0) (h1 : (f 1).y = 0 ∧ (f 1).z = 0) (hv : bodyVolume [(f, f')] ≠ 0)
    (ρ ε : ℝ) (hε : 0 < ε) :
    ∃ N : ℕ, ∀ n ≥ N, ∀ (name : Option String) (h : Heap) (id : ℕ), h id = RevolvedComponent line n name →
      ∃ h' M c', generatePatches h id = (.ok (), h') ∧ (h' id).mesh = (.ok M, c') ∧ ∀ q, lib.massProps M ρ = .ok q → NearBody q [(f, f')] ρ ε := by
  have he : EndsMeet ([(f, f')].map Prod.fst) := by simp [EndsMeet, h0, h1]
  obtain ⟨N, hN1, hN⟩ := body_near lib hl [(f, f')] (by simpa using hs) he hv ρ ε hε
  refine ⟨N, fun n hn name h id hid => ?_⟩
  obtain ⟨h', M, c', hg, hM, ht⟩ := revolved_mesh line f hc n (le_trans hN1 hn) name h id hid
  exact ⟨h', M, c', hg, hM, hN n hn M (by rw [ht]; simp [allGrids])⟩

/-- C163 for composites of revolved components: it suffices that the ends of the lines away from the axis are the beginnings of the others. -/
theorem C163_composite (lib : Lib) (hl : NumpyStlInertia lib) (lines : List PathObj) (ps : List ((ℝ → V) × (ℝ → V)))
    (hc : List.Forall₂ (fun (line : PathObj) (p : (ℝ → V) × (ℝ → V)) => ∀ t, 0 ≤ t → t ≤ 1 → line.call t = .ok (p.1 t)) lines ps)
    (hs : ∀ p ∈ ps, SmoothPiece p) (he : EndsMeet (ps.map Prod.fst)) (hv : bodyVolume ps ≠ 0) (ρ ε : ℝ) (hε : 0 < ε) :
    ∃ N : ℕ, ∀ n ≥ N, ∀ (h : Heap) (id : ℕ) (ids : List ℕ), ids.Nodup → id ∉ ids → (h id).gen = .composite ids →
      List.Forall₂ (fun k line => NewRevolved (h k) line) ids lines → (h id).stl_resolution = .int n → (h id).mesh_ = none → (h id).surfaces = none →
      (h id).clustering = {} →
      ∃ h' M c', generatePatches h id = (.ok (), h') ∧ (h' id).mesh = (.ok M, c') ∧ ∀ q, lib.massProps M ρ = .ok q → NearBody q ps ρ ε := by
  obtain ⟨N, hN1, hN⟩ := body_near lib hl ps hs he hv ρ ε hε
  refine ⟨N, fun n hn h id ids hnd hid hg hnew hres hm hsf hcl => ?_⟩
  have hne : ids ≠ [] := by
    rintro rfl
    cases hnew
    cases hc
    simp [bodyVolume, sliceSum] at hv
  obtain ⟨h', M, c', g1, g2, -, g3⟩ := revolved_composite_mesh h id ids lines (ps.map Prod.fst) hnd hid hne hg hnew
    (by rw [List.forall₂_map_right_iff]; exact hc) n (le_trans hN1 hn) hres hm hsf hcl
  exact ⟨h', M, c', g1, g2, hN n hn M g3⟩

/-! ## Cones -/

theorem line_piece (a b : V) : SmoothPiece (lineAt a b, fun _ => b - a) := by
  have hd : ∀ t : ℝ, HasDerivAt (fun t => co (lineAt a b t)) (co (b - a)) t := by
    intro t
    rw [hasDerivAt_pi]
    intro i
    fin_cases i
    · exact (((hasDerivAt_const t (1 : ℝ)).sub (hasDerivAt_id t)).const_mul a.x |>.add ((hasDerivAt_id t).const_mul b.x)).congr_of_eventuallyEq
        (.of_forall fun t => by simp [lineAt, co]) |>.congr_deriv (by simp [co]; ring)
    · exact (((hasDerivAt_const t (1 : ℝ)).sub (hasDerivAt_id t)).const_mul a.y |>.add ((hasDerivAt_id t).const_mul b.y)).congr_of_eventuallyEq
        (.of_forall fun t => by simp [lineAt, co]) |>.congr_deriv (by simp [co]; ring)
    · exact (((hasDerivAt_const t (1 : ℝ)).sub (hasDerivAt_id t)).const_mul a.z |>.add ((hasDerivAt_id t).const_mul b.z)).congr_of_eventuallyEq
        (.of_forall fun t => by simp [lineAt, co]) |>.congr_deriv (by simp [co]; ring)
  exact ⟨fun t _ => (hd t).continuousAt.continuousWithinAt, (continuousOn_const : ContinuousOn (fun _ : ℝ => co (b - a)) _), fun t _ => hd t⟩

/-- The cone of length `L` and radius `R` with its tip in the origin: the mantle and the base. -/
noncomputable def conePieces (L R : ℝ) : List ((ℝ → V) × (ℝ → V)) :=
  [(lineAt ⟨0, 0, 0⟩ ⟨L, R, 0⟩, fun _ => ⟨L, R, 0⟩ - ⟨0, 0, 0⟩), (lineAt ⟨L, R, 0⟩ ⟨L, 0, 0⟩, fun _ => ⟨L, 0, 0⟩ - ⟨L, R, 0⟩)]

/-- The solid of `bodyVolume` and so on is the solid of the textbooks: for the cone the volume is `π R² L / 3`, the centre of gravity is at three quarters of the length,
and the moments of inertia are `3/10 m R²` and `3/20 m R² + 3/80 m L²`. -/
theorem C163_cone (L R : ℝ) (hL : 0 < L) (hR : 0 < R) : bodyVolume (conePieces L R) = Real.pi * R ^ 2 * L / 3 ∧ bodyCentre (conePieces L R) = 3 / 4 * L ∧
    bodyAxial (conePieces L R) = 3 / 10 * bodyVolume (conePieces L R) * R ^ 2 ∧
    bodyTransverse (conePieces L R) = bodyVolume (conePieces L R) * (3 / 20 * R ^ 2 + 3 / 80 * L ^ 2) := by
  have key : ∀ g : ℝ → ℝ → ℝ, sliceSum (conePieces L R) g = L * ∫ t in (0 : ℝ)..1, g (L * t) ((R * t) ^ 2) := by
    intro g
    simp only [sliceSum, conePieces, List.map_cons, List.map_nil, List.sum_cons, List.sum_nil, lineAt]
    rw [← intervalIntegral.integral_const_mul]
    have e : ∀ t : ℝ, g (L * t) ((R * t) ^ 2) = g ((⟨0, 0, 0⟩ : V) * (1 - t) + (⟨L, R, 0⟩ : V) * t).x
        (((⟨0, 0, 0⟩ : V) * (1 - t) + (⟨L, R, 0⟩ : V) * t).y ^ 2 + ((⟨0, 0, 0⟩ : V) * (1 - t) + (⟨L, R, 0⟩ : V) * t).z ^ 2) := by
      intro t; congr 1 <;> simp
    simp [e]
    simp [mul_comm]
  have hv : bodyVolume (conePieces L R) = Real.pi * R ^ 2 * L / 3 := by
    unfold bodyVolume
    rw [key]
    have : ∀ t : ℝ, Real.pi * (R * t) ^ 2 = Real.pi * R ^ 2 * t ^ 2 := fun t => by ring
    simp only [this, intervalIntegral.integral_const_mul, integral_pow]
    norm_num
    ring
  have hvp : bodyVolume (conePieces L R) ≠ 0 := by rw [hv]; positivity
  have hc : bodyCentre (conePieces L R) = 3 / 4 * L := by
    unfold bodyCentre
    rw [hv, key]
    have : ∀ t : ℝ, L * t * (Real.pi * (R * t) ^ 2) = L * Real.pi * R ^ 2 * t ^ 3 := fun t => by ring
    simp only [this, intervalIntegral.integral_const_mul, integral_pow]
    have := Real.pi_pos
    field_simp
    norm_num
  have ha : bodyAxial (conePieces L R) = 3 / 10 * bodyVolume (conePieces L R) * R ^ 2 := by
    rw [hv]
    unfold bodyAxial
    rw [key]
    have : ∀ t : ℝ, Real.pi * ((R * t) ^ 2) ^ 2 / 2 = Real.pi * R ^ 4 / 2 * t ^ 4 := fun t => by ring
    simp only [this, intervalIntegral.integral_const_mul, integral_pow]
    norm_num
    ring
  refine ⟨hv, hc, ha, ?_⟩
  have hs : ∀ p ∈ conePieces L R, SmoothPiece p := by
    intro p hp
    simp only [conePieces, List.mem_cons, List.not_mem_nil, or_false] at hp
    rcases hp with rfl | rfl <;> exact line_piece _ _
  unfold bodyTransverse
  rw [slice_steiner _ hs hvp, ha, hc, key]
  have : ∀ t : ℝ, (L * t) ^ 2 * (Real.pi * (R * t) ^ 2) = L ^ 2 * Real.pi * R ^ 2 * t ^ 4 := fun t => by ring
  simp only [this, intervalIntegral.integral_const_mul, integral_pow]
  rw [hv]
  norm_num
  ring

/-- The hypotheses of `C163_composite` are met by the cone of length 3 and radius 1 with its base, and the library of the model: what is reported tends to the mass
`π ρ` and the centre `9/4`. -/
example (ρ ε : ℝ) (hε : 0 < ε) : ∃ N : ℕ, ∀ n ≥ N, ∃ h' M c',
    generatePatches (fun k => if k = 0 then { componenttype := "composite", gen := .composite [1, 2], stl_resolution := .int n }
      else if k = 1 then RevolvedComponent (Line ⟨0, 0, 0⟩ ⟨3, 1, 0⟩) else RevolvedComponent (Line ⟨3, 1, 0⟩ ⟨3, 0, 0⟩)) 0 = (.ok (), h') ∧
    (h' 0).mesh = (.ok M, c') ∧ ∀ q, numpyStlFull.massProps M ρ = .ok q → |q.mass - ρ * Real.pi| < ε ∧ |q.cog.x - 9 / 4| < ε := by
  obtain ⟨hv, hc, -, -⟩ := C163_cone 3 1 (by norm_num) (by norm_num)
  obtain ⟨N, hN⟩ := C163_composite numpyStlFull numpyStlFull_ok [Line ⟨0, 0, 0⟩ ⟨3, 1, 0⟩, Line ⟨3, 1, 0⟩ ⟨3, 0, 0⟩] (conePieces 3 1)
    (.cons (fun t _ _ => rfl) (.cons (fun t _ _ => rfl) .nil)) (by
      intro p hp
      simp only [conePieces, List.mem_cons, List.not_mem_nil, or_false] at hp
      rcases hp with rfl | rfl <;> exact line_piece _ _) (by
      simp [EndsMeet, conePieces, lineAt]
      ext <;> simp) (by rw [hv]; positivity) ρ ε hε
  refine ⟨N, fun n hn => ?_⟩
  obtain ⟨h', M, c', g1, g2, g3⟩ := hN n hn (fun k => if k = 0 then { componenttype := "composite", gen := .composite [1, 2], stl_resolution := .int n }
      else if k = 1 then RevolvedComponent (Line ⟨0, 0, 0⟩ ⟨3, 1, 0⟩) else RevolvedComponent (Line ⟨3, 1, 0⟩ ⟨3, 0, 0⟩)) 0 [1, 2] (by simp) (by simp) rfl
    (.cons ⟨rfl, rfl⟩ (.cons ⟨rfl, rfl⟩ .nil)) rfl rfl rfl rfl
  refine ⟨h', M, c', g1, g2, fun q hq => ?_⟩
  have := g3 q hq
  have h1 := this.mass
  have h2 := this.cog.1
  rw [hv] at h1
  rw [hc] at h2
  norm_num at h1 h2
  exact ⟨h1, h2⟩

/-- The hypotheses of `C163_revolved` are met by the spindle with profile `t (1 - t)`, which has volume `π / 30`. -/
example : let f : ℝ → V := fun t => ⟨t, t * (1 - t), 0⟩
    let f' : ℝ → V := fun t => ⟨1, 1 - 2 * t, 0⟩
    SmoothPiece (f, f') ∧ ((f 0).y = 0 ∧ (f 0).z = 0) ∧ ((f 1).y = 0 ∧ (f 1).z = 0) ∧ bodyVolume [(f, f')] ≠ 0 := by
  intro f f'
  have hd : ∀ t : ℝ, HasDerivAt (fun t => co (f t)) (co (f' t)) t := by
    intro t
    rw [hasDerivAt_pi]
    intro i
    fin_cases i
    · exact hasDerivAt_id t
    · exact ((hasDerivAt_id t).mul ((hasDerivAt_const t (1 : ℝ)).sub (hasDerivAt_id t))).congr_deriv (by simp [co, f']; ring)
    · exact hasDerivAt_const t _
  refine ⟨⟨fun t _ => (hd t).continuousAt.continuousWithinAt, ?_, fun t _ => hd t⟩, by simp [f], by simp [f], ?_⟩
  · rw [continuousOn_pi]
    intro i
    fin_cases i
    · exact continuousOn_const
    · show ContinuousOn (fun t : ℝ => 1 - 2 * t) _
      fun_prop
    · exact continuousOn_const
  · have e : ∀ t : ℝ, Real.pi * ((t * (1 - t)) ^ 2 + 0 ^ 2) * 1 = Real.pi * (t ^ 2 - 2 * t ^ 3 + t ^ 4) := fun t => by ring
    have i2 : IntervalIntegrable (fun t : ℝ => t ^ 2) MeasureTheory.volume 0 1 := (continuous_pow 2).intervalIntegrable 0 1
    have i3 : IntervalIntegrable (fun t : ℝ => t ^ 3) MeasureTheory.volume 0 1 := (continuous_pow 3).intervalIntegrable 0 1
    have i4 : IntervalIntegrable (fun t : ℝ => t ^ 4) MeasureTheory.volume 0 1 := (continuous_pow 4).intervalIntegrable 0 1
    have : bodyVolume [(f, f')] = Real.pi / 30 := by
      simp only [bodyVolume, sliceSum, List.map_cons, List.map_nil, List.sum_cons, List.sum_nil, f, f', e, intervalIntegral.integral_const_mul]
      rw [intervalIntegral.integral_add (i2.sub (i3.const_mul 2)) i4, intervalIntegral.integral_sub i2 (i3.const_mul 2), intervalIntegral.integral_const_mul,
        integral_pow, integral_pow, integral_pow]
      norm_num
      ring
    rw [this]
    positivity

end HV
