import Verif.Lemmas.SphereMap
import Verif.Props.Revolved
import Verif.Props.RevolvedVolume
import Mathlib.Analysis.Calculus.Deriv.Polynomial

/-! C153 for generated bodies: the surface areas of spheres and of bodies of revolution. -/

namespace HV
open Spec Filter Topology

/-! ## Spheres -/

def ofF (f : Fin 3 → ℝ) : V := ⟨f 0, f 1, f 2⟩

theorem co_ofF (f : Fin 3 → ℝ) : co (ofF f) = f := by
  funext k
  fin_cases k <;> rfl

/-- The face of the sphere that the signed permutation `σ`, `π` of the coordinates makes of the eastern one. -/
noncomputable def faceSheet (ρ : ℝ) (centre : V) (σ : Fin 3 → ℝ) (π : Equiv.Perm (Fin 3)) : Sheet where
  G r s := ofF fun k => ρ * σ k * qq (2 * r - 1) (2 * s - 1) (π k) + co centre k
  Gr r s := ofF fun k => 2 * (ρ * σ k) * qu (2 * r - 1) (2 * s - 1) (π k)
  Gs r s := ofF fun k => 2 * (ρ * σ k) * qv (2 * r - 1) (2 * s - 1) (π k)

theorem affine_mem {r : ℝ} (h : r ∈ Set.Icc (0 : ℝ) 1) : 2 * r - 1 ∈ Set.Icc (-1 : ℝ) 1 := ⟨by linarith [h.1], by linarith [h.2]⟩

theorem faceSheet_smooth (ρ : ℝ) (centre : V) (σ : Fin 3 → ℝ) (π : Equiv.Perm (Fin 3)) :
    SmoothOn (faceSheet ρ centre σ π).G (faceSheet ρ centre σ π).Gr (faceSheet ρ centre σ π).Gs := by
  have haff : Continuous fun q : ℝ × ℝ => (2 * q.1 - 1, 2 * q.2 - 1) := by fun_prop
  have hmaps : Set.MapsTo (fun q : ℝ × ℝ => (2 * q.1 - 1, 2 * q.2 - 1)) unitSq sq2 := fun q hq => ⟨affine_mem hq.1, affine_mem hq.2⟩
  have h1 := continuous_qq.comp haff
  have h2 := cont_qu.comp haff.continuousOn hmaps
  have h3 := cont_qv.comp haff.continuousOn hmaps
  simp only [Function.comp_def] at h1 h2 h3
  rw [continuous_pi_iff] at h1
  rw [continuousOn_pi] at h2 h3
  constructor
  · simp only [faceSheet, co_ofF]
    exact (continuous_pi fun k => ((h1 (π k)).const_mul _).add continuous_const).continuousOn
  · simp only [faceSheet, co_ofF]
    exact continuousOn_pi.2 fun k => (h2 (π k)).const_mul _
  · simp only [faceSheet, co_ofF]
    exact continuousOn_pi.2 fun k => (h3 (π k)).const_mul _
  · intro r hr s hs
    simp only [faceSheet, co_ofF]
    rw [hasDerivAt_pi]
    intro k
    have hu := affine_mem ⟨hr.1.le, hr.2.le⟩
    have ha : HasDerivAt (fun r : ℝ => 2 * r - 1) 2 r := by
      have := ((hasDerivAt_id r).const_mul 2).sub_const 1
      exact this.congr_deriv (by simp)
    have := (((qq_du hu (affine_mem hs) (π k)).comp r ha).const_mul (ρ * σ k)).add_const (co centre k)
    exact this.congr_deriv (by ring)
  · intro r hr s hs
    simp only [faceSheet, co_ofF]
    rw [hasDerivAt_pi]
    intro k
    have hv := affine_mem ⟨hs.1.le, hs.2.le⟩
    have ha : HasDerivAt (fun r : ℝ => 2 * r - 1) 2 s := by
      have := ((hasDerivAt_id s).const_mul 2).sub_const 1
      exact this.congr_deriv (by simp)
    have := (((qq_dv (affine_mem hr) hv (π k)).comp s ha).const_mul (ρ * σ k)).add_const (co centre k)
    exact this.congr_deriv (by ring)

theorem len_cross_sq (a b : Fin 3 → ℝ) : lenF (crossF a b) = √((∑ k, a k ^ 2) * (∑ k, b k ^ 2) - (∑ k, a k * b k) ^ 2) := by
  unfold lenF
  congr 1
  simp only [crossF, Fin.sum_univ_three, Matrix.cons_val_zero, Matrix.cons_val_one, Matrix.cons_val]
  ring

/-- Signed permutations of the coordinates do not change areas. -/
theorem len_cross_perm (c : ℝ) (σ : Fin 3 → ℝ) (hσ : ∀ k, σ k ^ 2 = 1) (π : Equiv.Perm (Fin 3)) (a b : Fin 3 → ℝ) :
    lenF (crossF (fun k => c * σ k * a (π k)) (fun k => c * σ k * b (π k))) = c ^ 2 * lenF (crossF a b) := by
  have e : ∀ f g : Fin 3 → ℝ, ∑ k, c * σ k * f (π k) * (c * σ k * g (π k)) = c ^ 2 * ∑ k, f k * g k := by
    intro f g
    rw [← Equiv.sum_comp π fun k => f k * g k, Finset.mul_sum]
    refine Finset.sum_congr rfl fun k _ => ?_
    linear_combination c ^ 2 * f (π k) * g (π k) * hσ k
  have e2 : ∀ f : Fin 3 → ℝ, ∑ k, (c * σ k * f (π k)) ^ 2 = c ^ 2 * ∑ k, f k ^ 2 := by
    intro f
    simp only [pow_two (_ * f _), pow_two (f _)]
    exact e f f
  rw [len_cross_sq, len_cross_sq, e2, e2, e, show c ^ 2 * (∑ k, a k ^ 2) * (c ^ 2 * ∑ k, b k ^ 2) - (c ^ 2 * ∑ k, a k * b k) ^ 2 =
    (c ^ 2) ^ 2 * ((∑ k, a k ^ 2) * (∑ k, b k ^ 2) - (∑ k, a k * b k) ^ 2) by ring, Real.sqrt_mul (by positivity), Real.sqrt_sq (by positivity)]

theorem faceSheet_area (ρ : ℝ) (centre : V) (σ : Fin 3 → ℝ) (hσ : ∀ k, σ k ^ 2 = 1) (π : Equiv.Perm (Fin 3)) :
    (faceSheet ρ centre σ π).area = ρ ^ 2 * (2 * Real.pi / 3) := by
  have h : ∀ r s, lenF ((faceSheet ρ centre σ π).normal r s) = (2 * ρ) ^ 2 * lenF (crossF (qu (2 * r - 1) (2 * s - 1)) (qv (2 * r - 1) (2 * s - 1))) := by
    intro r s
    rw [← len_cross_perm (2 * ρ) σ hσ π]
    simp only [Sheet.normal, faceSheet, co_ofF, mul_assoc]
  unfold Sheet.area
  simp only [h, intervalIntegral.integral_const_mul]
  have i1 : ∀ u, ∫ s in (0 : ℝ)..1, lenF (crossF (qu u (2 * s - 1)) (qv u (2 * s - 1))) = (1 / 2) * ∫ v in (-1 : ℝ)..1, lenF (crossF (qu u v) (qv u v)) := by
    intro u
    rw [intervalIntegral.integral_comp_mul_sub (fun v => lenF (crossF (qu u v) (qv u v))) (by norm_num : (2 : ℝ) ≠ 0)]
    norm_num
  simp only [i1, intervalIntegral.integral_const_mul]
  rw [intervalIntegral.integral_comp_mul_sub (fun u => ∫ v in (-1 : ℝ)..1, lenF (crossF (qu u v) (qv u v))) (by norm_num : (2 : ℝ) ≠ 0)]
  norm_num
  rw [face_area]
  ring

/-- The six faces of the sphere. -/
noncomputable def sphereSheets (ρ : ℝ) (centre : V) : List Sheet :=
  [faceSheet ρ centre ![1, 1, 1] (Equiv.refl _), faceSheet ρ centre ![-1, 1, 1] (Equiv.refl _),
    faceSheet ρ centre ![1, -1, 1] (Equiv.swap 0 1), faceSheet ρ centre ![1, 1, 1] (Equiv.swap 0 1),
    faceSheet ρ centre ![1, 1, -1] (finRotate 3), faceSheet ρ centre ![1, 1, 1] (finRotate 3)]

theorem sphereSheets_area (ρ : ℝ) (centre : V) : ((sphereSheets ρ centre).map Sheet.area).sum = 4 * Real.pi * ρ ^ 2 := by
  have e : ∀ a b c : ℝ, a ^ 2 = 1 → b ^ 2 = 1 → c ^ 2 = 1 → ∀ k : Fin 3, ![a, b, c] k ^ 2 = 1 := by
    intro a b c ha hb hc k
    fin_cases k <;> simp [ha, hb, hc]
  simp only [sphereSheets, List.map_cons, List.map_nil, List.sum_cons, List.sum_nil]
  rw [faceSheet_area _ _ _ (e _ _ _ (by norm_num) (by norm_num) (by norm_num)), faceSheet_area _ _ _ (e _ _ _ (by norm_num) (by norm_num) (by norm_num)),
    faceSheet_area _ _ _ (e _ _ _ (by norm_num) (by norm_num) (by norm_num)), faceSheet_area _ _ _ (e _ _ _ (by norm_num) (by norm_num) (by norm_num)),
    faceSheet_area _ _ _ (e _ _ _ (by norm_num) (by norm_num) (by norm_num)), faceSheet_area _ _ _ (e _ _ _ (by norm_num) (by norm_num) (by norm_num))]
  ring

theorem sphereG_sfac (y z : ℝ) : sphereG y z = √(sfac (y ^ 2) (z ^ 2)) := by
  unfold sphereG sfac
  congr 1
  ring

theorem sphereSheets_grid (ρ : ℝ) (centre : V) (n : ℕ) :
    (faceNames.map fun f i j => (fun p : V => (⟨p.x * sphereG p.y p.z * ρ + centre.x, p.y * sphereG p.x p.z * ρ + centre.y,
      p.z * sphereG p.x p.y * ρ + centre.z⟩ : V)) (facePt n f i j)) = (sphereSheets ρ centre).map fun S (i j : ℕ) => S.G ((i : ℝ) / n) ((j : ℝ) / n) := by
  have c1 : sfac 1 = fun t => sfac t 1 := by funext t; exact sfac_comm _ _
  simp only [faceNames, sphereSheets, List.map_cons, List.map_nil, facePt, if_true, String.reduceEq, if_false, List.cons.injEq, and_true]
  have s0 : (Equiv.swap (0 : Fin 3) 1) 0 = 1 := by decide
  have s1 : (Equiv.swap (0 : Fin 3) 1) 1 = 0 := by decide
  have s2 : (Equiv.swap (0 : Fin 3) 1) 2 = 2 := by decide
  have r0 : (finRotate 3) 0 = 1 := by decide
  have r1 : (finRotate 3) 1 = 2 := by decide
  have r2 : (finRotate 3) 2 = 0 := by decide
  refine ⟨?_, ?_, ?_, ?_, ?_, ?_⟩ <;>
  · funext i j
    simp only [faceSheet, ofF, s0, s1, s2, r0, r1, r2, Equiv.refl_apply, qq, qx, qb, co, sphereG_sfac, gridT, Matrix.cons_val_zero, Matrix.cons_val_one,
      Matrix.cons_val, Vec.mk.injEq, one_pow, even_two.neg_pow, c1]
    refine ⟨?_, ?_, ?_⟩ <;> ring

/-- C153 for spheres: as the resolution grows, the surface area of the mesh of a sphere tends to `4 π ρ²`. -/
theorem C153_sphere (ρ : ℝ) (centre : V) (ε : ℝ) (hε : 0 < ε) : ∃ N : ℕ, ∀ n ≥ N, ∀ (name : Option String) (h : Heap) (id : ℕ), h id = Sphere ρ centre n name →
    ∃ h' M c', generatePatches h id = (.ok (), h') ∧ (h' id).mesh = (.ok M, c') ∧ |surfaceArea M.tris - 4 * Real.pi * ρ ^ 2| < ε := by
  have hl := (sheets_limit (Ss := sphereSheets ρ centre) (by
    intro S hS
    simp only [sphereSheets, List.mem_cons, List.not_mem_nil, or_false] at hS
    rcases hS with rfl | rfl | rfl | rfl | rfl | rfl <;> exact faceSheet_smooth _ _ _ _)).1
  rw [sphereSheets_area, Metric.tendsto_atTop] at hl
  obtain ⟨N, hN⟩ := hl ε hε
  refine ⟨max N 1, fun n hn name h id hid => ?_⟩
  have hn1 : 1 ≤ n := le_trans (le_max_right _ _) hn
  obtain ⟨h', M, c', hg, hM, -, -, ht⟩ := faces_mesh h id (SpherePatch ρ centre)
    (fun p => ⟨p.x * sphereG p.y p.z * ρ + centre.x, p.y * sphereG p.x p.z * ρ + centre.y, p.z * sphereG p.x p.y * ρ + centre.z⟩) n hn1
    (fun f hf i hi j hj => SpherePatch_grid ρ centre n hn1 f hf i hi j hj)
    (by rw [hid]; rfl) (by rw [hid]; rfl) (by rw [hid]; rfl) (by rw [hid]; rfl) (by rw [hid]; rfl) (by rw [hid]; rfl)
  refine ⟨h', M, c', hg, hM, ?_⟩
  rw [ht, sphereSheets_grid, List.map_map, ← Real.dist_eq]
  exact hN n (le_trans (le_max_left _ _) hn)

/-! ## Bodies of revolution -/

/-- A quarter of the surface of revolution. -/
noncomputable def quarterSheet (f f' : ℝ → V) (k : ℕ) : Sheet where
  G r s := revolveRot ((k * Real.pi / 2) * (1 - s) + (((k : ℝ) + 1) * Real.pi / 2) * s) (f r)
  Gr r s := revolveRot ((k * Real.pi / 2) * (1 - s) + (((k : ℝ) + 1) * Real.pi / 2) * s) (f' r)
  Gs r s := let a := (k * Real.pi / 2) * (1 - s) + (((k : ℝ) + 1) * Real.pi / 2) * s
    ⟨0, (-(f r).y * Real.sin a + (f r).z * Real.cos a) * (Real.pi / 2), (-(f r).z * Real.sin a - (f r).y * Real.cos a) * (Real.pi / 2)⟩

theorem quarter_normal (f f' : ℝ → V) (k : ℕ) (r s : ℝ) : lenF ((quarterSheet f f' k).normal r s) =
    Real.pi / 2 * √(((f r).y * (f' r).y + (f r).z * (f' r).z) ^ 2 + (f' r).x ^ 2 * ((f r).y ^ 2 + (f r).z ^ 2)) := by
  have hp : (0 : ℝ) ≤ Real.pi / 2 := by positivity
  rw [show Real.pi / 2 * √(((f r).y * (f' r).y + (f r).z * (f' r).z) ^ 2 + (f' r).x ^ 2 * ((f r).y ^ 2 + (f r).z ^ 2)) =
    √((Real.pi / 2) ^ 2 * (((f r).y * (f' r).y + (f r).z * (f' r).z) ^ 2 + (f' r).x ^ 2 * ((f r).y ^ 2 + (f r).z ^ 2))) by
      rw [Real.sqrt_mul (by positivity), Real.sqrt_sq hp]]
  unfold lenF
  congr 1
  simp only [Sheet.normal, quarterSheet, crossF, co, revolveRot, Matrix.cons_val_zero, Matrix.cons_val_one, Matrix.cons_val]
  have h := Real.sin_sq_add_cos_sq ((k * Real.pi / 2) * (1 - s) + (((k : ℝ) + 1) * Real.pi / 2) * s)
  generalize Real.sin ((k * Real.pi / 2) * (1 - s) + (((k : ℝ) + 1) * Real.pi / 2) * s) = S at *
  generalize Real.cos ((k * Real.pi / 2) * (1 - s) + (((k : ℝ) + 1) * Real.pi / 2) * s) = C at *
  generalize (f r).y = y
  generalize (f r).z = z
  generalize (f' r).x = x'
  generalize (f' r).y = y'
  generalize (f' r).z = z'
  linear_combination (Real.pi / 2) ^ 2 * ((y * y' + z * z') ^ 2 * (S ^ 2 + C ^ 2 + 1) + x' ^ 2 * (y ^ 2 + z ^ 2)) * h

theorem quarter_area (f f' : ℝ → V) (k : ℕ) : (quarterSheet f f' k).area =
    Real.pi / 2 * ∫ t in (0 : ℝ)..1, √(((f t).y * (f' t).y + (f t).z * (f' t).z) ^ 2 + (f' t).x ^ 2 * ((f t).y ^ 2 + (f t).z ^ 2)) := by
  unfold Sheet.area
  simp only [quarter_normal, intervalIntegral.integral_const, sub_zero, one_smul, intervalIntegral.integral_const_mul]

theorem quarter_smooth (f f' : ℝ → V) (k : ℕ) (hf : ContinuousOn (fun t => co (f t)) (Set.Icc 0 1)) (hf' : ContinuousOn (fun t => co (f' t)) (Set.Icc 0 1))
    (hd : ∀ t ∈ Set.Ioo (0 : ℝ) 1, HasDerivAt (fun t => co (f t)) (co (f' t)) t) :
    SmoothOn (quarterSheet f f' k).G (quarterSheet f f' k).Gr (quarterSheet f f' k).Gs := by
  have lift : ∀ g : ℝ → V, ContinuousOn (fun t => co (g t)) (Set.Icc 0 1) → ∀ i, ContinuousOn (fun q : ℝ × ℝ => co (g q.1) i) unitSq := by
    intro g hg i
    exact ((continuousOn_pi.1 hg i).comp continuousOn_fst fun q hq => hq.1)
  have rot : ∀ g : ℝ → V, ContinuousOn (fun t => co (g t)) (Set.Icc 0 1) →
      ContinuousOn (fun q : ℝ × ℝ => co (revolveRot ((k * Real.pi / 2) * (1 - q.2) + (((k : ℝ) + 1) * Real.pi / 2) * q.2) (g q.1))) unitSq := by
    intro g hg
    have h0 := lift g hg 0
    have h1 := lift g hg 1
    have h2 := lift g hg 2
    refine continuousOn_pi.2 fun i => ?_
    fin_cases i
    · exact h0
    · exact (h1.mul (by fun_prop)).add (h2.mul (by fun_prop))
    · exact (h2.mul (by fun_prop)).sub (h1.mul (by fun_prop))
  constructor
  · exact rot f hf
  · exact rot f' hf'
  · have h1 := lift f hf 1
    have h2 := lift f hf 2
    refine continuousOn_pi.2 fun i => ?_
    fin_cases i
    · exact continuousOn_const
    · exact ((h1.neg.mul (by fun_prop)).add (h2.mul (by fun_prop))).mul continuousOn_const
    · exact ((h2.neg.mul (by fun_prop)).sub (h1.mul (by fun_prop))).mul continuousOn_const
  · intro r hr s hs
    have h := hasDerivAt_pi.1 (hd r hr)
    have h0 := h 0
    have h1 := h 1
    have h2 := h 2
    rw [hasDerivAt_pi]
    intro i
    fin_cases i
    · exact h0
    · exact (h1.mul_const _).add (h2.mul_const _)
    · exact (h2.mul_const _).sub (h1.mul_const _)
  · intro r hr s hs
    have ha : HasDerivAt (fun s : ℝ => (k * Real.pi / 2) * (1 - s) + (((k : ℝ) + 1) * Real.pi / 2) * s) (Real.pi / 2) s := by
      have := (((hasDerivAt_id s).const_sub 1).const_mul ((k : ℝ) * Real.pi / 2)).add ((hasDerivAt_id s).const_mul (((k : ℝ) + 1) * Real.pi / 2))
      exact this.congr_deriv (by ring)
    have hs' := (Real.hasDerivAt_sin _).comp s ha
    have hc' := (Real.hasDerivAt_cos _).comp s ha
    rw [hasDerivAt_pi]
    intro i
    fin_cases i
    · exact hasDerivAt_const s _
    · exact ((hc'.const_mul (f r).y).add (hs'.const_mul (f r).z)).congr_deriv (by simp [quarterSheet, co]; ring)
    · exact ((hc'.const_mul (f r).z).sub (hs'.const_mul (f r).y)).congr_deriv (by simp [quarterSheet, co]; ring)

/-- C153 for bodies of revolution: as the resolution grows, the surface area of the mesh tends to `2 π ∫ ρ √(x'² + ρ'²)`, where `ρ² = y² + z²`
and so `ρ ρ' = y y' + z z'`. -/
theorem C153_revolved (line : PathObj) (f f' : ℝ → V) (hl : ∀ t, 0 ≤ t → t ≤ 1 → line.call t = .ok (f t))
    (hf : ContinuousOn (fun t => co (f t)) (Set.Icc 0 1)) (hf' : ContinuousOn (fun t => co (f' t)) (Set.Icc 0 1))
    (hd : ∀ t ∈ Set.Ioo (0 : ℝ) 1, HasDerivAt (fun t => co (f t)) (co (f' t)) t) (ε : ℝ) (hε : 0 < ε) :
    ∃ N : ℕ, ∀ n ≥ N, ∀ (name : Option String) (h : Heap) (id : ℕ), h id = RevolvedComponent line n name →
      ∃ h' M c', generatePatches h id = (.ok (), h') ∧ (h' id).mesh = (.ok M, c') ∧
        |surfaceArea M.tris - 2 * Real.pi * ∫ t in (0 : ℝ)..1,
          √((f' t).x ^ 2 * ((f t).y ^ 2 + (f t).z ^ 2) + ((f t).y * (f' t).y + (f t).z * (f' t).z) ^ 2)| < ε := by
  have hl' := (sheets_limit (Ss := (List.range 4).map (quarterSheet f f')) (by
    intro S hS
    simp only [List.mem_map] at hS
    obtain ⟨k, -, rfl⟩ := hS
    exact quarter_smooth f f' k hf hf' hd)).1
  have ea : (((List.range 4).map (quarterSheet f f')).map Sheet.area).sum = 2 * Real.pi * ∫ t in (0 : ℝ)..1,
      √((f' t).x ^ 2 * ((f t).y ^ 2 + (f t).z ^ 2) + ((f t).y * (f' t).y + (f t).z * (f' t).z) ^ 2) := by
    simp only [show List.range 4 = [0, 1, 2, 3] from rfl, List.map_cons, List.map_nil, List.sum_cons, List.sum_nil, quarter_area]
    simp only [add_comm ((f' _).x ^ 2 * _)]
    ring
  rw [ea, Metric.tendsto_atTop] at hl'
  obtain ⟨N, hN⟩ := hl' ε hε
  refine ⟨max N 1, fun n hn name h id hid => ?_⟩
  obtain ⟨h', M, c', hg, hM, ht⟩ := revolved_mesh line f hl n (le_trans (le_max_right _ _) hn) name h id hid
  refine ⟨h', M, c', hg, hM, ?_⟩
  rw [ht, ← Real.dist_eq]
  have := hN n (le_trans (le_max_left _ _) hn)
  simp only [List.map_map] at this ⊢
  exact this

/-- The hypotheses of `C153_revolved` are met by the straight line from the tip of a cone of height 4 to its rim of radius 3: the areas of the meshes of its mantle tend
to `15 π`. -/
example (ε : ℝ) (hε : 0 < ε) : ∃ N : ℕ, ∀ n ≥ N, ∀ (name : Option String) (h : Heap) (id : ℕ), h id = RevolvedComponent (Line ⟨0, 0, 0⟩ ⟨4, 3, 0⟩) n name →
    ∃ h' M c', generatePatches h id = (.ok (), h') ∧ (h' id).mesh = (.ok M, c') ∧ |surfaceArea M.tris - 15 * Real.pi| < ε := by
  have hI : ∫ t in (0 : ℝ)..1, √((4 : ℝ) ^ 2 * ((3 * t) ^ 2 + 0 ^ 2) + ((3 * t) * 3 + 0 * 0) ^ 2) = 15 / 2 := by
    have : ∀ t ∈ Set.uIcc (0 : ℝ) 1, √((4 : ℝ) ^ 2 * ((3 * t) ^ 2 + 0 ^ 2) + ((3 * t) * 3 + 0 * 0) ^ 2) = 15 * t := by
      intro t ht
      rw [Set.uIcc_of_le zero_le_one] at ht
      rw [show (4 : ℝ) ^ 2 * ((3 * t) ^ 2 + 0 ^ 2) + ((3 * t) * 3 + 0 * 0) ^ 2 = (15 * t) ^ 2 by ring, Real.sqrt_sq (by linarith [ht.1])]
    rw [intervalIntegral.integral_congr this, intervalIntegral.integral_const_mul, integral_id]
    norm_num
  have hd : ∀ t : ℝ, HasDerivAt (fun t => co ⟨4 * t, 3 * t, 0⟩) (co ⟨4, 3, 0⟩) t := by
    intro t
    rw [hasDerivAt_pi]
    intro i
    fin_cases i
    · exact ((hasDerivAt_id t).const_mul 4).congr_deriv (by simp [co])
    · exact ((hasDerivAt_id t).const_mul 3).congr_deriv (by simp [co])
    · exact hasDerivAt_const t _
  have := C153_revolved (Line ⟨0, 0, 0⟩ ⟨4, 3, 0⟩) (fun t => ⟨4 * t, 3 * t, 0⟩) (fun _ => ⟨4, 3, 0⟩) (fun t _ _ => by
      show Except.ok _ = _
      congr 1
      ext <;> simp [lineAt] <;> ring)
    (fun t _ => (hd t).continuousAt.continuousWithinAt) continuousOn_const (fun t _ => hd t) ε hε
  simp only [hI] at this
  rw [show 2 * Real.pi * (15 / 2) = 15 * Real.pi by ring] at this
  exact this

/-! ## Bezier curves -/

/-- Points that depend on `t` as polynomials do. -/
def PolyFam (R : ℝ → ℕ → V) : Prop := ∀ i k, ∃ P : Polynomial ℝ, ∀ t, co (R t i) k = P.eval t

theorem polyFam_inner (m : ℕ) {R : ℝ → ℕ → V} (h : PolyFam R) : PolyFam fun t => Bezier.inner t m (R t) := by
  unfold Bezier.inner
  generalize List.range m = l
  induction l generalizing R with
  | nil => exact h
  | cons j l ih =>
    simp only [List.foldl_cons]
    refine ih (R := fun t => Function.update (R t) j (R t j * (1 - t) + R t (j + 1) * t)) fun i k => ?_
    by_cases hi : i = j
    · subst hi
      obtain ⟨P, hP⟩ := h i k
      obtain ⟨Q, hQ⟩ := h (i + 1) k
      refine ⟨P * (1 - Polynomial.X) + Q * Polynomial.X, fun t => ?_⟩
      simp only [Function.update_self, Polynomial.eval_add, Polynomial.eval_mul, Polynomial.eval_sub, Polynomial.eval_one, Polynomial.eval_X, ← hP, ← hQ]
      fin_cases k <;> rfl
    · simp only [Function.update_of_ne hi]
      exact h i k

theorem polyFam_work (n : ℕ) {R : ℝ → ℕ → V} (h : PolyFam R) : PolyFam fun t => Bezier.work t n (R t) := by
  unfold Bezier.work
  generalize List.range n = l
  induction l generalizing R with
  | nil => exact h
  | cons j l ih =>
    simp only [List.foldl_cons]
    exact ih (R := fun t => Bezier.inner t (n - j) (R t)) (polyFam_inner _ h)

/-- Bezier curves have continuous derivatives: `C153_coons` and `C153_revolved` apply to them. -/
theorem C153_bezier (B : List V) (hB : B ≠ []) : ∃ f f', SmoothCurve (Bezier B) f f' := by
  have key : ∃ f : ℝ → V, (∀ t, (Bezier B).call t = .ok (f t)) ∧ ∀ k, ∃ P : Polynomial ℝ, ∀ t, co (f t) k = P.eval t := by
    match B with
    | [b] => exact ⟨fun _ => b, fun _ => rfl, fun k => ⟨Polynomial.C (co b k), fun t => by simp⟩⟩
    | b :: c :: B =>
      refine ⟨_, fun t => rfl, fun k => ?_⟩
      exact polyFam_work _ (R := fun _ i => (b :: c :: B).getD i ⟨0, 0, 0⟩) (fun i k => ⟨Polynomial.C (co ((b :: c :: B).getD i ⟨0, 0, 0⟩) k), fun t => by simp⟩) 0 k
  obtain ⟨f, h1, h2⟩ := key
  choose P hP using h2
  have hd : ∀ t, HasDerivAt (fun t => co (f t)) (co (ofF fun k => (P k).derivative.eval t)) t := by
    intro t
    rw [hasDerivAt_pi]
    intro k
    simp only [hP, co_ofF]
    exact (P k).hasDerivAt t
  refine ⟨f, fun t => ofF fun k => (P k).derivative.eval t, fun t _ => h1 t, fun t _ => (hd t).continuousAt.continuousWithinAt, ?_, fun t _ => hd t⟩
  simp only [co_ofF]
  exact (continuous_pi fun k => continuous_iff_continuousAt.2 fun t => ((P k).derivative.hasDerivAt t).continuousAt).continuousOn

end HV
