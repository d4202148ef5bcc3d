import Verif.Props.PhysicalFinner
import Verif.Props.InertiaExact
import Verif.Props.AreaError

/-!
# C162 and C164 for the Finner

Surface and mass properties of the fuselage of the generated Finner, a cone of length `N` and a cylinder behind it.
-/

namespace HV

open Spec Veh

/-- The lines of the fuselage. -/
noncomputable def finnerSegs (p : Finner.Params) : List (V × V) :=
  [(⟨0, 0, 0⟩, ⟨p.nose_length, p.diameter / 2, 0⟩), (⟨p.nose_length, p.diameter / 2, 0⟩, ⟨p.total_length, p.diameter / 2, 0⟩),
    (⟨p.total_length, p.diameter / 2, 0⟩, ⟨p.total_length, 0, 0⟩)]

theorem finnerSegs_lines (p : Finner.Params) : (finnerSegs p).map (fun s => lineAt s.1 s.2) = finnerLines p := rfl

namespace Spec

/-- The area of a cone of length `N` on a cylinder of radius `r`, that ends at `L` with a disc. -/
noncomputable def ConeCylinder.area (r N L : ℝ) : ℝ := Real.pi * r * √(N ^ 2 + r ^ 2) + 2 * Real.pi * r * (L - N) + Real.pi * r ^ 2

/-- Its volume. -/
noncomputable def ConeCylinder.volume (r N L : ℝ) : ℝ := Real.pi * r ^ 2 * N / 3 + Real.pi * r ^ 2 * (L - N)

/-- Its centre of gravity: the cone has it at three quarters of its length, the cylinder in its middle. -/
noncomputable def ConeCylinder.centre (r N L : ℝ) : ℝ :=
  (Real.pi * r ^ 2 * N / 3 * (3 / 4 * N) + Real.pi * r ^ 2 * (L - N) * ((N + L) / 2)) / ConeCylinder.volume r N L

/-- Its moment of inertia about the axis for unit density, `3/10 m r²` for the cone and `m r² / 2` for the cylinder. -/
noncomputable def ConeCylinder.axial (r N L : ℝ) : ℝ :=
  3 / 10 * (Real.pi * r ^ 2 * N / 3) * r ^ 2 + Real.pi * r ^ 2 * (L - N) * r ^ 2 / 2

/-- The integral of the squared distance to the cross section through the centre of gravity: by Steiner's theorem `3/80 m N²` for the cone
and `m (L - N)² / 12` for the cylinder, moved to the common centre. -/
noncomputable def ConeCylinder.along (r N L : ℝ) : ℝ :=
  Real.pi * r ^ 2 * N / 3 * (3 / 80 * N ^ 2 + (3 / 4 * N - ConeCylinder.centre r N L) ^ 2) +
    Real.pi * r ^ 2 * (L - N) * ((L - N) ^ 2 / 12 + ((N + L) / 2 - ConeCylinder.centre r N L) ^ 2)

end Spec

theorem finner_slices (p : Finner.Params) (g : ℝ → ℝ → ℝ) : sliceSum (linePieces (finnerSegs p)) g =
    (∫ t in (0 : ℝ)..1, g (p.nose_length * t) ((p.diameter / 2 * t) ^ 2) * p.nose_length) +
      ∫ t in (0 : ℝ)..1, g (p.nose_length * (1 - t) + p.total_length * t) ((p.diameter / 2) ^ 2) * (p.total_length - p.nose_length) := by
  simp only [sliceSum, linePieces, finnerSegs, List.map_cons, List.map_nil, List.sum_cons, List.sum_nil, lineAt]
  have e3 : ∀ t : ℝ, g ((⟨p.total_length, p.diameter / 2, 0⟩ : V) * (1 - t) + (⟨p.total_length, 0, 0⟩ : V) * t).x
      (((⟨p.total_length, p.diameter / 2, 0⟩ : V) * (1 - t) + (⟨p.total_length, 0, 0⟩ : V) * t).y ^ 2 +
        ((⟨p.total_length, p.diameter / 2, 0⟩ : V) * (1 - t) + (⟨p.total_length, 0, 0⟩ : V) * t).z ^ 2) *
      ((⟨p.total_length, 0, 0⟩ : V) - ⟨p.total_length, p.diameter / 2, 0⟩).x = 0 := fun t => by simp
  simp only [e3, intervalIntegral.integral_zero, add_zero]
  congr 1
  · refine intervalIntegral.integral_congr fun t _ => ?_
    simp
  · refine intervalIntegral.integral_congr fun t _ => ?_
    have : p.diameter / 2 * (1 - t) + p.diameter / 2 * t = p.diameter / 2 := by ring
    simp [this]

/-- Integrals of polynomials of degree 4. -/
theorem integral_quartic (a b c d e : ℝ) : ∫ t in (0 : ℝ)..1, (a + b * t + c * t ^ 2 + d * t ^ 3 + e * t ^ 4) = a + b / 2 + c / 3 + d / 4 + e / 5 := by
  have h : ∀ t : ℝ, HasDerivAt (fun t => a * t + b / 2 * t ^ 2 + c / 3 * t ^ 3 + d / 4 * t ^ 4 + e / 5 * t ^ 5)
      (a + b * t + c * t ^ 2 + d * t ^ 3 + e * t ^ 4) t := by
    intro t
    have h1 := (hasDerivAt_id t).const_mul a
    have h2 := (hasDerivAt_pow 2 t).const_mul (b / 2)
    have h3 := (hasDerivAt_pow 3 t).const_mul (c / 3)
    have h4 := (hasDerivAt_pow 4 t).const_mul (d / 4)
    have h5 := (hasDerivAt_pow 5 t).const_mul (e / 5)
    refine HasDerivAt.congr_deriv ((((h1.add h2).add h3).add h4).add h5) ?_
    push_cast
    ring
  rw [intervalIntegral.integral_eq_sub_of_hasDerivAt (fun t _ => h t) (by apply Continuous.intervalIntegrable; fun_prop)]
  ring

theorem finner_volume (p : Finner.Params) :
    bodyVolume (linePieces (finnerSegs p)) = ConeCylinder.volume (p.diameter / 2) p.nose_length p.total_length := by
  unfold bodyVolume
  rw [finner_slices]
  set N := p.nose_length
  set L := p.total_length
  set r := p.diameter / 2
  have e1 : ∀ t : ℝ, Real.pi * (r * t) ^ 2 * N = 0 + 0 * t + Real.pi * r ^ 2 * N * t ^ 2 + 0 * t ^ 3 + 0 * t ^ 4 := fun t => by ring
  have e2 : ∀ t : ℝ, Real.pi * r ^ 2 * (L - N) = Real.pi * r ^ 2 * (L - N) + 0 * t + 0 * t ^ 2 + 0 * t ^ 3 + 0 * t ^ 4 := fun t => by ring
  rw [intervalIntegral.integral_congr fun t _ => e1 t, intervalIntegral.integral_congr fun t _ => e2 t, integral_quartic, integral_quartic]
  unfold ConeCylinder.volume
  ring

theorem finner_centre (p : Finner.Params) :
    bodyCentre (linePieces (finnerSegs p)) = ConeCylinder.centre (p.diameter / 2) p.nose_length p.total_length := by
  unfold bodyCentre ConeCylinder.centre
  rw [finner_volume, finner_slices]
  set N := p.nose_length
  set L := p.total_length
  set r := p.diameter / 2
  congr 1
  have e1 : ∀ t : ℝ, N * t * (Real.pi * (r * t) ^ 2) * N = 0 + 0 * t + 0 * t ^ 2 + Real.pi * r ^ 2 * N ^ 2 * t ^ 3 + 0 * t ^ 4 := fun t => by ring
  have e2 : ∀ t : ℝ, (N * (1 - t) + L * t) * (Real.pi * r ^ 2) * (L - N) = N * (Real.pi * r ^ 2) * (L - N) + (L - N) ^ 2 * (Real.pi * r ^ 2) * t + 0 * t ^ 2 +
    0 * t ^ 3 + 0 * t ^ 4 := fun t => by ring
  rw [intervalIntegral.integral_congr fun t _ => e1 t, intervalIntegral.integral_congr fun t _ => e2 t, integral_quartic, integral_quartic]
  ring

theorem finner_axial (p : Finner.Params) :
    bodyAxial (linePieces (finnerSegs p)) = ConeCylinder.axial (p.diameter / 2) p.nose_length p.total_length := by
  unfold bodyAxial ConeCylinder.axial
  rw [finner_slices]
  set N := p.nose_length
  set L := p.total_length
  set r := p.diameter / 2
  have e1 : ∀ t : ℝ, Real.pi * ((r * t) ^ 2) ^ 2 / 2 * N = 0 + 0 * t + 0 * t ^ 2 + 0 * t ^ 3 + Real.pi * r ^ 4 / 2 * N * t ^ 4 := fun t => by ring
  have e2 : ∀ t : ℝ, Real.pi * (r ^ 2) ^ 2 / 2 * (L - N) = Real.pi * (r ^ 2) ^ 2 / 2 * (L - N) + 0 * t + 0 * t ^ 2 + 0 * t ^ 3 + 0 * t ^ 4 := fun t => by ring
  rw [intervalIntegral.integral_congr fun t _ => e1 t, intervalIntegral.integral_congr fun t _ => e2 t, integral_quartic, integral_quartic]
  ring

theorem finner_along (p : Finner.Params) :
    (sliceSum (linePieces (finnerSegs p)) fun x w => (x - bodyCentre (linePieces (finnerSegs p))) ^ 2 * (Real.pi * w)) =
      ConeCylinder.along (p.diameter / 2) p.nose_length p.total_length := by
  unfold ConeCylinder.along
  rw [finner_slices, finner_centre]
  set N := p.nose_length
  set L := p.total_length
  set r := p.diameter / 2
  generalize ConeCylinder.centre r N L = c
  have e1 : ∀ t : ℝ, (N * t - c) ^ 2 * (Real.pi * (r * t) ^ 2) * N = 0 + 0 * t + c ^ 2 * Real.pi * r ^ 2 * N * t ^ 2 +
    (-2 * N * c * Real.pi * r ^ 2 * N) * t ^ 3 + N ^ 2 * Real.pi * r ^ 2 * N * t ^ 4 := fun t => by ring
  have e2 : ∀ t : ℝ, (N * (1 - t) + L * t - c) ^ 2 * (Real.pi * r ^ 2) * (L - N) = (N - c) ^ 2 * (Real.pi * r ^ 2) * (L - N) +
    2 * (N - c) * (L - N) * (Real.pi * r ^ 2) * (L - N) * t + (L - N) ^ 2 * (Real.pi * r ^ 2) * (L - N) * t ^ 2 + 0 * t ^ 3 + 0 * t ^ 4 := fun t => by ring
  rw [intervalIntegral.integral_congr fun t _ => e1 t, intervalIntegral.integral_congr fun t _ => e2 t, integral_quartic, integral_quartic]
  ring

theorem finner_plane (p : Finner.Params) : ∀ s ∈ finnerSegs p, s.1.z = 0 ∧ s.2.z = 0 := by
  simp [finnerSegs]

/-- C162 for the fuselage of the Finner with all its dimensions: at every resolution `n` its area is at most that of cone, cylinder and base,
and lacks at most the fraction `π² / (24 n²)` of it (one percent at the resolution it has); finer meshes have no smaller area. -/
theorem C162_finner (h : Heap) (ids : ℕ → ℕ) (hi : Function.Injective ids) (kwargs : Dict String ℝ) (p : Finner.Params)
    (ha : FinnerArgs kwargs p) (hd : 0 < p.diameter) (hl : p.nose_length ≤ p.total_length) (lib : Lib) (depth : ℕ) :
    ∃ st, Finner.instanceOf h ids kwargs = .ok st ∧ withResolution st (ids 0) 8 = st ∧
    ∃ v : ℕ → ℝ, (∀ n : ℕ, 1 ≤ n → ∃ st' M c, generate lib depth (withResolution st (ids 0) n) = (.ok (), st') ∧
        (st'.heap (ids 0)).mesh = (.ok M, c) ∧ surfaceArea M.tris = v n) ∧
      (∀ n : ℕ, 1 ≤ n → v n ≤ ConeCylinder.area (p.diameter / 2) p.nose_length p.total_length ∧
        ConeCylinder.area (p.diameter / 2) p.nose_length p.total_length * (1 - Real.pi ^ 2 / (24 * n ^ 2)) ≤ v n) ∧
      (∀ n m : ℕ, 1 ≤ n → n ≤ m → v n ≤ v m) ∧ ConeCylinder.area (p.diameter / 2) p.nose_length p.total_length * 0.99 ≤ v 8 := by
  have hp := Real.pi_pos
  have hy : ∀ s ∈ finnerSegs p, 0 ≤ s.1.y ∧ 0 ≤ s.2.y := by
    have := (half_pos hd).le
    simp [finnerSegs, this]
  have hA : frustaArea (finnerSegs p) = ConeCylinder.area (p.diameter / 2) p.nose_length p.total_length := by
    have e1 : √((p.total_length - p.nose_length) ^ 2) = p.total_length - p.nose_length := Real.sqrt_sq (by linarith)
    have e2 : √((p.diameter / 2) ^ 2) = p.diameter / 2 := Real.sqrt_sq (by linarith)
    simp only [frustaArea, finnerSegs, List.map_cons, List.map_nil, List.sum_cons, List.sum_nil, sub_self, zero_sub, neg_sq, ne_eq,
      OfNat.ofNat_ne_zero, not_false_eq_true, zero_pow, add_zero, zero_add, e1, e2, sub_zero, ConeCylinder.area]
    ring
  obtain ⟨st, s1, -, -, -, s2, _, _, _, _, -, -, -, s3⟩ := C103_finner h ids hi kwargs p ha
  have hb : ∀ n : ℕ, 1 ≤ n → pyramidArea (4 * n) (finnerSegs p) ≤ ConeCylinder.area (p.diameter / 2) p.nose_length p.total_length ∧
      ConeCylinder.area (p.diameter / 2) p.nose_length p.total_length * (1 - Real.pi ^ 2 / (24 * n ^ 2)) ≤ pyramidArea (4 * n) (finnerSegs p) := by
    intro n hn
    rw [← hA]
    exact pyramids_fraction n hn _ hy
  refine ⟨st, s1, s2, fun n => pyramidArea (4 * n) (finnerSegs p), fun n hn => ?_, hb, fun n m hn hnm => pyramids_mono n m hn hnm _ hy, ?_⟩
  · obtain ⟨st', t1, ⟨M, c, t2, -⟩, -⟩ := s3 n hn lib depth
    refine ⟨st', M, c, t1, t2, ?_⟩
    rw [finner_fuselage_grids h ids hi kwargs p ha st st' s1 n hn lib depth t1 M c t2, ← finnerSegs_lines]
    exact stack_area n hn _ (finner_plane p) hy
  · refine le_trans ?_ (hb 8 (by norm_num)).2
    have h0 : 0 ≤ ConeCylinder.area (p.diameter / 2) p.nose_length p.total_length := by
      unfold ConeCylinder.area
      have : 0 ≤ p.total_length - p.nose_length := by linarith
      positivity
    refine mul_le_mul_of_nonneg_left ?_ h0
    have h3 : Real.pi < 3.15 := Real.pi_lt_d2
    push_cast
    nlinarith

/-- C164 for the fuselage of the Finner with all its dimensions: at every resolution `n` the centre of gravity reported is exactly that of
the body, and volume, mass and moments of inertia are exactly those of the body but for the ratios of polygon and disc. -/
theorem C164_finner (h : Heap) (ids : ℕ → ℕ) (hi : Function.Injective ids) (kwargs : Dict String ℝ) (p : Finner.Params)
    (ha : FinnerArgs kwargs p) (hd : p.diameter ≠ 0) (hN : 0 < p.nose_length) (hL : p.nose_length ≤ p.total_length) (lib : Lib)
    (hl : NumpyStlInertia lib) (depth : ℕ) (n : ℕ) (hn : 1 ≤ n) :
    ∃ st st' M c, Finner.instanceOf h ids kwargs = .ok st ∧ st.veh.named.get? "fuselage" = some (ids 0) ∧
      generate lib depth (withResolution st (ids 0) n) = (.ok (), st') ∧ (st'.heap (ids 0)).mesh = (.ok M, c) ∧
      ∀ ρ q, lib.massProps M ρ = .ok q →
        let r := p.diameter / 2
        let κ := polyArea n / Real.pi
        let κ' := κ * polarRatio (2 * Real.pi / (4 * n : ℕ))
        q.volume = κ * ConeCylinder.volume r p.nose_length p.total_length ∧
        q.mass = ρ * (κ * ConeCylinder.volume r p.nose_length p.total_length) ∧
        q.cog = ⟨ConeCylinder.centre r p.nose_length p.total_length, 0, 0⟩ ∧
        q.moi 0 0 = ρ * (κ' * ConeCylinder.axial r p.nose_length p.total_length) ∧
        q.moi 1 1 = ρ * (κ' * (ConeCylinder.axial r p.nose_length p.total_length / 2) + κ * ConeCylinder.along r p.nose_length p.total_length) ∧
        q.moi 2 2 = q.moi 1 1 ∧ ∀ i j, i ≠ j → q.moi i j = 0 := by
  have hp := Real.pi_pos
  obtain ⟨st, s1, -, s2, s3, s4, fin, h0, M0, c0, f1, f2, f3, f4⟩ := C103_finner h ids hi kwargs p ha
  obtain ⟨st', g1, ⟨M, c, g2, g3, -⟩, -⟩ := f4 n hn lib depth
  have hF := finner_fuselage_grids h ids hi kwargs p ha st st' s1 n hn lib depth g1 M c g2
  refine ⟨st, st', M, c, s1, by rw [s3]; simp [Dict.get?], g1, g2, fun ρ q hq => ?_⟩
  have hz : ∀ f ∈ finnerLines p, ∀ t, 0 ≤ t → t ≤ 1 → (f t).z = 0 := by
    intro f hf t _ _
    simp only [finnerLines, List.mem_cons, List.not_mem_nil, or_false] at hf
    rcases hf with rfl | rfl | rfl <;> simp [lineAt]
  have sl := slice_straight (finnerSegs p) n hn
  rw [finnerSegs_lines] at sl
  have v : bodyVolume (chordPieces (finnerLines p) n) = bodyVolume (linePieces (finnerSegs p)) := sl _ (by fun_prop)
  have m : bodyCentre (chordPieces (finnerLines p) n) = bodyCentre (linePieces (finnerSegs p)) := by
    unfold bodyCentre
    rw [v, sl _ (by fun_prop)]
  have ax : bodyAxial (chordPieces (finnerLines p) n) = bodyAxial (linePieces (finnerSegs p)) := sl _ (by fun_prop)
  have hv : ConeCylinder.volume (p.diameter / 2) p.nose_length p.total_length ≠ 0 := by
    unfold ConeCylinder.volume
    have h1 : 0 < (p.diameter / 2) ^ 2 := by positivity
    have h2 : 0 ≤ p.total_length - p.nose_length := by linarith
    have : 0 < Real.pi * (p.diameter / 2) ^ 2 * p.nose_length / 3 := by positivity
    have := mul_nonneg (mul_pos hp h1).le h2
    intro e
    linarith
  obtain ⟨p1, p2, p3, p4, p5, p6⟩ := body_exact lib hl (finnerLines p) hz (finner_meet p) n hn (by rw [v, finner_volume]; exact hv) ρ M hF q hq
  rw [v, finner_volume] at p1 p2
  rw [m] at p3 p5
  rw [ax, finner_axial] at p4 p5
  rw [sl _ (by fun_prop), finner_along] at p5
  rw [finner_centre] at p3
  exact ⟨p1, p2, p3, p4, p5.1, p5.2, p6⟩

/-- The default dimensions meet the hypotheses of `C162_finner` and `C164_finner`. -/
example : ∃ p : Finner.Params, FinnerArgs [] p ∧ 0 < p.diameter ∧ 0 < p.nose_length ∧ p.nose_length ≤ p.total_length :=
  ⟨⟨1, 10, 2.84, 1, 1, 0.08⟩, ⟨by decide, .inr ⟨by simp, rfl⟩, .inr ⟨by simp, rfl⟩, .inr ⟨by simp, rfl⟩, .inr ⟨by simp, rfl⟩,
    .inr ⟨by simp, rfl⟩, .inr ⟨by simp, rfl⟩⟩, by norm_num, by norm_num, by norm_num⟩

end HV
