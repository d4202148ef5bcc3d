import Verif.Props.Physical
import Verif.Props.InertiaExact

/-!
# Possible mass properties: bodies of revolution

The meshes of bodies of revolution need not be star-shaped: at low resolution single triangles of the ends are turned over.  The exact values of
C164 show that their mass properties are possible all the same.
-/

namespace HV

open Spec

/-! ## Sums over slices -/

/-- The piece of a chord. -/
noncomputable def chordPiece (s : V × V) : (ℝ → V) × (ℝ → V) := (lineAt s.1 s.2, fun _ => s.2 - s.1)

theorem chordPieces_eq (fs : List (ℝ → V)) (n : ℕ) : chordPieces fs n = (fs.flatMap fun f => chords f n).map chordPiece := by
  unfold chordPieces
  rw [List.map_flatMap]
  rfl

theorem slice_pos (σ : ℝ) (cs : List (V × V)) (hx : ∀ s ∈ cs, 0 ≤ σ * (s.2.x - s.1.x)) (g : ℝ → ℝ → ℝ) (hg : Continuous fun z : ℝ × ℝ => g z.1 z.2)
    (h0 : ∀ s ∈ cs, ∀ t ∈ Set.Icc (0 : ℝ) 1, 0 ≤ g (lineAt s.1 s.2 t).x ((lineAt s.1 s.2 t).y ^ 2 + (lineAt s.1 s.2 t).z ^ 2))
    (s : V × V) (hs : s ∈ cs) (hsx : 0 < σ * (s.2.x - s.1.x)) (t : ℝ) (ht : t ∈ Set.Icc (0 : ℝ) 1)
    (hgt : 0 < g (lineAt s.1 s.2 t).x ((lineAt s.1 s.2 t).y ^ 2 + (lineAt s.1 s.2 t).z ^ 2)) : 0 < σ * sliceSum (cs.map chordPiece) g := by
  have cont : ∀ s : V × V, Continuous fun t => g (lineAt s.1 s.2 t).x ((lineAt s.1 s.2 t).y ^ 2 + (lineAt s.1 s.2 t).z ^ 2) * (σ * (s.2.x - s.1.x)) := by
    intro s
    refine Continuous.mul ?_ continuous_const
    refine hg.comp (Continuous.prodMk ?_ ?_)
    · simp only [lineAt, Vec.add_x, Vec.mul_x]; fun_prop
    · simp only [lineAt, Vec.add_y, Vec.mul_y, Vec.add_z, Vec.mul_z]; fun_prop
  have e : σ * sliceSum (cs.map chordPiece) g =
      (cs.map fun s => ∫ t in (0 : ℝ)..1, g (lineAt s.1 s.2 t).x ((lineAt s.1 s.2 t).y ^ 2 + (lineAt s.1 s.2 t).z ^ 2) * (σ * (s.2.x - s.1.x))).sum := by
    unfold sliceSum
    rw [← List.sum_map_mul_left, List.map_map]
    congr 1
    refine List.map_congr_left fun s _ => ?_
    simp only [Function.comp, chordPiece]
    rw [← intervalIntegral.integral_const_mul]
    congr 1
    funext t
    simp only [Vec.sub_x]
    ring
  rw [e]
  refine sum_pos_of cs _ (fun s hs => ?_) s hs ?_
  · exact intervalIntegral.integral_nonneg zero_le_one fun t ht => mul_nonneg (h0 s hs t ht) (hx s hs)
  · exact intervalIntegral.integral_pos zero_lt_one (cont s).continuousOn (fun t ht => mul_nonneg (h0 s hs t ⟨ht.1.le, ht.2⟩) hsx.le)
      ⟨t, ht, mul_pos hgt hsx⟩

/-- A chord that is not across the axis and not along the axis has a point away from the axis that is not at `c`. -/
theorem chord_point (s : V × V) (hx : s.1.x ≠ s.2.x) (hy : s.1.y ≠ 0 ∨ s.2.y ≠ 0) (c : ℝ) :
    ∃ t ∈ Set.Icc (0 : ℝ) 1, (lineAt s.1 s.2 t).x ≠ c ∧ 0 < (lineAt s.1 s.2 t).y ^ 2 + (lineAt s.1 s.2 t).z ^ 2 := by
  by_contra hno
  push Not at hno
  have key : ∀ t ∈ Set.Icc (0 : ℝ) 1, s.1.x * (1 - t) + s.2.x * t = c ∨ s.1.y * (1 - t) + s.2.y * t = 0 := by
    intro t ht
    by_cases h : (lineAt s.1 s.2 t).x = c
    · left
      simpa [lineAt] using h
    · right
      have h1 := hno t ht h
      have h2 : (lineAt s.1 s.2 t).y ^ 2 = 0 := le_antisymm (by nlinarith [sq_nonneg (lineAt s.1 s.2 t).z]) (sq_nonneg _)
      have h3 := pow_eq_zero_iff (two_ne_zero) |>.1 h2
      simpa [lineAt] using h3
  have two : ∀ a b : ℝ, a ≠ b → s.1.y * (1 - a) + s.2.y * a = 0 → s.1.y * (1 - b) + s.2.y * b = 0 → False := by
    intro a b hab h1 h2
    have h3 : (s.2.y - s.1.y) * (a - b) = 0 := by linear_combination h1 - h2
    have h4 : s.2.y = s.1.y := by
      rcases mul_eq_zero.1 h3 with h | h
      · linarith
      · exact absurd (by linarith) hab
    rw [h4] at h1
    have h5 : s.1.y = 0 := by linarith
    rcases hy with h | h
    · exact h h5
    · exact h (by rw [h4, h5])
  have two' : ∀ a b : ℝ, a ≠ b → s.1.x * (1 - a) + s.2.x * a = c → s.1.x * (1 - b) + s.2.x * b = c → False := by
    intro a b hab h1 h2
    have h3 : (s.2.x - s.1.x) * (a - b) = 0 := by linear_combination h1 - h2
    rcases mul_eq_zero.1 h3 with h | h
    · exact hx (by linarith)
    · exact hab (by linarith)
  rcases key 0 ⟨le_rfl, zero_le_one⟩ with a | a <;> rcases key 1 ⟨zero_le_one, le_rfl⟩ with b | b <;>
    rcases key (1 / 2) ⟨by norm_num, by norm_num⟩ with d | d
  · exact two' _ _ (by norm_num) a b
  · exact two' _ _ (by norm_num) a b
  · exact two' _ _ (by norm_num) a d
  · exact two _ _ (by norm_num) b d
  · exact two' _ _ (by norm_num) b d
  · exact two _ _ (by norm_num) a d
  · exact two _ _ (by norm_num) a b
  · exact two _ _ (by norm_num) a b

theorem slice_first (cs : List (V × V)) (c e : ℝ) : sliceSum (cs.map chordPiece) (fun x w => e * ((x - c) * (Real.pi * w))) =
    e * (sliceSum (cs.map chordPiece) (fun x w => x * (Real.pi * w)) - c * sliceSum (cs.map chordPiece) fun _ w => Real.pi * w) := by
  unfold sliceSum
  induction cs with
  | nil => simp
  | cons s cs ih =>
    simp only [List.map_cons, List.sum_cons]
    rw [ih]
    have cx : Continuous fun t => ((chordPiece s).1 t).x := by simp only [chordPiece, lineAt, Vec.add_x, Vec.mul_x]; fun_prop
    have cy : Continuous fun t => ((chordPiece s).1 t).y := by simp only [chordPiece, lineAt, Vec.add_y, Vec.mul_y]; fun_prop
    have cz : Continuous fun t => ((chordPiece s).1 t).z := by simp only [chordPiece, lineAt, Vec.add_z, Vec.mul_z]; fun_prop
    have dx : Continuous fun t => ((chordPiece s).2 t).x := continuous_const
    set p := chordPiece s
    have i1 : IntervalIntegrable (fun t => (p.1 t).x * (Real.pi * ((p.1 t).y ^ 2 + (p.1 t).z ^ 2)) * (p.2 t).x) MeasureTheory.volume 0 1 :=
      Continuous.intervalIntegrable (by fun_prop) _ _
    have i0 : IntervalIntegrable (fun t => Real.pi * ((p.1 t).y ^ 2 + (p.1 t).z ^ 2) * (p.2 t).x) MeasureTheory.volume 0 1 :=
      Continuous.intervalIntegrable (by fun_prop) _ _
    have e' : ∀ t, e * (((p.1 t).x - c) * (Real.pi * ((p.1 t).y ^ 2 + (p.1 t).z ^ 2))) * (p.2 t).x =
        e * ((p.1 t).x * (Real.pi * ((p.1 t).y ^ 2 + (p.1 t).z ^ 2)) * (p.2 t).x - c * (Real.pi * ((p.1 t).y ^ 2 + (p.1 t).z ^ 2) * (p.2 t).x)) :=
      fun t => by ring
    simp only [e']
    rw [intervalIntegral.integral_const_mul, intervalIntegral.integral_sub i1 (i0.const_mul _), intervalIntegral.integral_const_mul]
    ring

/-- Volume, axial and central moments of the solid are positive, and its centre is between the ends of the chords. -/
theorem chords_possible (σ : ℝ) (cs : List (V × V)) (hx : ∀ s ∈ cs, 0 ≤ σ * (s.2.x - s.1.x)) (hw : ∃ s ∈ cs, s.1.x ≠ s.2.x ∧ (s.1.y ≠ 0 ∨ s.2.y ≠ 0))
    (hσ : σ ≠ 0) :
    0 < σ * bodyVolume (cs.map chordPiece) ∧ 0 < σ * bodyAxial (cs.map chordPiece) ∧
      (∀ c, 0 < σ * sliceSum (cs.map chordPiece) fun x w => (x - c) ^ 2 * (Real.pi * w)) ∧
      ∀ e : ℝ, e ≠ 0 → ∃ s ∈ cs, e * bodyCentre (cs.map chordPiece) < e * s.1.x ∨ e * bodyCentre (cs.map chordPiece) < e * s.2.x := by
  obtain ⟨s, hs, hsx, hsy⟩ := hw
  have hpos : 0 < σ * (s.2.x - s.1.x) := lt_of_le_of_ne (hx s hs) (mul_ne_zero hσ (sub_ne_zero.2 hsx.symm)).symm
  have pt := chord_point s hsx hsy
  have wn : ∀ (s : V × V) (t : ℝ), 0 ≤ (lineAt s.1 s.2 t).y ^ 2 + (lineAt s.1 s.2 t).z ^ 2 := fun s t => by positivity
  have hv : 0 < σ * bodyVolume (cs.map chordPiece) := by
    obtain ⟨t, ht, -, h2⟩ := pt 0
    exact slice_pos σ cs hx _ (by fun_prop) (fun s _ t _ => mul_nonneg Real.pi_pos.le (wn s t)) s hs hpos t ht (mul_pos Real.pi_pos h2)
  refine ⟨hv, ?_, fun c => ?_, fun e he => ?_⟩
  · obtain ⟨t, ht, -, h2⟩ := pt 0
    exact slice_pos σ cs hx _ (by fun_prop) (fun s _ t _ => by have := Real.pi_pos; positivity) s hs hpos t ht
      (by have := Real.pi_pos; positivity)
  · obtain ⟨t, ht, h1, h2⟩ := pt c
    have h3 := sub_ne_zero.2 h1
    exact slice_pos σ cs hx _ (by fun_prop) (fun s _ t _ => mul_nonneg (sq_nonneg _) (mul_nonneg Real.pi_pos.le (wn s t))) s hs hpos t ht
      (mul_pos (by positivity) (mul_pos Real.pi_pos h2))
  · by_contra hno
    push Not at hno
    set c := bodyCentre (cs.map chordPiece) with hc
    have hle : ∀ s ∈ cs, ∀ t ∈ Set.Icc (0 : ℝ) 1, 0 ≤ -e * ((lineAt s.1 s.2 t).x - c) := by
      intro s hs t ht
      obtain ⟨h1, h2⟩ := hno s hs
      simp only [lineAt, Vec.add_x, Vec.mul_x]
      have := mul_le_mul_of_nonneg_right h1 (sub_nonneg.2 ht.2)
      have := mul_le_mul_of_nonneg_right h2 ht.1
      linarith
    obtain ⟨t, ht, h1, h2⟩ := pt c
    have h3 : -e * ((lineAt s.1 s.2 t).x - c) ≠ 0 := mul_ne_zero (neg_ne_zero.2 he) (sub_ne_zero.2 h1)
    have h4 := slice_pos σ cs hx (fun x w => -e * ((x - c) * (Real.pi * w))) (by fun_prop)
      (fun s hs t ht => by rw [← mul_assoc]; exact mul_nonneg (hle s hs t ht) (mul_nonneg Real.pi_pos.le (wn s t))) s hs hpos t ht
      (by rw [← mul_assoc]; exact mul_pos (lt_of_le_of_ne (hle s hs t ht) h3.symm) (mul_pos Real.pi_pos h2))
    have hv0 : bodyVolume (cs.map chordPiece) ≠ 0 := by rintro h; rw [h, mul_zero] at hv; exact lt_irrefl _ hv
    have h5 : sliceSum (cs.map chordPiece) (fun x w => x * (Real.pi * w)) = c * bodyVolume (cs.map chordPiece) := by
      rw [hc]; unfold bodyCentre; rw [div_mul_cancel₀ _ hv0]
    rw [slice_first, h5] at h4
    unfold bodyVolume at h4
    simp at h4

/-! ## Bodies of revolution -/

theorem isInertia_diagonal (I : Fin 3 → Fin 3 → ℝ) (hd : ∀ i j, i ≠ j → I i j = 0) (h0 : 0 < I 0 0) (h1 : I 1 1 = I 2 2) (h2 : I 0 0 < 2 * I 1 1) :
    IsInertia I := by
  refine ⟨fun i j => ?_, fun u hu => ?_⟩
  · by_cases h : i = j
    · rw [h]
    · rw [hd i j h, hd j i (Ne.symm h)]
  · have e : form I u = I 0 0 * u 0 ^ 2 + I 1 1 * (u 1 ^ 2 + u 2 ^ 2) := by
      simp only [form, Fin.sum_univ_three]
      rw [hd 0 1 (by decide), hd 0 2 (by decide), hd 1 0 (by decide), hd 1 2 (by decide), hd 2 0 (by decide), hd 2 1 (by decide), ← h1]
      ring
    rw [e, Fin.sum_univ_three, Fin.sum_univ_three, ← h1]
    have hI : 0 < I 1 1 := by linarith
    by_cases hx : u 0 = 0
    · have hyz : 0 < u 1 ^ 2 + u 2 ^ 2 := by
        by_contra hc
        have a := sq_nonneg (u 1)
        have b := sq_nonneg (u 2)
        have a' : u 1 = 0 := pow_eq_zero_iff two_ne_zero |>.1 (by linarith)
        have b' : u 2 = 0 := pow_eq_zero_iff two_ne_zero |>.1 (by linarith)
        exact hu (by funext i; fin_cases i <;> simp [hx, a', b'])
      have p1 := mul_pos hI hyz
      have p2 := mul_pos h0 hyz
      rw [hx]
      constructor <;> nlinarith
    · have hx2 : 0 < u 0 ^ 2 := by positivity
      have hyz : 0 ≤ u 1 ^ 2 + u 2 ^ 2 := by positivity
      have p1 := mul_pos h0 hx2
      have p2 := mul_nonneg hI.le hyz
      have p3 := mul_pos (sub_pos.2 h2) hx2
      have p4 := mul_nonneg h0.le hyz
      constructor <;> nlinarith

namespace Spec

/-- Along the curves the place on the axis never decreases (`σ = 1`) or never increases (`σ = -1`), and at resolution `n` some chord is neither
across the axis nor on the axis. -/
structure Outline (σ : ℝ) (fs : List (ℝ → V)) (n : ℕ) : Prop where
  sign : σ = 1 ∨ σ = -1
  along : ∀ f ∈ fs, ∀ t t' : ℝ, 0 ≤ t → t ≤ t' → t' ≤ 1 → 0 ≤ σ * ((f t').x - (f t).x)
  solid : ∃ f ∈ fs, ∃ i : ℕ, i < n ∧ (f ((i : ℝ) / n)).x ≠ (f (((i + 1 : ℕ) : ℝ) / n)).x ∧
    ((f ((i : ℝ) / n)).y ≠ 0 ∨ (f (((i + 1 : ℕ) : ℝ) / n)).y ≠ 0)

end Spec

theorem body_possible (lib : Lib) (hl : NumpyStlInertia lib) (fs : List (ℝ → V)) (hz : ∀ f ∈ fs, ∀ t, 0 ≤ t → t ≤ 1 → (f t).z = 0) (he : EndsMeet fs) (n : ℕ)
    (hn : 1 ≤ n) (σ : ℝ) (ho : Outline σ fs n) (ρ : ℝ) (hρ : 0 < ρ) (M : StlMesh)
    (hM : M.tris = ((allGrids n fs).map (gridMesh MeshArith.real false n n)).flatten) (q : MassProps) (hq : lib.massProps M ρ = .ok q) :
    Possible M.tris ⟨σ * q.volume, σ * q.mass, q.cog, fun i j => σ * q.moi i j⟩ := by
  have hn0 : (0 : ℝ) < n := by exact_mod_cast hn
  have hσ : σ ≠ 0 := by rcases ho.sign with rfl | rfl <;> norm_num
  set cs := fs.flatMap fun f => chords f n with hcs
  have frac : ∀ i : ℕ, i ≤ n → 0 ≤ (i : ℝ) / n ∧ (i : ℝ) / n ≤ 1 := fun i hi =>
    ⟨by positivity, (div_le_one hn0).2 (by exact_mod_cast hi)⟩
  have mem : ∀ s ∈ cs, ∃ f ∈ fs, ∃ i : ℕ, i < n ∧ s = (f ((i : ℝ) / n), f (((i + 1 : ℕ) : ℝ) / n)) := by
    intro s hs
    obtain ⟨f, hf, hs⟩ := List.mem_flatMap.1 hs
    obtain ⟨i, hi, rfl⟩ := List.mem_map.1 hs
    exact ⟨f, hf, i, List.mem_range.1 hi, rfl⟩
  have hx : ∀ s ∈ cs, 0 ≤ σ * (s.2.x - s.1.x) := by
    intro s hs
    obtain ⟨f, hf, i, hi, rfl⟩ := mem s hs
    refine ho.along f hf _ _ (frac i hi.le).1 ?_ (frac (i + 1) hi).2
    exact div_le_div_of_nonneg_right (by push_cast; linarith) hn0.le
  have hw : ∃ s ∈ cs, s.1.x ≠ s.2.x ∧ (s.1.y ≠ 0 ∨ s.2.y ≠ 0) := by
    obtain ⟨f, hf, i, hi, h1, h2⟩ := ho.solid
    exact ⟨_, List.mem_flatMap.2 ⟨f, hf, List.mem_map.2 ⟨i, List.mem_range.2 hi, rfl⟩⟩, h1, h2⟩
  obtain ⟨p1, p2, p3, p4⟩ := chords_possible σ cs hx hw hσ
  rw [← chordPieces_eq] at p1 p2 p3 p4
  have hv : bodyVolume (chordPieces fs n) ≠ 0 := by rintro h; rw [h, mul_zero] at p1; exact lt_irrefl _ p1
  have hb := body_exact lib hl fs hz he n hn hv ρ M hM q hq
  obtain ⟨k1, -, k2, -⟩ := C164_ratios n hn
  set κ := polyArea n / Real.pi
  set κ' := κ * polarRatio (2 * Real.pi / (4 * n : ℕ))
  have node : ∀ f ∈ fs, ∀ k < 4, ∀ i ≤ n, IsVertex (revolveGrid f n k i 0) M.tris := by
    intro f hf k hk i hi
    rw [hM, isVertex_flatten]
    exact ⟨_, List.mem_map.2 ⟨_, List.mem_flatMap.2 ⟨f, hf, List.mem_map.2 ⟨k, List.mem_range.2 hk, rfl⟩⟩, rfl⟩,
      gridMesh_vertex n n _ i 0 hn hn hi (Nat.zero_le n)⟩
  have corner : ∀ f ∈ fs, ∀ i ≤ n, ∀ a b : ℝ, (f ((i : ℝ) / n)).z = 0 → ∃ v, IsVertex v M.tris ∧ v.x = (f ((i : ℝ) / n)).x ∧ 0 ≤ a * v.y + b * v.z ∧
      ((a ≠ 0 ∨ b ≠ 0) → (f ((i : ℝ) / n)).y ≠ 0 → 0 < a * v.y + b * v.z) := by
    intro f hf i hi a b hz0
    set p := f ((i : ℝ) / n) with hp
    have at0 : ∀ k : ℕ, revolveGrid f n k i 0 = ⟨p.x, p.y * Real.cos (k * Real.pi / 2), -(p.y * Real.sin (k * Real.pi / 2))⟩ := by
      intro k
      ext <;> simp [revolveGrid, revolveRot, ← hp, hz0]
    have e0 : revolveGrid f n 0 i 0 = ⟨p.x, p.y, 0⟩ := by rw [at0]; simp
    have e1 : revolveGrid f n 1 i 0 = ⟨p.x, 0, -p.y⟩ := by rw [at0]; simp
    have e2 : revolveGrid f n 2 i 0 = ⟨p.x, -p.y, 0⟩ := by
      rw [at0, show ((2 : ℕ) : ℝ) * Real.pi / 2 = Real.pi by push_cast; ring]; simp
    have e3 : revolveGrid f n 3 i 0 = ⟨p.x, 0, p.y⟩ := by
      rw [at0, show ((3 : ℕ) : ℝ) * Real.pi / 2 = Real.pi / 2 + Real.pi by push_cast; ring, Real.cos_add_pi, Real.sin_add_pi]; simp
    have n0 := node f hf 0 (by norm_num) i hi
    have n1 := node f hf 1 (by norm_num) i hi
    have n2 := node f hf 2 (by norm_num) i hi
    have n3 := node f hf 3 (by norm_num) i hi
    rw [e0] at n0
    rw [e1] at n1
    rw [e2] at n2
    rw [e3] at n3
    by_cases ha : a = 0
    · rcases le_total 0 (b * p.y) with hb' | hb'
      · refine ⟨_, n3, rfl, by simpa using hb', fun hab hy => ?_⟩
        have hb0 : b ≠ 0 := by rcases hab with h | h; exacts [absurd ha h, h]
        have := lt_of_le_of_ne hb' (mul_ne_zero hb0 hy).symm
        simpa using this
      · refine ⟨_, n1, rfl, by simpa using hb', fun hab hy => ?_⟩
        have hb0 : b ≠ 0 := by rcases hab with h | h; exacts [absurd ha h, h]
        have := lt_of_le_of_ne hb' (mul_ne_zero hb0 hy)
        simpa using this
    · rcases le_total 0 (a * p.y) with hb' | hb'
      · refine ⟨_, n0, rfl, by simpa using hb', fun _ hy => ?_⟩
        have := lt_of_le_of_ne hb' (mul_ne_zero ha hy).symm
        simpa using this
      · refine ⟨_, n2, rfl, by simpa using hb', fun _ hy => ?_⟩
        have := lt_of_le_of_ne hb' (mul_ne_zero ha hy)
        simpa using this
  have zer : ∀ f ∈ fs, ∀ i ≤ n, (f ((i : ℝ) / n)).z = 0 := fun f hf i hi => hz f hf _ (frac i hi).1 (frac i hi).2
  refine ⟨?_, ?_, fun u hu => ?_, ?_⟩
  · show 0 < σ * q.volume
    rw [hb.volume]
    have := mul_pos k1 p1
    linarith
  · show 0 < σ * q.mass
    rw [hb.mass]
    have := mul_pos hρ (mul_pos k1 p1)
    linarith
  · show ∃ v, IsVertex v M.tris ∧ u.dot q.cog < u.dot v
    rw [hb.cog]
    by_cases hux : u.x = 0
    · obtain ⟨s, hs, -, hy⟩ := hw
      obtain ⟨f, hf, i, hi, rfl⟩ := mem s hs
      have hyz : u.y ≠ 0 ∨ u.z ≠ 0 := by
        by_contra hc
        push Not at hc
        exact hu (by ext; exacts [hux, hc.1, hc.2])
      rcases hy with hy | hy
      · obtain ⟨v, v1, -, -, v4⟩ := corner f hf i hi.le u.y u.z (zer f hf i hi.le)
        exact ⟨v, v1, by have := v4 hyz hy; simp only [Vec.dot, hux]; linarith⟩
      · obtain ⟨v, v1, -, -, v4⟩ := corner f hf (i + 1) hi u.y u.z (zer f hf (i + 1) hi)
        exact ⟨v, v1, by have := v4 hyz hy; simp only [Vec.dot, hux]; linarith⟩
    · obtain ⟨s, hs, h⟩ := p4 u.x hux
      obtain ⟨f, hf, i, hi, rfl⟩ := mem s hs
      rcases h with h | h
      · obtain ⟨v, v1, v2, v3, -⟩ := corner f hf i hi.le u.y u.z (zer f hf i hi.le)
        exact ⟨v, v1, by simp only [Vec.dot, v2]; simp only at h; linarith⟩
      · obtain ⟨v, v1, v2, v3, -⟩ := corner f hf (i + 1) hi u.y u.z (zer f hf (i + 1) hi)
        exact ⟨v, v1, by simp only [Vec.dot, v2]; simp only at h; linarith⟩
  · have a0 : 0 < σ * q.moi 0 0 := by
      rw [hb.axial]
      have := mul_pos hρ (mul_pos k2 p2)
      linarith
    refine isInertia_diagonal _ (fun i j hij => by simp only [hb.products i j hij, mul_zero]) a0 (by simp only [hb.transverse.2]) ?_
    show σ * q.moi 0 0 < 2 * (σ * q.moi 1 1)
    rw [hb.axial, hb.transverse.1]
    have := mul_pos hρ (mul_pos k1 (p3 (bodyCentre (chordPieces fs n))))
    linarith

/-- C166 for a composite of revolved curves, at every resolution: what is reported is possible, with the sign of the direction in which the outline is drawn. -/
theorem C166_composite (lib : Lib) (hl : NumpyStlInertia lib) (h : Heap) (id : ℕ) (ids : List ℕ) (lines : List PathObj) (fs : List (ℝ → V)) (hn : ids.Nodup)
    (hid : id ∉ ids) (hne : ids ≠ []) (hg : (h id).gen = .composite ids) (hc : List.Forall₂ (fun k line => NewRevolved (h k) line) ids lines)
    (hf : List.Forall₂ (fun (line : PathObj) (f : ℝ → V) => ∀ t, 0 ≤ t → t ≤ 1 → line.call t = .ok (f t)) lines fs)
    (n : ℕ) (hn1 : 1 ≤ n) (hres : (h id).stl_resolution = .int n) (hm : (h id).mesh_ = none) (hs : (h id).surfaces = none) (hcl : (h id).clustering = {})
    (hz : ∀ f ∈ fs, ∀ t, 0 ≤ t → t ≤ 1 → (f t).z = 0) (he : EndsMeet fs) (σ : ℝ) (ho : Outline σ fs n) (ρ : ℝ) (hρ : 0 < ρ) :
    ∃ h' M c', generatePatches h id = (.ok (), h') ∧ (h' id).mesh = (.ok M, c') ∧ ∀ q, lib.massProps M ρ = .ok q →
      Possible M.tris ⟨σ * q.volume, σ * q.mass, q.cog, fun i j => σ * q.moi i j⟩ := by
  obtain ⟨h', M, c', g1, g2, -, g3⟩ := revolved_composite_mesh h id ids lines fs hn hid hne hg hc hf n hn1 hres hm hs hcl
  exact ⟨h', M, c', g1, g2, fun q hq => body_possible lib hl fs hz he n hn1 σ ho ρ hρ M g3 q hq⟩

/-- C166 for a single curve from the axis to the axis. -/
theorem C166_revolved (lib : Lib) (hl : NumpyStlInertia lib) (line : PathObj) (f : ℝ → V) (hc : ∀ t, 0 ≤ t → t ≤ 1 → line.call t = .ok (f t))
    (hz : ∀ t, 0 ≤ t → t ≤ 1 → (f t).z = 0) (h0 : (f 0).y = 0) (h1 : (f 1).y = 0) (n : ℕ) (hn : 1 ≤ n) (σ : ℝ) (ho : Outline σ [f] n) (ρ : ℝ) (hρ : 0 < ρ)
    (name : Option String) (h : Heap) (id : ℕ) (hid : h id = RevolvedComponent line n name) :
    ∃ h' M c', generatePatches h id = (.ok (), h') ∧ (h' id).mesh = (.ok M, c') ∧ ∀ q, lib.massProps M ρ = .ok q →
      Possible M.tris ⟨σ * q.volume, σ * q.mass, q.cog, fun i j => σ * q.moi i j⟩ := by
  have he : EndsMeet [f] := by simp [EndsMeet, h0, h1, hz 0 le_rfl zero_le_one, hz 1 zero_le_one le_rfl]
  obtain ⟨h', M, c', g1, g2, g3⟩ := revolved_mesh line f hc n hn name h id hid
  exact ⟨h', M, c', g1, g2, fun q hq => body_possible lib hl [f] (by simpa using hz) he n hn σ ho ρ hρ M (by rw [g3]; simp [allGrids]) q hq⟩

/-- Straight lines drawn along the axis are an outline at every resolution. -/
theorem outline_straight (segs : List (V × V)) (hx : ∀ s ∈ segs, s.1.x ≤ s.2.x) (hs : ∃ s ∈ segs, s.1.x ≠ s.2.x ∧ (s.1.y ≠ 0 ∨ s.2.y ≠ 0)) (n : ℕ)
    (hn : 1 ≤ n) : Outline 1 (segs.map fun s => lineAt s.1 s.2) n := by
  have hn0 : (0 : ℝ) < n := by exact_mod_cast hn
  refine ⟨.inl rfl, fun f hf t t' _ h _ => ?_, ?_⟩
  · obtain ⟨s, hs, rfl⟩ := List.mem_map.1 hf
    have := mul_nonneg (sub_nonneg.2 (hx s hs)) (sub_nonneg.2 h)
    simp only [lineAt, Vec.add_x, Vec.mul_x]
    linarith
  · obtain ⟨s, hs, h1, h2⟩ := hs
    refine ⟨_, List.mem_map.2 ⟨s, hs, rfl⟩, 0, hn, ?_, ?_⟩
    · intro h
      simp only [lineAt, Vec.add_x, Vec.mul_x, Nat.cast_zero, zero_div, zero_add, Nat.cast_one] at h
      have : (s.2.x - s.1.x) * (1 / (n : ℝ)) = 0 := by linarith
      rcases mul_eq_zero.1 this with h | h
      · exact h1 (by linarith)
      · exact absurd h (by positivity)
    · by_contra hno
      push Not at hno
      simp only [lineAt, Vec.add_y, Vec.mul_y, Nat.cast_zero, zero_div, zero_add, Nat.cast_one] at hno
      have a : s.1.y = 0 := by linarith [hno.1]
      have b : s.2.y * (1 / (n : ℝ)) = 0 := by rw [a] at hno; linarith [hno.2]
      rcases mul_eq_zero.1 b with b | b
      · rcases h2 with h | h
        exacts [h a, h b]
      · exact absurd b (by positivity)

/-- The cone of the examples meets the hypotheses of `C166_composite`. -/
example : Outline 1 ([((⟨0, 0, 0⟩ : V), (⟨3, 1, 0⟩ : V)), (⟨3, 1, 0⟩, ⟨3, 0, 0⟩)].map fun s => lineAt s.1 s.2) 8 :=
  outline_straight _ (by simp) ⟨(⟨0, 0, 0⟩, ⟨3, 1, 0⟩), by simp, by norm_num, .inr (by norm_num)⟩ 8 (by norm_num)

end HV
