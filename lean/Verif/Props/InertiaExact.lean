import Verif.Props.InertiaLimit
import Verif.Props.AreaError

/-! C164: what is reported for bodies of revolution at a given resolution, exactly. -/

namespace HV
open Spec Filter Topology

namespace Spec

/-- The chords of curves over `n` equal parts of their parameter, with their derivatives. -/
noncomputable def chordPieces (fs : List (ℝ → V)) (n : ℕ) : List ((ℝ → V) × (ℝ → V)) :=
  fs.flatMap fun f => (chords f n).map fun s => (lineAt s.1 s.2, fun _ => s.2 - s.1)

/-- The polar second moment of area of the regular polygon with corners on a circle, divided by that of the disc, is the ratio of their areas
times this number, where `δ` is the angle between corners. -/
noncomputable def polarRatio (δ : ℝ) : ℝ := (2 + Real.cos δ) / 3

end Spec

theorem int_poly (c0 c1 c2 c3 c4 : ℝ) : ∫ t in (0 : ℝ)..1, (c0 + c1 * t + c2 * t ^ 2 + c3 * t ^ 3 + c4 * t ^ 4) = c0 + c1 / 2 + c2 / 3 + c3 / 4 + c4 / 5 := by
  have d : ∀ t ∈ Set.uIcc (0 : ℝ) 1, HasDerivAt (fun t : ℝ => c0 * t + c1 / 2 * t ^ 2 + c2 / 3 * t ^ 3 + c3 / 4 * t ^ 4 + c4 / 5 * t ^ 5)
      (c0 + c1 * t + c2 * t ^ 2 + c3 * t ^ 3 + c4 * t ^ 4) t := by
    intro t _
    have h := (((((hasDerivAt_id t).const_mul c0).add ((hasDerivAt_pow 2 t).const_mul (c1 / 2))).add ((hasDerivAt_pow 3 t).const_mul (c2 / 3))).add
      ((hasDerivAt_pow 4 t).const_mul (c3 / 4))).add ((hasDerivAt_pow 5 t).const_mul (c4 / 5))
    refine h.congr_deriv ?_
    norm_num
    ring
  rw [intervalIntegral.integral_eq_sub_of_hasDerivAt d (by apply Continuous.intervalIntegrable; fun_prop)]
  ring

/-! ## One cell -/

theorem meshSum_rotated {φ : (Fin 3 → ℝ) → (Fin 3 → ℝ) → (Fin 3 → ℝ) → (Fin 3 → ℝ) → ℝ}
    (hφ : ∀ (x : ℝ) (t : Tri ℝ), φ (co (revolveRot x t.v0)) (co (revolveRot x t.v1)) (co (revolveRot x t.v2))
      (triArea2 ⟨revolveRot x t.v0, revolveRot x t.v1, revolveRot x t.v2⟩) = φ (co t.v0) (co t.v1) (co t.v2) (triArea2 t)) (x : ℝ) (m : TriMesh ℝ) :
    meshSum φ (mapVerts (revolveRot x) m) = meshSum φ m := by
  unfold meshSum mapVerts
  rw [List.map_map]
  congr 1
  exact List.map_congr_left fun t _ => hφ x t

theorem det_rotated (x : ℝ) (t : Tri ℝ) : dotF (co (revolveRot x t.v0)) (triArea2 ⟨revolveRot x t.v0, revolveRot x t.v1, revolveRot x t.v2⟩) =
    dotF (co t.v0) (triArea2 t) := by
  have h := Real.sin_sq_add_cos_sq x
  simp only [dotF, co, triArea2, revolveRot, Matrix.cons_val_zero, Matrix.cons_val_one, Matrix.cons_val]
  generalize Real.sin x = S at *
  generalize Real.cos x = C at *
  obtain ⟨⟨a, b, c⟩, ⟨a', b', c'⟩, ⟨a'', b'', c''⟩⟩ := t
  simp only
  linear_combination (a * (b' * c'' - b'' * c') + b * (c' * a'' - c'' * a') + c * (a' * b'' - a'' * b')) * h

theorem vertical_rotated (x : ℝ) (v : V) : co (revolveRot x v) 0 = co v 0 := rfl

theorem radial_rotated (x : ℝ) (u v : V) : co (revolveRot x u) 1 * co (revolveRot x v) 1 + co (revolveRot x u) 2 * co (revolveRot x v) 2 =
    co u 1 * co v 1 + co u 2 * co v 2 := by
  have h := Real.sin_sq_add_cos_sq x
  simp only [co, revolveRot, Matrix.cons_val_zero, Matrix.cons_val_one, Matrix.cons_val]
  linear_combination (u.y * v.y + u.z * v.z) * h

/-- The sum over the triangles of a cell of a revolved chord is, but for the factor, an integral along the chord and boundary terms. -/
def ConeCell (φ : (Fin 3 → ℝ) → (Fin 3 → ℝ) → (Fin 3 → ℝ) → (Fin 3 → ℝ) → ℝ) (E : ℝ → ℝ) (α β : ℝ) (a b : ℕ) : Prop :=
  ∀ (p q : V) (x d : ℝ), p.z = 0 → q.z = 0 →
    meshSum φ (cellTris MeshArith.real false (revolveRot x p) (revolveRot x q) (revolveRot (x + d) p) (revolveRot (x + d) q)) =
      Real.sin d / (2 * Real.pi) * E d * ((∫ t in (0 : ℝ)..1, α * (lineAt p q t).x ^ a * ((lineAt p q t).y ^ 2 + (lineAt p q t).z ^ 2) ^ (b + 1) * (q.x - p.x)) +
        β * (q.x ^ (a + 1) * (q.y ^ 2 + q.z ^ 2) ^ (b + 1) - p.x ^ (a + 1) * (p.y ^ 2 + p.z ^ 2) ^ (b + 1)))

theorem coneCell_of {φ : (Fin 3 → ℝ) → (Fin 3 → ℝ) → (Fin 3 → ℝ) → (Fin 3 → ℝ) → ℝ} {E : ℝ → ℝ} {α β : ℝ} {a b : ℕ}
    (hφ : ∀ (x : ℝ) (t : Tri ℝ), φ (co (revolveRot x t.v0)) (co (revolveRot x t.v1)) (co (revolveRot x t.v2))
      (triArea2 ⟨revolveRot x t.v0, revolveRot x t.v1, revolveRot x t.v2⟩) = φ (co t.v0) (co t.v1) (co t.v2) (triArea2 t))
    (h : ∀ (p q : V) (d : ℝ), p.z = 0 → q.z = 0 → let s := Real.sin (d / 2); let c := Real.cos (d / 2); let m : V := ⟨(p.x + q.x) / 2, (p.y + q.y) / 2 * c, 0⟩
      let p0 : V := ⟨p.x, p.y * c, p.y * s⟩; let q0 : V := ⟨q.x, q.y * c, q.y * s⟩; let p1 : V := ⟨p.x, p.y * c, -(p.y * s)⟩
      let q1 : V := ⟨q.x, q.y * c, -(q.y * s)⟩
      meshSum φ [⟨p0, q0, m⟩, ⟨q0, q1, m⟩, ⟨q1, p1, m⟩, ⟨p1, p0, m⟩] =
      2 * s * c / (2 * Real.pi) * E d * ((∫ t in (0 : ℝ)..1, α * (lineAt p q t).x ^ a * ((lineAt p q t).y ^ 2 + (lineAt p q t).z ^ 2) ^ (b + 1) * (q.x - p.x)) +
        β * (q.x ^ (a + 1) * (q.y ^ 2 + q.z ^ 2) ^ (b + 1) - p.x ^ (a + 1) * (p.y ^ 2 + p.z ^ 2) ^ (b + 1)))) : ConeCell φ E α β a b := by
  intro p q x d hpz hqz
  have e1 : ∀ u, revolveRot x u = revolveRot (x + d / 2) (revolveRot (-(d / 2)) u) := fun u => by
    rw [← revolveRot_add]; congr 1; ring
  have e2 : ∀ u, revolveRot (x + d) u = revolveRot (x + d / 2) (revolveRot (d / 2) u) := fun u => by
    rw [← revolveRot_add]; congr 1; ring
  rw [e1, e1, e2, e2, cell_rotated, meshSum_rotated hφ]
  have hsd : Real.sin d = 2 * Real.sin (d / 2) * Real.cos (d / 2) := by rw [← Real.sin_two_mul]; congr 1; ring
  have m1 : ∀ u : V, u.z = 0 → revolveRot (-(d / 2)) u = ⟨u.x, u.y * Real.cos (d / 2), u.y * Real.sin (d / 2)⟩ := fun u hu => by
    ext <;> simp [revolveRot, hu]
  have m2 : ∀ u : V, u.z = 0 → revolveRot (d / 2) u = ⟨u.x, u.y * Real.cos (d / 2), -(u.y * Real.sin (d / 2))⟩ := fun u hu => by
    ext <;> simp [revolveRot, hu]
  rw [m1 p hpz, m1 q hqz, m2 p hpz, m2 q hqz, hsd]
  simp only [cellTris, meshVertex_real]
  have hcc : cellCentre MeshArith.real (⟨p.x, p.y * Real.cos (d / 2), p.y * Real.sin (d / 2)⟩ : V) ⟨q.x, q.y * Real.cos (d / 2), q.y * Real.sin (d / 2)⟩
      ⟨p.x, p.y * Real.cos (d / 2), -(p.y * Real.sin (d / 2))⟩ ⟨q.x, q.y * Real.cos (d / 2), -(q.y * Real.sin (d / 2))⟩ =
      ⟨(p.x + q.x) / 2, (p.y + q.y) / 2 * Real.cos (d / 2), 0⟩ := by
    ext <;> simp [cellCentre, MeshArith.real] <;> ring
  rw [hcc]
  exact h p q d hpz hqz

theorem coneCell_volume : ConeCell (fun a _ _ n => dotF a n / 6) (fun _ => 1) Real.pi (-(Real.pi / 3)) 0 0 := by
  refine coneCell_of (fun x t => by simp only [det_rotated]) fun p q d hp hq => ?_
  intro s c m p0 q0 p1 q1
  have hI : ∀ t, Real.pi * (lineAt p q t).x ^ 0 * ((lineAt p q t).y ^ 2 + (lineAt p q t).z ^ 2) ^ (0 + 1) * (q.x - p.x) =
      Real.pi * (q.x - p.x) * p.y ^ 2 + Real.pi * (q.x - p.x) * (2 * p.y * (q.y - p.y)) * t + Real.pi * (q.x - p.x) * (q.y - p.y) ^ 2 * t ^ 2 + 0 * t ^ 3 + 0 * t ^ 4 := by
    intro t
    simp [lineAt, hp, hq]
    ring
  simp only [hI, int_poly]
  simp only [meshSum, List.map_cons, List.map_nil, List.sum_cons, List.sum_nil, dotF, co, triArea2, Matrix.cons_val_zero, Matrix.cons_val_one, Matrix.cons_val, p0, p1, q0, q1, m, hp, hq]
  have := Real.pi_pos.ne'
  field_simp
  ring

theorem coneCell_moment : ConeCell (fun a b c n => dotF a n / 6 * ((a 0 + b 0 + c 0) / 4)) (fun _ => 1) Real.pi (-(Real.pi / 4)) 1 0 := by
  refine coneCell_of (fun x t => by simp only [det_rotated, vertical_rotated]) fun p q d hp hq => ?_
  intro s c m p0 q0 p1 q1
  have hI : ∀ t, Real.pi * (lineAt p q t).x ^ 1 * ((lineAt p q t).y ^ 2 + (lineAt p q t).z ^ 2) ^ (0 + 1) * (q.x - p.x) =
      Real.pi * (q.x - p.x) * (p.x * p.y ^ 2) + Real.pi * (q.x - p.x) * ((q.x - p.x) * p.y ^ 2 + 2 * p.x * p.y * (q.y - p.y)) * t +
      Real.pi * (q.x - p.x) * (p.x * (q.y - p.y) ^ 2 + 2 * (q.x - p.x) * p.y * (q.y - p.y)) * t ^ 2 +
      Real.pi * (q.x - p.x) * ((q.x - p.x) * (q.y - p.y) ^ 2) * t ^ 3 + 0 * t ^ 4 := by
    intro t
    simp [lineAt, hp, hq]
    ring
  simp only [hI, int_poly]
  simp only [meshSum, List.map_cons, List.map_nil, List.sum_cons, List.sum_nil, dotF, co, triArea2, Matrix.cons_val_zero, Matrix.cons_val_one, Matrix.cons_val, p0, p1, q0, q1, m, hp, hq]
  have := Real.pi_pos.ne'
  field_simp
  ring

theorem coneCell_second : ConeCell (fun a b c n => dotF a n / 120 * (a 0 * a 0 + b 0 * b 0 + c 0 * c 0 + (a 0 + b 0 + c 0) * (a 0 + b 0 + c 0)))
    (fun _ => 1) Real.pi (-(Real.pi / 5)) 2 0 := by
  refine coneCell_of (fun x t => by simp only [det_rotated, vertical_rotated]) fun p q d hp hq => ?_
  intro s c m p0 q0 p1 q1
  have hI : ∀ t, Real.pi * (lineAt p q t).x ^ 2 * ((lineAt p q t).y ^ 2 + (lineAt p q t).z ^ 2) ^ (0 + 1) * (q.x - p.x) =
      Real.pi * (q.x - p.x) * (p.x ^ 2 * p.y ^ 2) + Real.pi * (q.x - p.x) * (2 * p.x * (q.x - p.x) * p.y ^ 2 + 2 * p.x ^ 2 * p.y * (q.y - p.y)) * t +
      Real.pi * (q.x - p.x) * ((q.x - p.x) ^ 2 * p.y ^ 2 + 4 * p.x * (q.x - p.x) * p.y * (q.y - p.y) + p.x ^ 2 * (q.y - p.y) ^ 2) * t ^ 2 +
      Real.pi * (q.x - p.x) * (2 * (q.x - p.x) ^ 2 * p.y * (q.y - p.y) + 2 * p.x * (q.x - p.x) * (q.y - p.y) ^ 2) * t ^ 3 +
      Real.pi * (q.x - p.x) * ((q.x - p.x) ^ 2 * (q.y - p.y) ^ 2) * t ^ 4 := by
    intro t
    simp [lineAt, hp, hq]
    ring
  simp only [hI, int_poly]
  simp only [meshSum, List.map_cons, List.map_nil, List.sum_cons, List.sum_nil, dotF, co, triArea2, Matrix.cons_val_zero, Matrix.cons_val_one, Matrix.cons_val, p0, p1, q0, q1, m, hp, hq]
  have := Real.pi_pos.ne'
  field_simp
  ring

theorem coneCell_radial : ConeCell (fun a b c n => dotF a n / 120 * (a 1 * a 1 + b 1 * b 1 + c 1 * c 1 + (a 1 + b 1 + c 1) * (a 1 + b 1 + c 1)) +
    dotF a n / 120 * (a 2 * a 2 + b 2 * b 2 + c 2 * c 2 + (a 2 + b 2 + c 2) * (a 2 + b 2 + c 2))) polarRatio (Real.pi / 2) (-(Real.pi / 10)) 0 1 := by
  refine coneCell_of (fun x t => ?_) fun p q d hp hq => ?_
  · simp only [det_rotated]
    have r := radial_rotated x
    linear_combination dotF (co t.v0) (triArea2 t) / 120 * (2 * r t.v0 t.v0 + 2 * r t.v1 t.v1 + 2 * r t.v2 t.v2 + 2 * r t.v0 t.v1 + 2 * r t.v0 t.v2 + 2 * r t.v1 t.v2)
  intro s c m p0 q0 p1 q1
  have hI : ∀ t, Real.pi / 2 * (lineAt p q t).x ^ 0 * ((lineAt p q t).y ^ 2 + (lineAt p q t).z ^ 2) ^ (1 + 1) * (q.x - p.x) =
      Real.pi / 2 * (q.x - p.x) * p.y ^ 4 + Real.pi / 2 * (q.x - p.x) * (4 * p.y ^ 3 * (q.y - p.y)) * t + Real.pi / 2 * (q.x - p.x) * (6 * p.y ^ 2 * (q.y - p.y) ^ 2) * t ^ 2 +
      Real.pi / 2 * (q.x - p.x) * (4 * p.y * (q.y - p.y) ^ 3) * t ^ 3 + Real.pi / 2 * (q.x - p.x) * (q.y - p.y) ^ 4 * t ^ 4 := by
    intro t
    simp [lineAt, hp, hq]
    ring
  have hE : polarRatio d = c ^ 2 + s ^ 2 / 3 := by
    have h1 : Real.cos d = 2 * c ^ 2 - 1 := by rw [← Real.cos_two_mul]; congr 1; ring
    have h2 : s ^ 2 + c ^ 2 = 1 := Real.sin_sq_add_cos_sq _
    unfold polarRatio
    rw [h1]
    linear_combination (-1 / 3 : ℝ) * h2
  simp only [hI, int_poly, hE]
  simp only [meshSum, List.map_cons, List.map_nil, List.sum_cons, List.sum_nil, dotF, co, triArea2, Matrix.cons_val_zero, Matrix.cons_val_one, Matrix.cons_val, p0, p1, q0, q1, m, hp, hq]
  have := Real.pi_pos.ne'
  field_simp
  ring

/-! ## All cells -/

theorem chords_telescope (K : V → ℝ) (f : ℝ → V) (n : ℕ) (hn : 1 ≤ n) : ((chords f n).map fun s => K s.2 - K s.1).sum = K (f 1) - K (f 0) := by
  have hn0 : (n : ℝ) ≠ 0 := by positivity
  unfold chords
  rw [List.map_map, sum_map_range]
  simp only [Function.comp_def]
  rw [Finset.sum_range_sub (fun i : ℕ => K (f ((i : ℝ) / n)))]
  simp [hn0]

theorem stack_exact {φ : (Fin 3 → ℝ) → (Fin 3 → ℝ) → (Fin 3 → ℝ) → (Fin 3 → ℝ) → ℝ} {E : ℝ → ℝ} {α β : ℝ} {a b : ℕ} (hφ : ConeCell φ E α β a b)
    (fs : List (ℝ → V)) (hz : ∀ f ∈ fs, ∀ t, 0 ≤ t → t ≤ 1 → (f t).z = 0) (he : EndsMeet fs) (n : ℕ) (hn : 1 ≤ n) :
    meshSum φ ((allGrids n fs).map (gridMesh MeshArith.real false n n)).flatten =
      polyArea n / Real.pi * E (2 * Real.pi / (4 * n : ℕ)) * sliceSum (chordPieces fs n) fun x w => α * x ^ a * w ^ (b + 1) := by
  have hnp : (0 : ℝ) < n := by positivity
  have hn0 : (n : ℝ) ≠ 0 := hnp.ne'
  set d : ℝ := 2 * Real.pi / (4 * n : ℕ) with hd
  set K : V → ℝ := fun v => v.x ^ (a + 1) * (v.y ^ 2 + v.z ^ 2) ^ (b + 1) with hK
  have h01 : ∀ i ≤ n, 0 ≤ (i : ℝ) / n ∧ (i : ℝ) / n ≤ 1 := fun i hi => ⟨by positivity, by rw [div_le_one hnp]; exact_mod_cast hi⟩
  set J : V × V → ℝ := fun s => ∫ t in (0 : ℝ)..1, α * (lineAt s.1 s.2 t).x ^ a * ((lineAt s.1 s.2 t).y ^ 2 + (lineAt s.1 s.2 t).z ^ 2) ^ (b + 1) * (s.2.x - s.1.x) with hJ
  have one : ∀ f ∈ fs, meshSum φ (((List.range 4).map (revolveGrid f n)).map (gridMesh MeshArith.real false n n)).flatten =
      polyArea n / Real.pi * E d * (((chords f n).map J).sum + β * (K (f 1) - K (f 0))) := by
    intro f hf
    have hcell : ∀ k, meshSum φ (gridMesh MeshArith.real false n n (revolveGrid f n k)) =
        n * (Real.sin d / (2 * Real.pi) * E d * (((chords f n).map J).sum + β * (K (f 1) - K (f 0)))) := by
      intro k
      rw [meshSum_grid]
      have row : ∀ i ∈ Finset.range n, (∑ j ∈ Finset.range n, meshSum φ (cellTris MeshArith.real false (revolveGrid f n k i j) (revolveGrid f n k (i + 1) j)
          (revolveGrid f n k i (j + 1)) (revolveGrid f n k (i + 1) (j + 1)))) = n * (Real.sin d / (2 * Real.pi) * E d *
            (J (f ((i : ℝ) / n), f (((i + 1 : ℕ) : ℝ) / n)) + β * (K (f (((i + 1 : ℕ) : ℝ) / n)) - K (f ((i : ℝ) / n))))) := by
        intro i hi
        have hi := Finset.mem_range.1 hi
        have : ∀ j ∈ Finset.range n, meshSum φ (cellTris MeshArith.real false (revolveGrid f n k i j) (revolveGrid f n k (i + 1) j)
            (revolveGrid f n k i (j + 1)) (revolveGrid f n k (i + 1) (j + 1))) = Real.sin d / (2 * Real.pi) * E d *
            (J (f ((i : ℝ) / n), f (((i + 1 : ℕ) : ℝ) / n)) + β * (K (f (((i + 1 : ℕ) : ℝ) / n)) - K (f ((i : ℝ) / n)))) := by
          intro j _
          have ha : (k * Real.pi / 2) * (1 - ((j + 1 : ℕ) : ℝ) / n) + (((k : ℝ) + 1) * Real.pi / 2) * (((j + 1 : ℕ) : ℝ) / n) =
              (k * Real.pi / 2) * (1 - (j : ℝ) / n) + (((k : ℝ) + 1) * Real.pi / 2) * ((j : ℝ) / n) + d := by
            rw [hd]
            push_cast
            field_simp
            ring
          have a1 := h01 i (by omega)
          have b1 := h01 (i + 1) (by omega)
          unfold revolveGrid
          rw [ha]
          exact hφ (f ((i : ℝ) / n)) (f (((i + 1 : ℕ) : ℝ) / n)) _ d (hz f hf _ a1.1 a1.2) (hz f hf _ b1.1 b1.2)
        rw [Finset.sum_congr rfl this, Finset.sum_const, Finset.card_range, nsmul_eq_mul]
      rw [Finset.sum_congr rfl row, ← Finset.mul_sum, ← Finset.mul_sum, ← chords_telescope K f n hn]
      unfold chords
      rw [List.map_map, List.map_map, sum_map_range, sum_map_range, Finset.sum_add_distrib, ← Finset.mul_sum]
      rfl
    rw [meshSum_flatten, List.map_map, List.map_map, sum_map_range]
    simp only [Function.comp_def, hcell, Finset.sum_const, Finset.card_range, nsmul_eq_mul]
    unfold polyArea
    rw [← hd]
    push_cast
    ring
  have all : ∀ l : List (ℝ → V), (∀ f ∈ l, f ∈ fs) → meshSum φ ((allGrids n l).map (gridMesh MeshArith.real false n n)).flatten = polyArea n / Real.pi * E d *
      ((sliceSum (chordPieces l n) fun x w => α * x ^ a * w ^ (b + 1)) + β * ((l.map fun f => K (f 1)).sum - (l.map fun f => K (f 0)).sum)) := by
    intro l hl
    induction l with
    | nil => simp [allGrids, meshSum, chordPieces, sliceSum]
    | cons f l ih =>
      have e : allGrids n (f :: l) = (List.range 4).map (revolveGrid f n) ++ allGrids n l := rfl
      rw [e, List.map_append, List.flatten_append, meshSum_append, ih fun g hg => hl g (by simp [hg]), one f (hl f (by simp))]
      have e2 : (sliceSum (chordPieces (f :: l) n) fun x w => α * x ^ a * w ^ (b + 1)) = ((chords f n).map J).sum +
          sliceSum (chordPieces l n) fun x w => α * x ^ a * w ^ (b + 1) := by
        unfold chordPieces sliceSum
        rw [List.flatMap_cons, List.map_append, List.sum_append, List.map_map]
        rfl
      rw [e2]
      simp only [List.map_cons, List.sum_cons]
      ring
  rw [all fs fun _ h => h, endsMeet_sum K (fun v hy hz => by simp [hK, hy, hz]) fs he, sub_self, mul_zero, add_zero]

theorem stack_exact_quantities (fs : List (ℝ → V)) (hz : ∀ f ∈ fs, ∀ t, 0 ≤ t → t ≤ 1 → (f t).z = 0) (he : EndsMeet fs) (n : ℕ) (hn : 1 ≤ n) :
    let m := ((allGrids n fs).map (gridMesh MeshArith.real false n n)).flatten
    let ps := chordPieces fs n
    let κ := polyArea n / Real.pi
    signedVolume m = κ * bodyVolume ps ∧ (firstMoment m).x = κ * sliceSum ps (fun x w => x * (Real.pi * w)) ∧
      secondMoment m 0 0 = κ * sliceSum ps (fun x w => x ^ 2 * (Real.pi * w)) ∧
      secondMoment m 1 1 + secondMoment m 2 2 = κ * polarRatio (2 * Real.pi / (4 * n : ℕ)) * bodyAxial ps := by
  intro m ps κ
  refine ⟨?_, ?_, ?_, ?_⟩
  · have := stack_exact coneCell_volume fs hz he n hn
    rw [signedVolume_sum, this, mul_one]
    simp [bodyVolume, κ, ps]
  · have := stack_exact coneCell_moment fs hz he n hn
    rw [show (firstMoment m).x = co (firstMoment m) 0 from rfl, firstMoment_sum, this, mul_one]
    congr 2
    funext x w
    ring
  · have := stack_exact coneCell_second fs hz he n hn
    rw [secondMoment_sum, this, mul_one]
    congr 2
    funext x w
    ring
  · have := stack_exact coneCell_radial fs hz he n hn
    rw [secondMoment_sum, secondMoment_sum, ← meshSum_add, this]
    unfold bodyAxial
    congr 2
    funext x w
    ring

theorem chordPieces_smooth (fs : List (ℝ → V)) (n : ℕ) : ∀ p ∈ chordPieces fs n, SmoothPiece p := by
  intro p hp
  simp only [chordPieces, List.mem_flatMap, List.mem_map] at hp
  obtain ⟨f, -, s, -, rfl⟩ := hp
  exact line_piece _ _

theorem polyArea_pos (n : ℕ) (hn : 1 ≤ n) : 0 < polyArea n := by
  have h1 : (1 : ℝ) ≤ n := by exact_mod_cast hn
  refine mul_pos (by positivity) (Real.sin_pos_of_pos_of_lt_pi (by have := Real.pi_pos; positivity) ?_)
  rw [div_lt_iff₀ (by positivity)]
  push_cast
  nlinarith [Real.pi_pos]

namespace Spec

/-- What is reported, from the solid swept by curves: with `κ` and `κ'`, the ratios of the areas and of the polar moments of polygon and disc. -/
structure PolygonBody (q : MassProps) (ps : List ((ℝ → V) × (ℝ → V))) (ρ κ κ' : ℝ) : Prop where
  volume : q.volume = κ * bodyVolume ps
  mass : q.mass = ρ * (κ * bodyVolume ps)
  cog : q.cog = ⟨bodyCentre ps, 0, 0⟩
  axial : q.moi 0 0 = ρ * (κ' * bodyAxial ps)
  transverse : q.moi 1 1 = ρ * (κ' * (bodyAxial ps / 2) + κ * sliceSum ps fun x w => (x - bodyCentre ps) ^ 2 * (Real.pi * w)) ∧ q.moi 2 2 = q.moi 1 1
  products : ∀ i j, i ≠ j → q.moi i j = 0

end Spec

theorem body_exact (lib : Lib) (hl : NumpyStlInertia lib) (fs : List (ℝ → V)) (hz : ∀ f ∈ fs, ∀ t, 0 ≤ t → t ≤ 1 → (f t).z = 0) (he : EndsMeet fs) (n : ℕ)
    (hn : 1 ≤ n) (hv : bodyVolume (chordPieces fs n) ≠ 0) (ρ : ℝ) (M : StlMesh) (hM : M.tris = ((allGrids n fs).map (gridMesh MeshArith.real false n n)).flatten)
    (q : MassProps) (hq : lib.massProps M ρ = .ok q) :
    PolygonBody q (chordPieces fs n) ρ (polyArea n / Real.pi) (polyArea n / Real.pi * polarRatio (2 * Real.pi / (4 * n : ℕ))) := by
  obtain ⟨l1, l2, l3, l4⟩ := stack_exact_quantities fs hz he n hn
  rw [← hM] at l1 l2 l3 l4
  have hκ : polyArea n / Real.pi ≠ 0 := (div_pos (polyArea_pos n hn) Real.pi_pos).ne'
  have hcl : Closed M.tris := by rw [hM]; exact allGrids_closed n hn _ he
  have hsy : TurnSymmetric M.tris := by rw [hM]; exact allGrids_symmetric n _
  have h0 : signedVolume M.tris ≠ 0 := by rw [l1]; exact mul_ne_zero hκ hv
  obtain ⟨q1, q2, q3⟩ := C111_component lib hl.toNumpyStl M hcl ρ q hq
  obtain ⟨s1, s2, s3, s4⟩ := C128_component lib hl M hcl hsy ρ q hq h0
  have hmoi := C128_inertia lib hl M hcl ρ q hq h0
  obtain ⟨y0, z0⟩ := centroid_symmetric hsy
  have hS := (secondMoment_symmetric hsy).1
  have hcx : (centroid M.tris).x = bodyCentre (chordPieces fs n) := by
    show (firstMoment M.tris).x * (1 / _) = _
    rw [l1, l2]
    unfold bodyCentre
    rw [mul_one_div, mul_div_mul_left _ _ hκ]
  refine ⟨by rw [q1, l1], by rw [q2, l1], ?_, ?_, ⟨?_, s3.symm⟩, s4⟩
  · rw [q3 h0]
    ext
    · exact hcx
    · exact y0
    · exact z0
  · have : q.moi 0 0 = ρ * (secondMoment M.tris 1 1 + secondMoment M.tris 2 2) := by
      rw [hmoi, inertiaOf]
      simp only [if_true, coord, Matrix.cons_val_zero, y0, z0]
      ring
    rw [this, l4]
  · have : q.moi 1 1 = ρ * ((secondMoment M.tris 1 1 + secondMoment M.tris 2 2) / 2 + (secondMoment M.tris 0 0 -
        signedVolume M.tris * bodyCentre (chordPieces fs n) ^ 2)) := by
      rw [hmoi, inertiaOf, ← hcx]
      simp only [if_true, coord, Matrix.cons_val_one, Matrix.cons_val_zero, y0, z0]
      rw [hS]
      ring
    rw [this, l4, l3, l1, slice_steiner _ (chordPieces_smooth fs n) hv]
    ring

/-- C164: whatever planar curves are revolved, if their ends away from the axis meet, then at every resolution `n` the values reported are exactly those of the solid of
revolution of the chords, but for two factors: the cross sections are regular polygons with `4 n` corners instead of discs. -/
theorem C164_composite (lib : Lib) (hl : NumpyStlInertia lib) (h : Heap) (id : ℕ) (ids : List ℕ) (lines : List PathObj) (fs : List (ℝ → V)) (hn : ids.Nodup)
    (hid : id ∉ ids) (hne : ids ≠ []) (hg : (h id).gen = .composite ids) (hc : List.Forall₂ (fun k line => NewRevolved (h k) line) ids lines)
    (hf : List.Forall₂ (fun (line : PathObj) (f : ℝ → V) => ∀ t, 0 ≤ t → t ≤ 1 → line.call t = .ok (f t)) lines fs)
    (n : ℕ) (hn1 : 1 ≤ n) (hres : (h id).stl_resolution = .int n) (hm : (h id).mesh_ = none) (hs : (h id).surfaces = none) (hcl : (h id).clustering = {})
    (hz : ∀ f ∈ fs, ∀ t, 0 ≤ t → t ≤ 1 → (f t).z = 0) (he : EndsMeet fs) (hv : bodyVolume (chordPieces fs n) ≠ 0) (ρ : ℝ) :
    ∃ h' M c', generatePatches h id = (.ok (), h') ∧ (h' id).mesh = (.ok M, c') ∧ ∀ q, lib.massProps M ρ = .ok q →
      PolygonBody q (chordPieces fs n) ρ (polyArea n / Real.pi) (polyArea n / Real.pi * polarRatio (2 * Real.pi / (4 * n : ℕ))) := by
  obtain ⟨h', M, c', g1, g2, -, g3⟩ := revolved_composite_mesh h id ids lines fs hn hid hne hg hc hf n hn1 hres hm hs hcl
  exact ⟨h', M, c', g1, g2, fun q hq => body_exact lib hl fs hz he n hn1 hv ρ M g3 q hq⟩

/-- C164 for a single curve from the axis to the axis. -/
theorem C164_revolved (lib : Lib) (hl : NumpyStlInertia lib) (line : PathObj) (f : ℝ → V) (hc : ∀ t, 0 ≤ t → t ≤ 1 → line.call t = .ok (f t))
    (hz : ∀ t, 0 ≤ t → t ≤ 1 → (f t).z = 0) (h0 : (f 0).y = 0) (h1 : (f 1).y = 0) (n : ℕ) (hn : 1 ≤ n) (hv : bodyVolume (chordPieces [f] n) ≠ 0) (ρ : ℝ)
    (name : Option String) (h : Heap) (id : ℕ) (hid : h id = RevolvedComponent line n name) :
    ∃ h' M c', generatePatches h id = (.ok (), h') ∧ (h' id).mesh = (.ok M, c') ∧ ∀ q, lib.massProps M ρ = .ok q →
      PolygonBody q (chordPieces [f] n) ρ (polyArea n / Real.pi) (polyArea n / Real.pi * polarRatio (2 * Real.pi / (4 * n : ℕ))) := by
  have he : EndsMeet [f] := by simp [EndsMeet, h0, h1, hz 0 le_rfl zero_le_one, hz 1 zero_le_one le_rfl]
  obtain ⟨h', M, c', g1, g2, g3⟩ := revolved_mesh line f hc n hn name h id hid
  exact ⟨h', M, c', g1, g2, fun q hq => body_exact lib hl [f] (by simpa using hz) he n hn hv ρ M (by rw [g3]; simp [allGrids]) q hq⟩

/-! ## Straight lines -/

/-- The pieces of straight lines. -/
noncomputable def Spec.linePieces (segs : List (V × V)) : List ((ℝ → V) × (ℝ → V)) := segs.map fun s => (lineAt s.1 s.2, fun _ => s.2 - s.1)

theorem slice_chords (a b : V) (n : ℕ) (hn : 1 ≤ n) (G : ℝ → ℝ → ℝ) (hG : Continuous fun z : ℝ × ℝ => G z.1 z.2) :
    ((chords (lineAt a b) n).map fun s => ∫ t in (0 : ℝ)..1, G (lineAt s.1 s.2 t).x ((lineAt s.1 s.2 t).y ^ 2 + (lineAt s.1 s.2 t).z ^ 2) * (s.2 - s.1).x).sum =
      ∫ t in (0 : ℝ)..1, G (lineAt a b t).x ((lineAt a b t).y ^ 2 + (lineAt a b t).z ^ 2) * (b - a).x := by
  have hnp : (0 : ℝ) < n := by positivity
  have hn0 : (n : ℝ) ≠ 0 := hnp.ne'
  set F : ℝ → ℝ := fun t => G (lineAt a b t).x ((lineAt a b t).y ^ 2 + (lineAt a b t).z ^ 2) * (b - a).x with hF
  have hcont : Continuous F := by
    have hx : Continuous fun t => (lineAt a b t).x := by simp only [lineAt, Vec.add_x, Vec.mul_x]; fun_prop
    have hy : Continuous fun t => (lineAt a b t).y ^ 2 + (lineAt a b t).z ^ 2 := by simp only [lineAt, Vec.add_y, Vec.mul_y, Vec.add_z, Vec.mul_z]; fun_prop
    exact (hG.comp (hx.prodMk hy)).mul continuous_const
  have hsub : ∀ (i : ℕ) (t : ℝ), lineAt (lineAt a b ((i : ℝ) / n)) (lineAt a b (((i + 1 : ℕ) : ℝ) / n)) t = lineAt a b (1 / n * t + (i : ℝ) / n) := by
    intro i t
    ext <;> simp [lineAt] <;> field_simp <;> ring
  have hdx : ∀ i : ℕ, (lineAt a b (((i + 1 : ℕ) : ℝ) / n) - lineAt a b ((i : ℝ) / n)).x = 1 / n * (b - a).x := by
    intro i
    simp [lineAt]
    field_simp
    ring
  unfold chords
  rw [List.map_map, sum_map_range]
  have cell : ∀ i ∈ Finset.range n, ((fun s : V × V => ∫ t in (0 : ℝ)..1, G (lineAt s.1 s.2 t).x ((lineAt s.1 s.2 t).y ^ 2 + (lineAt s.1 s.2 t).z ^ 2) * (s.2 - s.1).x) ∘
      fun (i : ℕ) => (lineAt a b ((i : ℝ) / n), lineAt a b (((i + 1 : ℕ) : ℝ) / n))) i = ∫ t in ((i : ℝ) / n)..(((i + 1 : ℕ) : ℝ) / n), F t := by
    intro i _
    simp only [Function.comp_def, hsub, hdx]
    have e : ∀ t : ℝ, G (lineAt a b (1 / n * t + (i : ℝ) / n)).x ((lineAt a b (1 / n * t + (i : ℝ) / n)).y ^ 2 + (lineAt a b (1 / n * t + (i : ℝ) / n)).z ^ 2) *
        (1 / n * (b - a).x) = 1 / n * F (1 / n * t + (i : ℝ) / n) := fun t => by simp only [hF]; ring
    simp only [e, intervalIntegral.integral_const_mul]
    rw [intervalIntegral.mul_integral_comp_mul_add]
    congr 1 <;> push_cast <;> ring
  rw [Finset.sum_congr rfl cell, intervalIntegral.sum_integral_adjacent_intervals fun i _ => hcont.intervalIntegrable _ _]
  simp [hn0]

theorem slice_straight (segs : List (V × V)) (n : ℕ) (hn : 1 ≤ n) (G : ℝ → ℝ → ℝ) (hG : Continuous fun z : ℝ × ℝ => G z.1 z.2) :
    sliceSum (chordPieces (segs.map fun s => lineAt s.1 s.2) n) G = sliceSum (linePieces segs) G := by
  unfold chordPieces sliceSum linePieces
  induction segs with
  | nil => rfl
  | cons s segs ih =>
    rw [List.map_cons, List.flatMap_cons, List.map_append, List.sum_append, ih, List.map_cons, List.map_cons, List.sum_cons, ← slice_chords s.1 s.2 n hn G hG, List.map_map]
    rfl

theorem endToEnd_meet (fs : List (ℝ → V)) (p q : V) (h : EndToEnd p fs q) (hp : p.y = 0 ∧ p.z = 0) (hq : q.y = 0 ∧ q.z = 0) : EndsMeet fs := by
  have key : ∀ (l : List (ℝ → V)) (p : V), EndToEnd p l q → (p :: l.map (· 1)).Perm (l.map (· 0) ++ [q]) := by
    intro l
    induction l with
    | nil => intro p h; cases h; exact List.Perm.refl _
    | cons f l ih =>
      rintro p ⟨h0, h1⟩
      rw [List.map_cons, List.map_cons, h0, List.cons_append]
      exact (ih _ h1).cons p
  have := (key fs p h).filter fun v : V => ¬ (v.y = 0 ∧ v.z = 0)
  unfold EndsMeet
  simpa [List.filter_append, List.filter_cons, hp, hq] using this

/-- C164 for bodies of straight lines: there is no error from the chords.  So the reported centre of gravity is exactly that of the body, at every resolution; volume, mass
and moments of inertia differ from those of the body by the ratios of polygon and disc alone. -/
theorem C164_straight (lib : Lib) (hl : NumpyStlInertia lib) (h : Heap) (id : ℕ) (ids : List ℕ) (segs : List (V × V)) (n : ℕ) (hb : StraightBody h id ids segs n)
    (hv : bodyVolume (linePieces segs) ≠ 0) (ρ : ℝ) :
    ∃ h' M c', generatePatches h id = (.ok (), h') ∧ (h' id).mesh = (.ok M, c') ∧ ∀ q, lib.massProps M ρ = .ok q →
      PolygonBody q (linePieces segs) ρ (polyArea n / Real.pi) (polyArea n / Real.pi * polarRatio (2 * Real.pi / (4 * n : ℕ))) := by
  have hc : List.Forall₂ (fun k line => NewRevolved (h k) line) ids (segs.map fun s => Line s.1 s.2) := by
    rw [List.forall₂_map_right_iff]; exact hb.parts
  have hf : List.Forall₂ (fun (line : PathObj) (f : ℝ → V) => ∀ t, 0 ≤ t → t ≤ 1 → line.call t = .ok (f t))
      (segs.map fun s => Line s.1 s.2) (segs.map fun s => lineAt s.1 s.2) := by
    rw [List.forall₂_map_left_iff, List.forall₂_map_right_iff, List.forall₂_same]
    exact fun s _ t _ _ => rfl
  obtain ⟨x0, x1, he⟩ := hb.ends
  have sl := slice_straight segs n hb.pos
  have v : bodyVolume (chordPieces (segs.map fun s => lineAt s.1 s.2) n) = bodyVolume (linePieces segs) := sl _ (by fun_prop)
  have m : bodyCentre (chordPieces (segs.map fun s => lineAt s.1 s.2) n) = bodyCentre (linePieces segs) := by
    unfold bodyCentre
    rw [v, sl _ (by fun_prop)]
  have ax : bodyAxial (chordPieces (segs.map fun s => lineAt s.1 s.2) n) = bodyAxial (linePieces segs) := sl _ (by fun_prop)
  obtain ⟨h', M, c', g1, g2, g3⟩ := C164_composite lib hl h id ids _ _ hb.nodup hb.notin hb.nonempty hb.gen hc hf n hb.pos hb.res hb.mesh hb.surf hb.clust (by
      intro f hf t _ _
      obtain ⟨s, hs, rfl⟩ := List.mem_map.1 hf
      have := hb.plane s hs
      simp [lineAt, this.1, this.2]) (endToEnd_meet _ _ _ he ⟨rfl, rfl⟩ ⟨rfl, rfl⟩) (by rw [v]; exact hv) ρ
  refine ⟨h', M, c', g1, g2, fun q hq => ?_⟩
  obtain ⟨p1, p2, p3, p4, p5, p6⟩ := g3 q hq
  rw [v] at p1 p2
  rw [m] at p3 p5
  rw [ax] at p4 p5
  rw [sl _ (by fun_prop)] at p5
  exact ⟨p1, p2, p3, p4, p5, p6⟩

/-- C164, the size of the two ratios: both are below 1, the first lacks at most the fraction `π² / (24 n²)`, the second at most twice that. -/
theorem C164_ratios (n : ℕ) (hn : 1 ≤ n) : let κ := polyArea n / Real.pi; let κ' := κ * polarRatio (2 * Real.pi / (4 * n : ℕ))
    0 < κ ∧ κ < 1 ∧ 0 < κ' ∧ κ' < κ ∧ 1 - Real.pi ^ 2 / (24 * n ^ 2) < κ ∧ 1 - Real.pi ^ 2 / (12 * n ^ 2) < κ' := by
  intro κ κ'
  have hp := Real.pi_pos
  have h1 : (1 : ℝ) ≤ n := by exact_mod_cast hn
  have k0 : 0 < κ := div_pos (polyArea_pos n hn) hp
  have k1 : κ < 1 := (div_lt_one hp).2 (polyArea_lt n hn)
  have k2 : 1 - Real.pi ^ 2 / (24 * n ^ 2) < κ := by
    show _ < polyArea n / Real.pi
    rw [lt_div_iff₀ hp, mul_comm]
    exact polyArea_gt n hn
  set δ : ℝ := 2 * Real.pi / (4 * n : ℕ) with hδ
  have hδe : δ = Real.pi / (2 * n) := by rw [hδ]; push_cast; field_simp; norm_num
  have hδ0 : 0 < δ := by rw [hδe]; positivity
  have hδ1 : δ ≤ Real.pi / 2 := by
    rw [hδe]
    exact div_le_div_of_nonneg_left hp.le (by norm_num) (by linarith)
  have c0 : 0 ≤ Real.cos δ := Real.cos_nonneg_of_neg_pi_div_two_le_of_le (by linarith) hδ1
  have c1 : Real.cos δ < 1 := by
    have := Real.cos_lt_cos_of_nonneg_of_le_pi_div_two le_rfl hδ1 hδ0
    rwa [Real.cos_zero] at this
  have c2 : 1 - δ ^ 2 / 2 ≤ Real.cos δ := Real.one_sub_sq_div_two_le_cos
  have r0 : 0 < polarRatio δ := by unfold polarRatio; linarith
  have r1 : polarRatio δ < 1 := by unfold polarRatio; linarith
  have hsq : δ ^ 2 / 6 = Real.pi ^ 2 / (24 * n ^ 2) := by rw [hδe]; field_simp; norm_num
  have r2 : 1 - Real.pi ^ 2 / (24 * n ^ 2) ≤ polarRatio δ := by rw [← hsq]; unfold polarRatio; linarith
  refine ⟨k0, k1, mul_pos k0 r0, ?_, k2, ?_⟩
  · show κ * polarRatio δ < κ
    nlinarith
  · show _ < κ * polarRatio δ
    have e : Real.pi ^ 2 / (12 * (n : ℝ) ^ 2) = 2 * (Real.pi ^ 2 / (24 * n ^ 2)) := by field_simp; norm_num
    rw [e]
    nlinarith

/-- The hypotheses of `C164_straight` are met by the cone of length 3 and radius 1 with its base: at resolution 8 the reported centre of gravity is exactly `9/4`. -/
example (ρ : ℝ) : ∃ h' M c', generatePatches coneHeap 0 = (.ok (), h') ∧ (h' 0).mesh = (.ok M, c') ∧ ∀ q, numpyStlFull.massProps M ρ = .ok q → q.cog = ⟨9 / 4, 0, 0⟩ := by
  have e : linePieces [(⟨0, 0, 0⟩, ⟨3, 1, 0⟩), (⟨3, 1, 0⟩, ⟨3, 0, 0⟩)] = conePieces 3 1 := rfl
  obtain ⟨hv, hc, -, -⟩ := C163_cone 3 1 (by norm_num) (by norm_num)
  obtain ⟨h', M, c', g1, g2, g3⟩ := C164_straight numpyStlFull numpyStlFull_ok coneHeap 0 [1, 2] [(⟨0, 0, 0⟩, ⟨3, 1, 0⟩), (⟨3, 1, 0⟩, ⟨3, 0, 0⟩)] 8
    { nodup := by decide
      notin := by decide
      nonempty := by decide
      gen := rfl
      parts := .cons ⟨rfl, rfl⟩ (.cons ⟨rfl, rfl⟩ .nil)
      plane := by simp
      ends := ⟨0, 3, by simp [EndToEnd, lineAt]; refine ⟨?_, ?_, ?_⟩ <;> ext <;> simp⟩
      res := rfl
      pos := by decide
      mesh := rfl
      surf := rfl
      clust := rfl } (by rw [e, hv]; positivity) ρ
  refine ⟨h', M, c', g1, g2, fun q hq => ?_⟩
  rw [(g3 q hq).cog, e, hc]
  norm_num

end HV
