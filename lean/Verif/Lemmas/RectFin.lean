import Verif.Props.FinRect
import Verif.Lemmas.GluedFin

/-!
# Rectangular fins of every size
-/

namespace HV
open Spec

/-! ## Flat Coons patches -/

/-- A Coons patch whose edges lie in a plane of constant `x` lies in that plane. -/
theorem coons_plane {n e s w : PathObj} {F : Surf} {c : ℝ} (hF : CoonsPatch n e s w = .ok F) (hn : ∀ t p, n.call t = .ok p → p.x = c)
    (he : ∀ t p, e.call t = .ok p → p.x = c) (hs : ∀ t p, s.call t = .ok p → p.x = c) (hw : ∀ t p, w.call t = .ok p → p.x = c)
    {u v : ℝ} {p : V} (hp : F u v = .ok p) : p.x = c := by
  unfold CoonsPatch at hF
  obtain ⟨k, hk, hF⟩ := bind_ok.1 hF
  have hF := pure_ok.1 hF
  subst hF
  rw [Coons.ofEdges_ok_iff] at hk
  obtain ⟨s0, s1, n0, n1, w0, w1, e0, e1, a1, a2, a3, a4, a5, a6, a7, a8, -, -, -, -, rfl⟩ := hk
  unfold Coons.call at hp
  obtain ⟨x1, b1, hp⟩ := bind_ok.1 hp
  obtain ⟨x2, b2, hp⟩ := bind_ok.1 hp
  obtain ⟨x3, b3, hp⟩ := bind_ok.1 hp
  obtain ⟨x4, b4, hp⟩ := bind_ok.1 hp
  have hp := pure_ok.1 hp
  subst hp
  simp only [Coons.blend, Vec.add_x, Vec.sub_x, Vec.mul_x, hs _ _ a1, hs _ _ a2, hn _ _ a3, hn _ _ a4, hs _ _ b1, hn _ _ b2, hw _ _ b3, he _ _ b4]
  ring

section
variable {ptan : ℝ → ℝ} {a : Fin.Args} {wmin : ℝ} {o : V}

/-- The elliptical patch of the bottom face is flat. -/
theorem bottom_plane (h : UniformFin ptan a wmin o) {e : String × Surf} {l : List (String × Surf)} (hl : Fin.bottom ptan a = .ok (e :: l))
    {u v : ℝ} {p : V} (hp : e.2 u v = .ok p) : p.y = a.p3.y := by
  have z1 : (1 : ℝ) ∈ Set.Icc (0 : ℝ) 1 := ⟨zero_le_one, le_rfl⟩
  obtain ⟨et, eb, e1, e2, v1, v2, k, c1, c2, c3, c4, g1, g2⟩ := fin_tips h a.p3 z1
  have hr := h.rim
  have hgap := hr.gap_nonneg
  have z : ∀ {u v : V}, u = v → vdist u v ≤ poleGap ptan (a.fin_thickness / 2) wmin := fun h => by rw [h, vdist_self]; exact hgap
  obtain ⟨F, G, hF, vF, -⟩ := coons_near (Line a.p3 (a.p3 + Fin.half a)) eb et (Line (a.p3 - Fin.half a) a.p3) _ _ _ _
    (fun _ => rfl) v2 v1 (fun _ => rfl) (by rw [lineAt_zero]; exact c1) (by rw [k]; exact cornerClose_refl _)
    (by rw [lineAt_zero, lineAt_one]; exact cornerClose_refl _) (by rw [lineAt_one]; exact c4) _
    (by rw [lineAt_zero]; exact g1) (z k) (z (by rw [lineAt_zero, lineAt_one])) (by rw [lineAt_one, vdist_comm]; exact g2)
  unfold Fin.bottom at hl
  simp only [h.tt, h.tb, hr.width_ok z1, ok_bind, e1, e2, hF] at hl
  obtain ⟨B1, -, hl⟩ := bind_ok.1 hl
  obtain ⟨B2, -, hl⟩ := bind_ok.1 hl
  have hl := pure_ok.1 hl
  obtain ⟨rfl, -⟩ := List.cons.inj hl
  have hx : (G u v).x = a.p3.x := coons_plane hF
    (by intro t p hp; cases hp; simp [lineAt, Fin.half]; ring)
    (by intro t p hp; rw [v2] at hp; cases hp; simp [ellArc, ellRaw])
    (by intro t p hp; rw [v1] at hp; cases hp; simp [ellArc, ellRaw])
    (by intro t p hp; cases hp; simp [lineAt, Fin.half]; ring) (vF u v)
  have := RotatedPatch_eq F (-90 * Real.pi / 180) "z" .z a.p3 ((namesAxis_iff _ 2).1 (.inl rfl)) u v _ (vF _ _)
  simp only at hp
  rw [this] at hp
  cases hp
  have ang : -90 * Real.pi / 180 = -(Real.pi / 2) := by ring
  simp only [rotAbout, ang, Real.cos_neg, Real.sin_neg, Real.cos_pi_div_two, Real.sin_pi_div_two]
  simp [hx]

/-- The elliptical patch of the flat trailing edge is flat. -/
theorem flat_plane (h : UniformFin ptan a wmin o) {e : String × Surf} {l : List (String × Surf)} (hl : Fin.flatTE ptan a = .ok (e :: l))
    {u v : ℝ} {p : V} (hp : e.2 u v = .ok p) : p.x = a.p1.x := by
  have z0 : (0 : ℝ) ∈ Set.Icc (0 : ℝ) 1 := ⟨le_rfl, zero_le_one⟩
  obtain ⟨et, eb, e1, e2, v1, v2, -⟩ := fin_tips h a.p1 z0
  have hr := h.rim
  unfold Fin.flatTE at hl
  simp only [h.tt, h.tb, hr.width_ok z0, ok_bind, e1, e2] at hl
  obtain ⟨F, hF, hl⟩ := bind_ok.1 hl
  obtain ⟨B1, -, hl⟩ := bind_ok.1 hl
  obtain ⟨B2, -, hl⟩ := bind_ok.1 hl
  have hl := pure_ok.1 hl
  obtain ⟨rfl, -⟩ := List.cons.inj hl
  exact coons_plane hF
    (by intro t p hp; cases hp; simp [lineAt, Fin.half]; ring)
    (by intro t p hp; simp only [SubRangedPath] at hp; rw [v1] at hp; cases hp; simp [ellArc, ellRaw])
    (by intro t p hp; simp only [SubRangedPath] at hp; rw [v2] at hp; cases hp; simp [ellArc, ellRaw])
    (by intro t p hp; cases hp; simp [lineAt, Fin.half]; ring) hp

end

/-! ## Edges of grids -/

/-- The edges of a grid run round its cells, or to and from their centres. -/
theorem grid_edges {n : ℕ} {P : ℕ → ℕ → V} {e : V × V} (he : e ∈ edges (gridMesh MeshArith.real false n n P)) :
    ∃ i < n, ∃ j < n, e = (P i j, P (i + 1) j) ∨ e = (P (i + 1) j, P (i + 1) (j + 1)) ∨ e = (P (i + 1) (j + 1), P i (j + 1)) ∨
      e = (P i (j + 1), P i j) ∨ e.1 = cellCentre MeshArith.real (P i j) (P (i + 1) j) (P i (j + 1)) (P (i + 1) (j + 1)) ∨
      e.2 = cellCentre MeshArith.real (P i j) (P (i + 1) j) (P i (j + 1)) (P (i + 1) (j + 1)) ∧ ∃ i' ≤ n, ∃ j' ≤ n, e.1 = P i' j' := by
  simp only [edges, List.mem_flatMap] at he
  obtain ⟨t, ht, he⟩ := he
  obtain ⟨i, hi, j, hj, ht⟩ := mem_cell_of_gridMesh ht
  refine ⟨i, hi, j, hj, ?_⟩
  have h1 : i ≤ n := hi.le
  have h2 : i + 1 ≤ n := hi
  have h3 : j ≤ n := hj.le
  have h4 : j + 1 ≤ n := hj
  simp only [cellTris, meshVertex_real, List.mem_cons, List.not_mem_nil, or_false] at ht
  rcases ht with rfl | rfl | rfl | rfl <;> simp only [triEdges, List.mem_cons, List.not_mem_nil, or_false] at he <;>
    rcases he with rfl | rfl | rfl
  · exact .inl rfl
  · exact .inr (.inr (.inr (.inr (.inr ⟨rfl, _, h2, _, h3, rfl⟩))))
  · exact .inr (.inr (.inr (.inr (.inl rfl))))
  · exact .inr (.inl rfl)
  · exact .inr (.inr (.inr (.inr (.inr ⟨rfl, _, h2, _, h4, rfl⟩))))
  · exact .inr (.inr (.inr (.inr (.inl rfl))))
  · exact .inr (.inr (.inl rfl))
  · exact .inr (.inr (.inr (.inr (.inr ⟨rfl, _, h1, _, h4, rfl⟩))))
  · exact .inr (.inr (.inr (.inr (.inl rfl))))
  · exact .inr (.inr (.inr (.inl rfl)))
  · exact .inr (.inr (.inr (.inr (.inr ⟨rfl, _, h1, _, h3, rfl⟩))))
  · exact .inr (.inr (.inr (.inr (.inl rfl))))

/-- The start of every edge of a grid satisfies what its points and the centres of its cells satisfy. -/
theorem grid_starts {n : ℕ} {P : ℕ → ℕ → V} {C : V → Prop} (hP : ∀ i ≤ n, ∀ j ≤ n, C (P i j))
    (hC : ∀ i < n, ∀ j < n, C (cellCentre MeshArith.real (P i j) (P (i + 1) j) (P i (j + 1)) (P (i + 1) (j + 1)))) {e : V × V}
    (he : e ∈ edges (gridMesh MeshArith.real false n n P)) : C e.1 := by
  obtain ⟨i, hi, j, hj, h⟩ := grid_edges he
  rcases h with rfl | rfl | rfl | rfl | h | ⟨-, i', hi', j', hj', h⟩
  · exact hP _ hi.le _ hj.le
  · exact hP _ hi _ hj.le
  · exact hP _ hi _ hj
  · exact hP _ hi.le _ hj
  · rw [h]; exact hC i hi j hj
  · rw [h]; exact hP _ hi' _ hj'

/-- A grid of points in the half space or plane given by a convex condition. -/
theorem grid_convex {n : ℕ} {P : ℕ → ℕ → V} {C : V → Prop} (hP : ∀ i ≤ n, ∀ j ≤ n, C (P i j))
    (hC : ∀ p q r s : V, C p → C q → C r → C s → C (cellCentre MeshArith.real p q r s)) {e : V × V}
    (he : e ∈ edges (gridMesh MeshArith.real false n n P)) : C e.1 :=
  grid_starts hP (fun i hi j hj => hC _ _ _ _ (hP i hi.le j hj.le) (hP _ hi j hj.le) (hP i hi.le _ hj) (hP _ hi _ hj)) he

theorem finMove_centre (a : Fin.Args) (o p q r s : V) :
    cellCentre MeshArith.real (finMove a o p) (finMove a o q) (finMove a o r) (finMove a o s) = finMove a o (cellCentre MeshArith.real p q r s) := by
  simp only [cellCentre, MeshArith.real, finMove, rotAbout]
  ext <;> simp <;> ring

theorem finMove_grid (a : Fin.Args) (o : V) (n : ℕ) (P : ℕ → ℕ → V) :
    gridMesh MeshArith.real false n n (fun i j => finMove a o (P i j)) = mapVerts (finMove a o) (gridMesh MeshArith.real false n n P) := by
  simp only [gridMesh, mapVerts, List.map_flatten, List.map_map, Function.comp_def, cellTris, meshVertex_real, finMove_centre, List.map_cons,
    List.map_nil]

/-- The broken line of a rectangle. -/
theorem Broken.rect_x {p1 p2 p3 : V} {PL : ℝ → V} (hb : Broken p1 p2 p3 PL) {ℓ H : ℝ} (hℓ : 0 < ℓ) (hH : 0 < H) (e2 : p2 = p1 + ⟨ℓ, 0, 0⟩)
    (e3 : p3 = p2 - ⟨0, H, 0⟩) {t : ℝ} (ht : t ∈ Set.Icc (0 : ℝ) 1) : (PL t).x = p1.x + min (t * (ℓ + H)) ℓ := by
  have d12 : vdist p1 p2 = ℓ := by
    have := vdist_sq p1 p2
    rw [e2] at this ⊢
    simp only [Vec.add_x, Vec.add_y, Vec.add_z, add_zero, sub_self] at this
    exact (sq_eq_sq₀ (vdist_nonneg _ _) hℓ.le).1 (by rw [this]; ring)
  have d23 : vdist p2 p3 = H := by
    have := vdist_sq p2 p3
    rw [e3] at this ⊢
    simp only [Vec.sub_x, Vec.sub_y, Vec.sub_z, sub_zero, sub_self] at this
    exact (sq_eq_sq₀ (vdist_nonneg _ _) hH.le).1 (by rw [this]; ring)
  have hβ : breakAt p1 p2 p3 = ℓ / (ℓ + H) := by unfold breakAt brokenLength; rw [d12, d23]
  have hs : 0 < ℓ + H := by linarith
  by_cases hle : t * (ℓ + H) ≤ ℓ
  · have h0 : 0 ≤ t * (ℓ + H) / ℓ := div_nonneg (mul_nonneg ht.1 hs.le) hℓ.le
    have := hb.first (t * (ℓ + H) / ℓ) h0 ((div_le_one hℓ).2 hle)
    rw [hβ, show ℓ / (ℓ + H) * (t * (ℓ + H) / ℓ) = t by field_simp] at this
    rw [this, min_eq_left hle, e2]
    simp only [lineAt, Vec.add_x, Vec.mul_x]
    field_simp
    ring
  · push Not at hle
    have h0 : 0 ≤ (1 - t) * (ℓ + H) / H := div_nonneg (mul_nonneg (by linarith [ht.2]) hs.le) hH.le
    have := hb.second ((1 - t) * (ℓ + H) / H) h0 ((div_le_one hH).2 (by nlinarith))
    rw [hβ, show 1 - (1 - ℓ / (ℓ + H)) * ((1 - t) * (ℓ + H) / H) = t by field_simp; ring] at this
    rw [this, min_eq_right hle.le, e3, e2]
    simp only [lineAt, Vec.add_x, Vec.mul_x, Vec.sub_x]
    ring

end HV
