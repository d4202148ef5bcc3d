import Verif.Props.MovedMass
import Verif.Lemmas.MeshVertex
import Verif.Props.PassCheck
import Verif.Props.MirrorWedge

/-!
# C166: the mass properties reported are those of a possible body
-/

namespace HV
open Spec Veh

namespace Spec

/-- Seen from the point `c`, every triangle shows the same side, its back if `s = 1` and its front if `s = -1`, and not all of them are seen
edge-on.  (With `s = 1` the mesh bounds a body that is star-shaped about `c`, with `s = -1` such a body turned inside out.) -/
def StarShaped (s : ℝ) (c : V) (m : TriMesh ℝ) : Prop :=
  (∀ t ∈ m, 0 ≤ s * det3 (t.v0 - c) (t.v1 - c) (t.v2 - c)) ∧ ∃ t ∈ m, 0 < s * det3 (t.v0 - c) (t.v1 - c) (t.v2 - c)

/-- The value of the quadratic form `I` at `u`. -/
def form (I : Fin 3 → Fin 3 → ℝ) (u : Fin 3 → ℝ) : ℝ := ∑ i, ∑ j, u i * u j * I i j

/-- The tensor of inertia of some body that is not contained in a plane: symmetric, the moment about every axis is positive, and smaller than
the sum of the moments about two axes orthogonal to it (the sum of all three is the trace). -/
def IsInertia (I : Fin 3 → Fin 3 → ℝ) : Prop :=
  (∀ i j, I i j = I j i) ∧ ∀ u : Fin 3 → ℝ, u ≠ 0 → 0 < form I u ∧ 2 * form I u < (∑ i, I i i) * ∑ i, u i ^ 2

/-- The point is in the interior of the convex hull of the vertices: beyond it there is a vertex in every direction. -/
def InsideHull (m : TriMesh ℝ) (p : V) : Prop := ∀ u : V, u ≠ ⟨0, 0, 0⟩ → ∃ v, IsVertex v m ∧ u.dot p < u.dot v

/-- The mass properties of a possible body with the given mesh. -/
structure Possible (m : TriMesh ℝ) (q : MassProps) : Prop where
  volume : 0 < q.volume
  mass : 0 < q.mass
  cog : InsideHull m q.cog
  moi : IsInertia q.moi

end Spec

/-! ## Quadratic forms -/

/-- The function with the given coefficients. -/
def lin (u : Fin 3 → ℝ) (v : V) : ℝ := u 0 * v.x + u 1 * v.y + u 2 * v.z

theorem form_second (m : TriMesh ℝ) (u : Fin 3 → ℝ) : form (secondMoment m) u = (m.map fun t => det3 t.v0 t.v1 t.v2 / 6 / 20 *
    (lin u t.v0 ^ 2 + lin u t.v1 ^ 2 + lin u t.v2 ^ 2 + (lin u t.v0 + lin u t.v1 + lin u t.v2) ^ 2)).sum := by
  induction m with
  | nil => simp [form, secondMoment]
  | cons t m ih =>
    rw [List.map_cons, List.sum_cons, ← ih]
    simp only [form, secondMoment, List.map_cons, List.sum_cons, Fin.sum_univ_three, lin, coord, Matrix.cons_val_zero, Matrix.cons_val_one,
      Matrix.cons_val]
    ring

theorem lin_first (m : TriMesh ℝ) (u : Fin 3 → ℝ) : lin u (firstMoment m) = (m.map fun t => det3 t.v0 t.v1 t.v2 / 6 *
    ((lin u t.v0 + lin u t.v1 + lin u t.v2) / 4)).sum := by
  induction m with
  | nil => simp [lin, firstMoment]
  | cons t m ih =>
    rw [List.map_cons, List.sum_cons, ← ih]
    simp only [firstMoment, List.map_cons, List.sum_cons, lin]
    ring

theorem sum_three (m : TriMesh ℝ) (f g h : Tri ℝ → ℝ) (x y : ℝ) :
    (m.map f).sum + x * (m.map g).sum + y * (m.map h).sum = (m.map fun t => f t + x * g t + y * h t).sum := by
  induction m with
  | nil => simp
  | cons t m ih =>
    simp only [List.map_cons, List.sum_cons, ← ih]
    ring

/-- The second moments about the centre, as sum of those of the tetrahedra over the triangles. -/
theorem form_central (m : TriMesh ℝ) (h0 : signedVolume m ≠ 0) (u : Fin 3 → ℝ) :
    form (fun i j => secondMoment m i j - signedVolume m * (coord (centroid m) i * coord (centroid m) j)) u =
      (m.map fun t => det3 t.v0 t.v1 t.v2 / 6 / 20 * ((lin u t.v0 - lin u (centroid m)) ^ 2 + (lin u t.v1 - lin u (centroid m)) ^ 2 +
        (lin u t.v2 - lin u (centroid m)) ^ 2 + lin u (centroid m) ^ 2 +
        (lin u t.v0 + lin u t.v1 + lin u t.v2 - 4 * lin u (centroid m)) ^ 2)).sum := by
  set g := lin u (centroid m) with hg
  have e1 : form (fun i j => secondMoment m i j - signedVolume m * (coord (centroid m) i * coord (centroid m) j)) u =
      form (secondMoment m) u - signedVolume m * g ^ 2 := by
    rw [hg]
    simp only [form, Fin.sum_univ_three, lin, coord, Matrix.cons_val_zero, Matrix.cons_val_one, Matrix.cons_val]
    ring
  have e2 : lin u (firstMoment m) = signedVolume m * g := by
    rw [hg]
    simp only [lin, centroid, Vec.mul_x, Vec.mul_y, Vec.mul_z]
    field_simp
  have e3 := sum_three m (fun t => det3 t.v0 t.v1 t.v2 / 6 / 20 *
    (lin u t.v0 ^ 2 + lin u t.v1 ^ 2 + lin u t.v2 ^ 2 + (lin u t.v0 + lin u t.v1 + lin u t.v2) ^ 2))
    (fun t => det3 t.v0 t.v1 t.v2 / 6 * ((lin u t.v0 + lin u t.v1 + lin u t.v2) / 4)) (fun t => det3 t.v0 t.v1 t.v2 / 6) (-2 * g) (g ^ 2)
  rw [← form_second, ← lin_first, e2] at e3
  have e4 : (m.map fun t => det3 t.v0 t.v1 t.v2 / 6).sum = signedVolume m := rfl
  rw [e4] at e3
  rw [e1]
  have e5 : form (secondMoment m) u - signedVolume m * g ^ 2 = form (secondMoment m) u + -2 * g * (signedVolume m * g) + g ^ 2 * signedVolume m := by
    ring
  rw [e5, e3]
  congr 1
  apply List.map_congr_left
  intro t _
  ring

/-- Three vectors orthogonal to a fourth are dependent. -/
theorem det3_orthogonal (u : Fin 3 → ℝ) (hu : u ≠ 0) (a b c : V) (ha : lin u a = 0) (hb : lin u b = 0) (hc : lin u c = 0) : det3 a b c = 0 := by
  by_contra h
  apply hu
  have e0 : det3 a b c * u 0 = 0 := by
    have : det3 a b c * u 0 = lin u a * (b.y * c.z - b.z * c.y) + lin u b * (c.y * a.z - c.z * a.y) + lin u c * (a.y * b.z - a.z * b.y) := by
      simp only [det3, lin]; ring
    rw [this, ha, hb, hc]; ring
  have e1 : det3 a b c * u 1 = 0 := by
    have : det3 a b c * u 1 = lin u a * (b.z * c.x - b.x * c.z) + lin u b * (c.z * a.x - c.x * a.z) + lin u c * (a.z * b.x - a.x * b.z) := by
      simp only [det3, lin]; ring
    rw [this, ha, hb, hc]; ring
  have e2 : det3 a b c * u 2 = 0 := by
    have : det3 a b c * u 2 = lin u a * (b.x * c.y - b.y * c.x) + lin u b * (c.x * a.y - c.y * a.x) + lin u c * (a.x * b.y - a.y * b.x) := by
      simp only [det3, lin]; ring
    rw [this, ha, hb, hc]; ring
  funext i
  fin_cases i
  · exact (mul_eq_zero.1 e0).resolve_left h
  · exact (mul_eq_zero.1 e1).resolve_left h
  · exact (mul_eq_zero.1 e2).resolve_left h

theorem sum_pos_of {α : Type} (m : List α) (f : α → ℝ) (h : ∀ t ∈ m, 0 ≤ f t) (t : α) (ht : t ∈ m) (hp : 0 < f t) : 0 < (m.map f).sum := by
  refine lt_of_lt_of_le hp (List.single_le_sum ?_ _ (List.mem_map.2 ⟨t, ht, rfl⟩))
  intro x hx
  obtain ⟨s, hs, rfl⟩ := List.mem_map.1 hx
  exact h s hs

theorem sum_div_scaled {α : Type} (m : List α) (f : α → ℝ) (s : ℝ) : s * (m.map f).sum = (m.map fun t => s * f t).sum := by
  induction m with
  | nil => simp
  | cons t m ih => simp only [List.map_cons, List.sum_cons, mul_add, ih]

/-! ## Bodies that are star-shaped about the origin -/

/-- All triangles show the same side to the origin, and not all are seen edge-on. -/
def StarZero (s : ℝ) (m : TriMesh ℝ) : Prop :=
  (∀ t ∈ m, 0 ≤ s * det3 t.v0 t.v1 t.v2) ∧ ∃ t ∈ m, 0 < s * det3 t.v0 t.v1 t.v2

theorem StarZero.volume {s : ℝ} {m : TriMesh ℝ} (h : StarZero s m) : 0 < s * signedVolume m := by
  obtain ⟨h1, t, ht, h2⟩ := h
  unfold signedVolume
  rw [sum_div_scaled]
  refine sum_pos_of m _ (fun t ht => ?_) t ht ?_
  · have := h1 t ht; linarith
  · linarith

theorem StarZero.central {s : ℝ} {m : TriMesh ℝ} (h : StarZero s m) (u : Fin 3 → ℝ) (hu : u ≠ 0) :
    0 < s * form (fun i j => secondMoment m i j - signedVolume m * (coord (centroid m) i * coord (centroid m) j)) u := by
  have hv := h.volume
  have h0 : signedVolume m ≠ 0 := by rintro e; rw [e, mul_zero] at hv; exact lt_irrefl _ hv
  obtain ⟨h1, t, ht, h2⟩ := h
  rw [form_central m h0, sum_div_scaled]
  set g := lin u (centroid m)
  have nn : ∀ a b c : ℝ, 0 ≤ (a - g) ^ 2 + (b - g) ^ 2 + (c - g) ^ 2 + g ^ 2 + (a + b + c - 4 * g) ^ 2 := fun a b c => by positivity
  refine sum_pos_of m _ (fun t ht => ?_) t ht ?_
  · have := mul_nonneg (h1 t ht) (nn (lin u t.v0) (lin u t.v1) (lin u t.v2))
    linarith
  · have pos : 0 < (lin u t.v0 - g) ^ 2 + (lin u t.v1 - g) ^ 2 + (lin u t.v2 - g) ^ 2 + g ^ 2 + (lin u t.v0 + lin u t.v1 + lin u t.v2 - 4 * g) ^ 2 := by
      refine lt_of_le_of_ne (nn _ _ _) fun e => ?_
      have q0 := sq_nonneg (lin u t.v0 - g)
      have q1 := sq_nonneg (lin u t.v1 - g)
      have q2 := sq_nonneg (lin u t.v2 - g)
      have q3 := sq_nonneg g
      have q4 := sq_nonneg (lin u t.v0 + lin u t.v1 + lin u t.v2 - 4 * g)
      have hg : g = 0 := pow_eq_zero_iff (two_ne_zero) |>.1 (by linarith)
      have z0 : lin u t.v0 - g = 0 := pow_eq_zero_iff (two_ne_zero) |>.1 (by linarith)
      have z1 : lin u t.v1 - g = 0 := pow_eq_zero_iff (two_ne_zero) |>.1 (by linarith)
      have z2 : lin u t.v2 - g = 0 := pow_eq_zero_iff (two_ne_zero) |>.1 (by linarith)
      have := det3_orthogonal u hu t.v0 t.v1 t.v2 (by linarith) (by linarith) (by linarith)
      rw [this, mul_zero] at h2
      exact lt_irrefl _ h2
    have := mul_pos h2 pos
    linarith

/-- A closed mesh whose triangles all show the same side to the origin does not have the origin on one side of it: its central projection to
a plane would have positive area. -/
theorem StarZero.around {s : ℝ} {m : TriMesh ℝ} (h : StarZero s m) (hc : Closed m) (u : Fin 3 → ℝ) (hu : u ≠ 0)
    (hneg : ∀ t ∈ m, lin u t.v0 < 0 ∧ lin u t.v1 < 0 ∧ lin u t.v2 < 0) : False := by
  obtain ⟨h1, t0, ht0, h2⟩ := h
  have hN : 0 < u 0 ^ 2 + u 1 ^ 2 + u 2 ^ 2 := by
    refine lt_of_le_of_ne (by positivity) fun e => hu ?_
    have q0 := sq_nonneg (u 0)
    have q1 := sq_nonneg (u 1)
    have q2 := sq_nonneg (u 2)
    have z0 : u 0 = 0 := pow_eq_zero_iff (two_ne_zero) |>.1 (by linarith)
    have z1 : u 1 = 0 := pow_eq_zero_iff (two_ne_zero) |>.1 (by linarith)
    have z2 : u 2 = 0 := pow_eq_zero_iff (two_ne_zero) |>.1 (by linarith)
    funext i
    fin_cases i
    exacts [z0, z1, z2]
  set φ : V → V → ℝ := fun v w => (u 0 * (v.y * w.z - v.z * w.y) + u 1 * (v.z * w.x - v.x * w.z) + u 2 * (v.x * w.y - v.y * w.x)) / (lin u v * lin u w)
    with hφ
  have anti : Anti φ := by
    intro a b
    simp only [hφ]
    rw [mul_comm (lin u b), ← neg_div]
    congr 1
    ring
  have zero : edgeSum φ (edges m) = 0 := edgeSum_eq_zero_of_balanced φ anti (fun a ha => by linarith) _ hc
  rw [← sum_tris] at zero
  have term : ∀ t ∈ m, φ t.v0 t.v1 + φ t.v1 t.v2 + φ t.v2 t.v0 =
      det3 t.v0 t.v1 t.v2 * (u 0 ^ 2 + u 1 ^ 2 + u 2 ^ 2) / (lin u t.v0 * lin u t.v1 * lin u t.v2) := by
    intro t ht
    obtain ⟨n0, n1, n2⟩ := hneg t ht
    have z0 := n0.ne
    have z1 := n1.ne
    have z2 := n2.ne
    simp only [hφ]
    have e : det3 t.v0 t.v1 t.v2 * (u 0 ^ 2 + u 1 ^ 2 + u 2 ^ 2) =
        lin u t.v2 * (u 0 * (t.v0.y * t.v1.z - t.v0.z * t.v1.y) + u 1 * (t.v0.z * t.v1.x - t.v0.x * t.v1.z) + u 2 * (t.v0.x * t.v1.y - t.v0.y * t.v1.x)) +
        lin u t.v0 * (u 0 * (t.v1.y * t.v2.z - t.v1.z * t.v2.y) + u 1 * (t.v1.z * t.v2.x - t.v1.x * t.v2.z) + u 2 * (t.v1.x * t.v2.y - t.v1.y * t.v2.x)) +
        lin u t.v1 * (u 0 * (t.v2.y * t.v0.z - t.v2.z * t.v0.y) + u 1 * (t.v2.z * t.v0.x - t.v2.x * t.v0.z) + u 2 * (t.v2.x * t.v0.y - t.v2.y * t.v0.x)) := by
      simp only [det3, lin]; ring
    rw [e]
    field_simp
  rw [List.map_congr_left term] at zero
  have e := congrArg (fun x => -(s * x)) zero
  simp only [mul_zero, neg_zero, ← neg_mul] at e
  rw [sum_div_scaled] at e
  have hsign : ∀ t ∈ m, lin u t.v0 * lin u t.v1 * lin u t.v2 < 0 := fun t ht => by
    obtain ⟨n0, n1, n2⟩ := hneg t ht
    exact mul_neg_of_pos_of_neg (mul_pos_of_neg_of_neg n0 n1) n2
  have := sum_pos_of m (fun t => -s * (det3 t.v0 t.v1 t.v2 * (u 0 ^ 2 + u 1 ^ 2 + u 2 ^ 2) / (lin u t.v0 * lin u t.v1 * lin u t.v2))) (fun t ht => by
      have e1 : -s * (det3 t.v0 t.v1 t.v2 * (u 0 ^ 2 + u 1 ^ 2 + u 2 ^ 2) / (lin u t.v0 * lin u t.v1 * lin u t.v2)) =
        (s * det3 t.v0 t.v1 t.v2) * (u 0 ^ 2 + u 1 ^ 2 + u 2 ^ 2) / (-(lin u t.v0 * lin u t.v1 * lin u t.v2)) := by
        rw [div_neg]; ring
      rw [e1]
      exact div_nonneg (mul_nonneg (h1 t ht) hN.le) (by linarith [hsign t ht])) t0 ht0 (by
      have e1 : -s * (det3 t0.v0 t0.v1 t0.v2 * (u 0 ^ 2 + u 1 ^ 2 + u 2 ^ 2) / (lin u t0.v0 * lin u t0.v1 * lin u t0.v2)) =
        (s * det3 t0.v0 t0.v1 t0.v2) * (u 0 ^ 2 + u 1 ^ 2 + u 2 ^ 2) / (-(lin u t0.v0 * lin u t0.v1 * lin u t0.v2)) := by
        rw [div_neg]; ring
      rw [e1]
      exact div_pos (mul_pos h2 hN) (by linarith [hsign t0 ht0]))
  linarith

theorem StarZero.inside {s : ℝ} {m : TriMesh ℝ} (h : StarZero s m) (hc : Closed m) (u : Fin 3 → ℝ) (hu : u ≠ 0) :
    ∃ v, IsVertex v m ∧ lin u (centroid m) < lin u v := by
  by_contra hno
  push Not at hno
  set g := lin u (centroid m) with hg
  have le : ∀ t ∈ m, lin u t.v0 ≤ g ∧ lin u t.v1 ≤ g ∧ lin u t.v2 ≤ g := fun t ht =>
    ⟨hno _ ⟨t, ht, .inl rfl⟩, hno _ ⟨t, ht, .inr (.inl rfl)⟩, hno _ ⟨t, ht, .inr (.inr rfl)⟩⟩
  rcases lt_or_ge g 0 with hneg | hpos
  · exact h.around hc u hu fun t ht => ⟨(le t ht).1.trans_lt hneg, (le t ht).2.1.trans_lt hneg, (le t ht).2.2.trans_lt hneg⟩
  have hv := h.volume
  have h0 : signedVolume m ≠ 0 := by rintro e; rw [e, mul_zero] at hv; exact lt_irrefl _ hv
  obtain ⟨h1, t0, ht0, h2⟩ := h
  have e2 : lin u (firstMoment m) = signedVolume m * g := by
    rw [hg]
    simp only [lin, centroid, Vec.mul_x, Vec.mul_y, Vec.mul_z]
    field_simp
  have e3 := sum_three m (fun _ => 0) (fun t => det3 t.v0 t.v1 t.v2 / 6) (fun t => det3 t.v0 t.v1 t.v2 / 6 * ((lin u t.v0 + lin u t.v1 + lin u t.v2) / 4))
    (s * g) (-s)
  rw [← lin_first, e2] at e3
  have e4 : (m.map fun t => det3 t.v0 t.v1 t.v2 / 6).sum = signedVolume m := rfl
  rw [e4] at e3
  have e5 : (m.map fun _ => (0 : ℝ)).sum + s * g * signedVolume m + -s * (signedVolume m * g) = 0 := by
    simp only [List.map_const', List.sum_replicate, smul_zero]; ring
  rw [e5] at e3
  have key : ∀ t ∈ m, 0 ≤ g - (lin u t.v0 + lin u t.v1 + lin u t.v2) / 4 := fun t ht => by
    obtain ⟨a, b, c⟩ := le t ht
    linarith
  have strict : 0 < g - (lin u t0.v0 + lin u t0.v1 + lin u t0.v2) / 4 := by
    refine lt_of_le_of_ne (key t0 ht0) fun e => ?_
    obtain ⟨a, b, c⟩ := le t0 ht0
    have := det3_orthogonal u hu t0.v0 t0.v1 t0.v2 (by linarith) (by linarith) (by linarith)
    rw [this, mul_zero] at h2
    exact lt_irrefl _ h2
  have := sum_pos_of m (fun t => 0 + s * g * (det3 t.v0 t.v1 t.v2 / 6) + -s * (det3 t.v0 t.v1 t.v2 / 6 * ((lin u t.v0 + lin u t.v1 + lin u t.v2) / 4)))
    (fun t ht => by have := mul_nonneg (h1 t ht) (key t ht); linarith) t0 ht0 (by have := mul_pos h2 strict; linarith)
  linarith

/-- A positive definite tensor of second moments gives a tensor of inertia. -/
theorem isInertia_of (C I : Fin 3 → Fin 3 → ℝ) (ρ : ℝ) (hρ : 0 < ρ) (hs : ∀ i j, C i j = C j i) (hp : ∀ u : Fin 3 → ℝ, u ≠ 0 → 0 < form C u)
    (hI : ∀ i j, I i j = ρ * ((if i = j then C 0 0 + C 1 1 + C 2 2 else 0) - C i j)) : IsInertia I := by
  have nn : ∀ u : Fin 3 → ℝ, 0 ≤ form C u := fun u => by
    by_cases h : u = 0
    · subst h; simp [form]
    · exact (hp u h).le
  refine ⟨fun i j => ?_, fun u hu => ?_⟩
  · rw [hI, hI, hs i j]
    congr 2
    simp only [eq_comm]
  have e1 : form I u = ρ * ((C 0 0 + C 1 1 + C 2 2) * ∑ i, u i ^ 2 - form C u) := by
    simp only [form, hI, Fin.sum_univ_three, Fin.isValue]
    simp
    ring
  have e2 : (∑ i, I i i) = 2 * ρ * (C 0 0 + C 1 1 + C 2 2) := by
    simp only [hI, Fin.sum_univ_three, if_true]
    ring
  have e3 : (C 0 0 + C 1 1 + C 2 2) * ∑ i, u i ^ 2 - form C u = form C ![0, u 2, -u 1] + form C ![-u 2, 0, u 0] + form C ![u 1, -u 0, 0] := by
    simp only [form, Fin.sum_univ_three, Matrix.cons_val_zero, Matrix.cons_val_one, Matrix.cons_val]
    rw [hs 1 0, hs 2 0, hs 2 1]
    ring
  have a := nn ![0, u 2, -u 1]
  have b := nn ![-u 2, 0, u 0]
  have c := nn ![u 1, -u 0, 0]
  have pos : 0 < (C 0 0 + C 1 1 + C 2 2) * ∑ i, u i ^ 2 - form C u := by
    rw [e3]
    by_cases h0 : u 0 = 0
    · have : (![0, u 2, -u 1] : Fin 3 → ℝ) ≠ 0 := by
        intro e
        apply hu
        have k1 := congrFun e 1
        have k2 := congrFun e 2
        simp at k1 k2
        funext i
        fin_cases i
        · exact h0
        · exact k2
        · exact k1
      have := hp _ this
      linarith
    · have : (![u 1, -u 0, 0] : Fin 3 → ℝ) ≠ 0 := by
        intro e
        have k1 := congrFun e 1
        simp at k1
        exact h0 k1
      have := hp _ this
      linarith
  have pu := mul_pos hρ (hp u hu)
  refine ⟨by rw [e1]; exact mul_pos hρ pos, ?_⟩
  rw [e1, e2]
  linarith

/-! ## Components -/

theorem shift_turns (c : V) : TurnsBy (fun v => v - c) 1 := by
  refine ⟨one_mem _, ![-c.x, -c.y, -c.z], fun p => ?_⟩
  rw [Matrix.one_mulVec]
  funext i
  fin_cases i <;> simp [toF, sub_eq_add_neg]

/-- C166 for a component: if the mesh is closed and star-shaped about some point, the volume and mass reported are positive for positive
densities, the centre of gravity is inside of the body's hull, and the tensor of inertia is possible (`s = 1`); for a mesh turned inside out
(`s = -1`) the same holds up to the sign of volume, mass and tensor. -/
theorem C166_component (lib : Lib) (hl : NumpyStlInertia lib) (M : StlMesh) (hM : Closed M.tris) (s : ℝ) (hs : s = 1 ∨ s = -1) (c : V)
    (hst : StarShaped s c M.tris) (ρ : ℝ) (hρ : 0 < ρ) (q : MassProps) (h : lib.massProps M ρ = .ok q) :
    Possible M.tris ⟨s * q.volume, s * q.mass, q.cog, fun i j => s * q.moi i j⟩ := by
  set m' := mapVerts (fun v => v - c) M.tris with hm'
  have hz : StarZero s m' := by
    obtain ⟨h1, t, ht, h2⟩ := hst
    refine ⟨fun t ht => ?_, ⟨⟨t.v0 - c, t.v1 - c, t.v2 - c⟩, List.mem_map.2 ⟨t, ht, rfl⟩, h2⟩⟩
    obtain ⟨t, ht', rfl⟩ := List.mem_map.1 ht
    exact h1 t ht'
  have hc' : Closed m' := closed_mapVerts _ _ hM
  obtain ⟨k1, k2⟩ := moments_turnsBy (shift_turns c) hM
  have hv := hz.volume
  rw [k1] at hv
  have h0 : signedVolume M.tris ≠ 0 := by rintro e; rw [e, mul_zero] at hv; exact lt_irrefl _ hv
  obtain ⟨k2, k3⟩ := k2 h0
  obtain ⟨a1, a2, a3⟩ := C111_component lib hl.toNumpyStl M hM ρ q h
  have a4 := C128_inertia lib hl M hM ρ q h h0
  refine ⟨by rw [a1]; exact hv, by rw [a2]; have := mul_pos hρ hv; linarith, fun u hu => ?_, ?_⟩
  · obtain ⟨v, hv, hlt⟩ := hz.inside hc' ![u.x, u.y, u.z] (fun e => hu (by
      have e0 := congrFun e 0
      have e1 := congrFun e 1
      have e2 := congrFun e 2
      simp at e0 e1 e2
      exact Vec.ext e0 e1 e2))
    obtain ⟨t, ht', hv⟩ := hv
    obtain ⟨t, ht, rfl⟩ := List.mem_map.1 ht'
    rw [k2, ← a3 h0] at hlt
    have : ∃ w, IsVertex w M.tris ∧ v = w - c := by
      rcases hv with rfl | rfl | rfl
      exacts [⟨t.v0, ⟨t, ht, .inl rfl⟩, rfl⟩, ⟨t.v1, ⟨t, ht, .inr (.inl rfl)⟩, rfl⟩, ⟨t.v2, ⟨t, ht, .inr (.inr rfl)⟩, rfl⟩]
    obtain ⟨w, hw, rfl⟩ := this
    refine ⟨w, hw, ?_⟩
    simp only [lin, Vec.sub_x, Vec.sub_y, Vec.sub_z, Matrix.cons_val_zero, Matrix.cons_val_one, Matrix.cons_val] at hlt
    simp only [Vec.dot]
    linarith
  · have e : ∀ i j, secondMoment m' i j - signedVolume m' * (coord (centroid m') i * coord (centroid m') j) =
        secondMoment M.tris i j - signedVolume M.tris * (coord (centroid M.tris) i * coord (centroid M.tris) j) := by
      intro i j
      rw [k1]
      have := k3 i j
      rw [this]
      simp [Matrix.one_apply]
    refine isInertia_of (fun i j => s * (secondMoment M.tris i j - signedVolume M.tris * (coord (centroid M.tris) i * coord (centroid M.tris) j))) _ ρ hρ
      (fun i j => ?_) (fun u hu => ?_) fun i j => ?_
    · rw [secondMoment_symm]; ring
    · have := hz.central u hu
      simp only [e] at this
      unfold form at this ⊢
      simp only [Finset.mul_sum] at this
      refine this.trans_eq ?_
      refine Finset.sum_congr rfl fun i _ => Finset.sum_congr rfl fun j _ => by ring
    · show s * q.moi i j = _
      rw [a4, inertiaOf]
      simp only [coord, Matrix.cons_val_zero, Matrix.cons_val_one, Matrix.cons_val]
      split <;> ring

/-! ## Convex bodies -/

theorem det3_cross (a b c p : V) (N : V) (J : ℝ) (h : (b - a).cross (c - a) = N * J) : det3 (a - p) (b - p) (c - p) = -(J * N.dot (p - a)) := by
  have hx := congrArg Vec.x h
  have hy := congrArg Vec.y h
  have hz := congrArg Vec.z h
  simp only [Vec.cross, Vec.sub_x, Vec.sub_y, Vec.sub_z, Vec.mul_x, Vec.mul_y, Vec.mul_z] at hx hy hz
  have e : det3 (a - p) (b - p) (c - p) = (a.x - p.x) * ((b.y - a.y) * (c.z - a.z) - (c.y - a.y) * (b.z - a.z)) +
      (a.y - p.y) * ((c.x - a.x) * (b.z - a.z) - (b.x - a.x) * (c.z - a.z)) + (a.z - p.z) * ((b.x - a.x) * (c.y - a.y) - (c.x - a.x) * (b.y - a.y)) := by
    simp only [det3, Vec.sub_x, Vec.sub_y, Vec.sub_z]; ring
  rw [e, hx, hy, hz]
  simp only [Vec.dot, Vec.sub_x, Vec.sub_y, Vec.sub_z]
  ring

/-- The mesh of a convex body with plane faces is star-shaped about every point inside. -/
theorem faces_star {τ : ℝ} (n : ℕ) (hn : 1 ≤ n) (fs : List NFace) (hT : ∀ f ∈ fs, f.Turns τ) (hne : fs ≠ []) (c : V)
    (hc : ∀ f ∈ fs, 0 < f.N.dot (c - f.A)) : ∃ s, (s = 1 ∨ s = -1) ∧ StarShaped s c (fs.map (NFace.mesh n)).flatten := by
  set s : ℝ := if 0 < τ then -1 else 1 with hs
  have pos : ∀ t ∈ (fs.map (NFace.mesh n)).flatten, 0 < s * det3 (t.v0 - c) (t.v1 - c) (t.v2 - c) := by
    intro t ht
    obtain ⟨m, hm, ht⟩ := List.mem_flatten.1 ht
    obtain ⟨f, hf, rfl⟩ := List.mem_map.1 hm
    obtain ⟨J, hJ, e⟩ := face_normal (hT f hf).2 n hn t ht
    have hp := face_in_plane n hn f (hT f hf) t.v0 ⟨t, ht, .inl rfl⟩
    have hd := hc f hf
    have e1 : f.N.dot (c - t.v0) = f.N.dot (c - f.A) := by
      have : f.N.dot (c - t.v0) = f.N.dot (c - f.A) - f.N.dot (t.v0 - f.A) := by
        simp only [Vec.dot, Vec.sub_x, Vec.sub_y, Vec.sub_z]; ring
      rw [this, hp, sub_zero]
    rw [det3_cross _ _ _ _ _ _ e, e1]
    by_cases h : 0 < τ
    · have : 0 < J := by by_contra hno; exact absurd hJ (not_lt.2 (mul_nonpos_of_nonneg_of_nonpos h.le (not_lt.1 hno)))
      rw [hs, if_pos h]
      have := mul_pos this hd
      linarith
    · have : J < 0 := by by_contra hno; exact absurd hJ (not_lt.2 (mul_nonpos_of_nonpos_of_nonneg (not_lt.1 h) (not_lt.1 hno)))
      rw [hs, if_neg h]
      have := mul_neg_of_neg_of_pos this hd
      linarith
  refine ⟨s, ?_, fun t ht => (pos t ht).le, ?_⟩
  · rw [hs]; split <;> simp
  · obtain ⟨f, hf⟩ := List.exists_mem_of_ne_nil fs hne
    have : ∃ t, t ∈ f.mesh n := by
      obtain ⟨t, ht⟩ := List.exists_mem_of_ne_nil (cellTris MeshArith.real false (quadGrid n f.A f.B f.D f.C 0 0) (quadGrid n f.A f.B f.D f.C (0 + 1) 0)
        (quadGrid n f.A f.B f.D f.C 0 (0 + 1)) (quadGrid n f.A f.B f.D f.C (0 + 1) (0 + 1))) (by simp [cellTris])
      exact ⟨t, (mem_gridMesh _ _ _ _ _ _).2 ⟨0, hn, 0, hn, ht⟩⟩
    obtain ⟨t, ht⟩ := this
    have hm : t ∈ (fs.map (NFace.mesh n)).flatten := List.mem_flatten.2 ⟨_, List.mem_map.2 ⟨f, hf, rfl⟩, ht⟩
    exact ⟨t, hm, pos t hm⟩

/-- C166 for convex bodies with plane faces: at every resolution and for every density the mass properties reported for a body swept between
two quadrilaterals are those of a possible body, or all of them with the opposite sign (if the sections are given in the other sense). -/
theorem C166_hexahedron (P Q : ℕ → V) (hPQ : ConvexHexahedron P Q) (n : ℕ) (hn : 1 ≤ n) (name : Option String) :
    ∃ c, Swept.init [cornerSection P, cornerSection Q] true (.int n) name = .ok c ∧ ∀ (hp : Heap) (id : ℕ), hp id = c →
    ∃ h' M c' s p, generatePatches hp id = (.ok (), h') ∧ (h' id).mesh = (.ok M, c') ∧ Closed M.tris ∧ (s = 1 ∨ s = -1) ∧ StarShaped s p M.tris ∧
      ∀ lib, NumpyStlInertia lib → ∀ (ρ : ℝ) (q : MassProps), 0 < ρ → lib.massProps M ρ = .ok q →
        Possible M.tris ⟨s * q.volume, s * q.mass, q.cog, fun i j => s * q.moi i j⟩ := by
  obtain ⟨c, hinit, hh⟩ := hexahedron_mesh P Q n hn name
  refine ⟨c, hinit, fun hp id hid => ?_⟩
  obtain ⟨h', M, c', g1, g2, hclosed, -, -, -, -, -, ht⟩ := hh hp id hid
  obtain ⟨τ, ⟨N0, T0, o0⟩, ⟨N1, T1, o1⟩, ⟨N2, T2, o2⟩, ⟨N3, T3, o3⟩, ⟨N4, T4, o4⟩, ⟨N5, T5, o5⟩⟩ := hPQ
  set fs : List NFace := [⟨N0, P 0, Q 0, P 1, Q 1⟩, ⟨N1, P 1, Q 1, P 2, Q 2⟩, ⟨N2, P 2, Q 2, P 3, Q 3⟩, ⟨N3, P 3, Q 3, P 0, Q 0⟩,
    ⟨N4, P 0, P 1, P 3, P 2⟩, ⟨N5, Q 1, Q 0, Q 2, Q 3⟩] with hfs
  have htris : M.tris = (fs.map (NFace.mesh n)).flatten := ht
  have nz : ∀ (N A x : V), 0 < N.dot (x - A) → N ≠ ⟨0, 0, 0⟩ := by
    rintro N A x h rfl
    simp [Vec.dot] at h
  simp only [List.mem_cons, List.not_mem_nil, or_false, forall_eq_or_imp, forall_eq] at o0 o1 o2 o3 o4 o5
  have k0 : NFace.Turns τ ⟨N0, P 0, Q 0, P 1, Q 1⟩ := ⟨nz _ _ _ o0.1, T0⟩
  have k1 : NFace.Turns τ ⟨N1, P 1, Q 1, P 2, Q 2⟩ := ⟨nz _ _ _ o1.1, T1⟩
  have k2 : NFace.Turns τ ⟨N2, P 2, Q 2, P 3, Q 3⟩ := ⟨nz _ _ _ o2.1, T2⟩
  have k3 : NFace.Turns τ ⟨N3, P 3, Q 3, P 0, Q 0⟩ := ⟨nz _ _ _ o3.1, T3⟩
  have k4 : NFace.Turns τ ⟨N4, P 0, P 1, P 3, P 2⟩ := ⟨nz _ _ _ o4.1, T4⟩
  have k5 : NFace.Turns τ ⟨N5, Q 1, Q 0, Q 2, Q 3⟩ := ⟨nz _ _ _ o5.1, T5⟩
  have p0 := turns_plane k0
  have p1 := turns_plane k1
  have p2 := turns_plane k2
  have p3 := turns_plane k3
  have p4 := turns_plane k4
  have p5 := turns_plane k5
  simp only [NFace.corners, List.mem_cons, List.not_mem_nil, or_false, forall_eq_or_imp, forall_eq] at p0 p1 p2 p3 p4 p5
  have hT : ∀ f ∈ fs, f.Turns τ := by
    intro f hf
    simp only [hfs, List.mem_cons, List.not_mem_nil, or_false] at hf
    rcases hf with rfl | rfl | rfl | rfl | rfl | rfl <;> assumption
  set p : V := (P 0 + P 1 + P 2 + P 3 + Q 0 + Q 1 + Q 2 + Q 3) * ((1 : ℝ) / 8) with hp'
  have mean : ∀ N A : V, N.dot (p - A) = (N.dot (P 0 - A) + N.dot (P 1 - A) + N.dot (P 2 - A) + N.dot (P 3 - A) + N.dot (Q 0 - A) + N.dot (Q 1 - A) +
      N.dot (Q 2 - A) + N.dot (Q 3 - A)) / 8 := by
    intro N A
    rw [hp']
    simp only [Vec.dot, Vec.sub_x, Vec.sub_y, Vec.sub_z, Vec.mul_x, Vec.mul_y, Vec.mul_z, Vec.add_x, Vec.add_y, Vec.add_z]
    ring
  have hc : ∀ f ∈ fs, 0 < f.N.dot (p - f.A) := by
    intro f hf
    simp only [hfs, List.mem_cons, List.not_mem_nil, or_false] at hf
    rcases hf with rfl | rfl | rfl | rfl | rfl | rfl <;> simp only [mean]
    · linarith [o0.1, o0.2.1, o0.2.2.1, o0.2.2.2, p0.1, p0.2.1, p0.2.2.1, p0.2.2.2]
    · linarith [o1.1, o1.2.1, o1.2.2.1, o1.2.2.2, p1.1, p1.2.1, p1.2.2.1, p1.2.2.2]
    · linarith [o2.1, o2.2.1, o2.2.2.1, o2.2.2.2, p2.1, p2.2.1, p2.2.2.1, p2.2.2.2]
    · linarith [o3.1, o3.2.1, o3.2.2.1, o3.2.2.2, p3.1, p3.2.1, p3.2.2.1, p3.2.2.2]
    · linarith [o4.1, o4.2.1, o4.2.2.1, o4.2.2.2, p4.1, p4.2.1, p4.2.2.1, p4.2.2.2]
    · linarith [o5.1, o5.2.1, o5.2.2.1, o5.2.2.2, p5.1, p5.2.1, p5.2.2.1, p5.2.2.2]
  obtain ⟨s, hs, hstar⟩ := faces_star n hn fs hT (by simp [hfs]) p hc
  rw [← htris] at hstar
  exact ⟨h', M, c', s, p, g1, g2, hclosed, hs, hstar, fun lib hl ρ q hρ hq => C166_component lib hl M hclosed s hs p hstar ρ hρ q hq⟩

/-! ## Vehicles -/

namespace Spec

/-- The component found under the name `e.1` has a closed mesh that is star-shaped about some point and oriented outwards, and a positive
density is given for it. -/
def StarPart (dens : Dict String ℝ) (h : Heap) (e : String × ℕ) : Prop :=
  ∃ M d c ρ, (h e.2).mesh = (.ok M, d) ∧ Closed M.tris ∧ StarShaped 1 c M.tris ∧ dens.get? e.1 = some ρ ∧ 0 < ρ

/-- The component found under the name `e.1` has a mesh, and the library reports properties of a possible body for it with the density given. -/
def PossiblePart (lib : Lib) (dens : Dict String ℝ) (h : Heap) (e : String × ℕ) : Prop :=
  ∃ M d ρ, (h e.2).mesh = (.ok M, d) ∧ dens.get? e.1 = some ρ ∧ ∀ q, lib.massProps M ρ = .ok q → Possible M.tris q

end Spec

theorem Spec.StarPart.possible {lib : Lib} (hl : NumpyStlInertia lib) {dens : Dict String ℝ} {h : Heap} {e : String × ℕ} (hp : StarPart dens h e) :
    PossiblePart lib dens h e := by
  obtain ⟨M, d, c, ρ, m1, hc, hs, m2, hρ⟩ := hp
  refine ⟨M, d, ρ, m1, m2, fun q hq => ?_⟩
  have := C166_component lib hl M hc 1 (.inl rfl) c hs ρ hρ _ hq
  simp only [one_mul] at this
  exact this

theorem isInertia_add {I J : Fin 3 → Fin 3 → ℝ} (hI : IsInertia I) (hJ : IsInertia J) : IsInertia fun i j => I i j + J i j := by
  refine ⟨fun i j => by simp only [hI.1 i j, hJ.1 i j], fun u hu => ?_⟩
  obtain ⟨a, b⟩ := hI.2 u hu
  obtain ⟨c, d⟩ := hJ.2 u hu
  have e : form (fun i j => I i j + J i j) u = form I u + form J u := by
    simp only [form, Fin.sum_univ_three]; ring
  rw [e, Finset.sum_add_distrib, add_mul]
  exact ⟨by linarith, by linarith⟩

theorem isInertia_sum {α : Type} (l : List α) (hne : l ≠ []) (f : α → Fin 3 → Fin 3 → ℝ) (h : ∀ x ∈ l, IsInertia (f x)) :
    IsInertia fun i j => (l.map fun x => f x i j).sum := by
  induction l with
  | nil => exact absurd rfl hne
  | cons x l ih =>
    by_cases hl : l = []
    · subst hl
      simpa using h x (by simp)
    · simp only [List.map_cons, List.sum_cons]
      exact isInertia_add (h x (by simp)) (ih hl fun y hy => h y (by simp [hy]))

theorem isInertia_steiner (p : MassProps) (hm : 0 < p.mass) (h : IsInertia p.moi) (r : V) : IsInertia (steiner p r) := by
  refine ⟨fun i j => ?_, fun u hu => ?_⟩
  · unfold steiner
    rw [h.1 i j, mul_comm (coord r i)]
    congr 3
    simp only [eq_comm]
  obtain ⟨a, b⟩ := h.2 u hu
  have e1 : form (steiner p r) u = form p.moi u + p.mass * ((u 1 * r.z - u 2 * r.y) ^ 2 + (u 2 * r.x - u 0 * r.z) ^ 2 + (u 0 * r.y - u 1 * r.x) ^ 2) := by
    simp only [form, steiner, Fin.sum_univ_three, coord, Matrix.cons_val_zero, Matrix.cons_val_one, Matrix.cons_val]
    simp
    ring
  have e2 : (∑ i, steiner p r i i) * ∑ i, u i ^ 2 = (∑ i, p.moi i i) * ∑ i, u i ^ 2 + 2 * (p.mass * ((u 1 * r.z - u 2 * r.y) ^ 2 +
      (u 2 * r.x - u 0 * r.z) ^ 2 + (u 0 * r.y - u 1 * r.x) ^ 2)) + 2 * (p.mass * (u 0 * r.x + u 1 * r.y + u 2 * r.z) ^ 2) := by
    simp only [steiner, Fin.sum_univ_three, coord, Matrix.cons_val_zero, Matrix.cons_val_one, Matrix.cons_val, if_true]
    ring
  have p1 : 0 ≤ p.mass * ((u 1 * r.z - u 2 * r.y) ^ 2 + (u 2 * r.x - u 0 * r.z) ^ 2 + (u 0 * r.y - u 1 * r.x) ^ 2) := by positivity
  have p2 : 0 ≤ p.mass * (u 0 * r.x + u 1 * r.y + u 2 * r.z) ^ 2 := by positivity
  rw [e1, e2]
  exact ⟨by linarith, by linarith⟩

theorem forall₂_assessed {α β : Type} {R : α → β → Prop} {l : List α} {l' : List β} (h : List.Forall₂ R l l') (b : β) (hb : b ∈ l') :
    ∃ a ∈ l, R a b := by
  induction h with
  | nil => simp at hb
  | @cons e q es qs hr _ ih =>
    rcases List.mem_cons.1 hb with rfl | hb
    · exact ⟨e, by simp, hr⟩
    · obtain ⟨e', he', hr'⟩ := ih hb
      exact ⟨e', by simp [he'], hr'⟩

/-- C166 for a vehicle of parts that are possible bodies, in part: volume and mass are positive, the centre of gravity is inside of the hull of all
vertices, and the tensor that follows from the parts by the parallel axis theorem is possible.  Missing: the tensor that is reported is
that one only if all parts have the same centre (C78). -/
theorem C166_parts_partial (lib : Lib) (depth : ℕ) (st st' : VState) (dens : Dict String ℝ) (a : Analysis)
    (hg : st.veh.generated = true) (hp : ∀ e ∈ st.veh.named, PossiblePart lib dens st.heap e) (h : analyse lib (depth + 1) st dens = (.ok a, st')) :
    0 < a.volume ∧ 0 < a.mass ∧ (∀ q ∈ a.components, 0 < q.2.props.mass ∧ IsInertia q.2.props.moi) ∧
      ∃ g I, a.cog = some g ∧ a.moi = some I ∧ IsInertia (inertia a g) ∧ ((∀ e ∈ masses a, e.2 = g) → IsInertia I) ∧
        ∀ u : V, u ≠ ⟨0, 0, 0⟩ → ∃ e ∈ st.veh.named, ∃ M d v, (st.heap e.2).mesh = (.ok M, d) ∧ IsVertex v M.tris ∧ u.dot g < u.dot v := by
  have h' := h
  rw [analyse_generated lib depth st dens hg] at h'
  obtain ⟨l, f1, f2⟩ := (analyseGenerated_ok lib st dens a).1 ⟨_, h'⟩
  obtain ⟨c1, hne, c2, c3, -⟩ := summarise_ok l a f2
  have parts : ∀ q ∈ l, ∃ e ∈ st.veh.named, ∃ M d, (st.heap e.2).mesh = (.ok M, d) ∧ Possible M.tris q.2.props := by
    intro q hq
    obtain ⟨e, he, hR⟩ : ∃ e ∈ st.veh.named, AssessedAs lib dens st.heap e q := by
      exact forall₂_assessed f1 q hq
    obtain ⟨-, M, d, ρ, m1, m2, m3, -⟩ := hR
    obtain ⟨M', d', ρ', m1', m2', hP⟩ := hp e he
    rw [m1] at m1'
    obtain ⟨e1, -⟩ := Prod.mk.inj m1'
    obtain rfl := Except.ok.inj e1
    rw [m2] at m2'
    obtain rfl := Option.some.inj m2'
    exact ⟨e, he, M, d, m1, hP _ m3⟩
  have hpos : ∀ e ∈ masses a, 0 < e.1 := by
    intro e he
    obtain ⟨q, hq, rfl⟩ := List.mem_map.1 he
    rw [c1] at hq
    obtain ⟨_, _, _, _, _, hP⟩ := parts q hq
    exact hP.mass
  have hmass : 0 < a.mass := by
    rw [c3]
    obtain ⟨q, hq⟩ := List.exists_mem_of_ne_nil l hne
    exact sum_pos_of l _ (fun q hq => by obtain ⟨_, _, _, _, _, hP⟩ := parts q hq; exact hP.mass.le) q hq
      (by obtain ⟨_, _, _, _, _, hP⟩ := parts q hq; exact hP.mass)
  have hvol : 0 < a.volume := by
    rw [c2]
    obtain ⟨q, hq⟩ := List.exists_mem_of_ne_nil l hne
    exact sum_pos_of l _ (fun q hq => by obtain ⟨_, _, _, _, _, hP⟩ := parts q hq; exact hP.volume.le) q hq
      (by obtain ⟨_, _, _, _, _, hP⟩ := parts q hq; exact hP.volume)
  obtain ⟨g, I, g1, g2, g3⟩ := C78_partial lib depth st st' dens a hg h hpos
  obtain ⟨g', g1', hhull⟩ := C77_hull lib depth st st' dens a hg h hpos
  rw [g1] at g1'
  obtain rfl := Option.some.inj g1'
  have hI : IsInertia (inertia a g) := by
    unfold inertia
    rw [c1]
    refine isInertia_sum l hne (fun q => steiner q.2.props (q.2.props.cog - g)) fun q hq => ?_
    obtain ⟨_, _, _, _, _, hP⟩ := parts q hq
    exact isInertia_steiner _ hP.mass hP.moi _
  refine ⟨hvol, hmass, fun q hq => ?_, g, I, g1, g2, hI, fun hsame => ?_, fun u hu => ?_⟩
  · rw [c1] at hq
    obtain ⟨_, _, _, _, _, hP⟩ := parts q hq
    exact ⟨hP.mass, hP.moi⟩
  · have : I = inertia a g := by funext i j; exact g3.2 hsame i j
    rw [this]
    exact hI
  · obtain ⟨q, hq, hle⟩ : ∃ q ∈ l, u.dot g ≤ u.dot q.2.props.cog := by
      by_contra hno
      push Not at hno
      obtain ⟨q0, hq0, hmax⟩ : ∃ q0 ∈ l, ∀ q ∈ l, u.dot q.2.props.cog ≤ u.dot q0.2.props.cog := by
        have hex : ∀ l : List (String × CompProps), l ≠ [] → ∃ q0 ∈ l, ∀ q ∈ l, u.dot q.2.props.cog ≤ u.dot q0.2.props.cog := by
          intro l
          induction l with
          | nil => intro h; exact absurd rfl h
          | cons x l ih =>
            intro _
            by_cases hl : l = []
            · subst hl
              exact ⟨x, by simp, fun q hq => by simp at hq; rw [hq]⟩
            · obtain ⟨y, hy, hm⟩ := ih hl
              rcases le_total (u.dot x.2.props.cog) (u.dot y.2.props.cog) with hxy | hxy
              · refine ⟨y, by simp [hy], fun q hq => ?_⟩
                rcases List.mem_cons.1 hq with rfl | hq
                exacts [hxy, hm q hq]
              · refine ⟨x, by simp, fun q hq => ?_⟩
                rcases List.mem_cons.1 hq with rfl | hq
                exacts [le_rfl, (hm q hq).trans hxy]
        exact hex l hne
      have := hhull u (u.dot q0.2.props.cog) (fun e he => by
        obtain ⟨q, hq, rfl⟩ := List.mem_map.1 he
        rw [c1] at hq
        exact hmax q hq)
      exact absurd (hno q0 hq0) (not_lt.2 this)
    obtain ⟨e, he, M, d, hm, hP⟩ := parts q hq
    obtain ⟨v, hv, hlt⟩ := hP.cog u hu
    exact ⟨e, he, M, d, v, hm, hv, hle.trans_lt hlt⟩

/-- C166 for a vehicle of star-shaped parts, in part: as for `C166_parts_partial`, the tensor that is reported is missing. -/
theorem C166_vehicle_partial (lib : Lib) (hl : NumpyStlInertia lib) (depth : ℕ) (st st' : VState) (dens : Dict String ℝ) (a : Analysis)
    (hg : st.veh.generated = true) (hp : ∀ e ∈ st.veh.named, StarPart dens st.heap e) (h : analyse lib (depth + 1) st dens = (.ok a, st')) :
    0 < a.volume ∧ 0 < a.mass ∧ (∀ q ∈ a.components, 0 < q.2.props.mass ∧ IsInertia q.2.props.moi) ∧
      ∃ g I, a.cog = some g ∧ a.moi = some I ∧ IsInertia (inertia a g) ∧ ((∀ e ∈ masses a, e.2 = g) → IsInertia I) ∧
        ∀ u : V, u ≠ ⟨0, 0, 0⟩ → ∃ e ∈ st.veh.named, ∃ M d v, (st.heap e.2).mesh = (.ok M, d) ∧ IsVertex v M.tris ∧ u.dot g < u.dot v :=
  C166_parts_partial lib depth st st' dens a hg (fun e he => (hp e he).possible hl) h

/-- Whatever the parts, the tensor reported for a vehicle is impossible if the centres of the parts are spread along one axis. -/
theorem spread_not_inertia (lib : Lib) (depth : ℕ) (st st' : VState) (dens : Dict String ℝ) (a : Analysis)
    (hg : st.veh.generated = true) (h : analyse lib (depth + 1) st dens = (.ok a, st')) (hm : a.mass ≠ 0)
    (hp : ∀ q ∈ a.components, 0 < q.2.props.mass ∧ ∀ i j, q.2.props.moi i j = q.2.props.moi j i)
    (x y : ℝ) (hxy : ∀ q ∈ a.components, q.2.props.cog.x = x ∧ q.2.props.cog.y = y)
    (p q : String × CompProps) (hp' : p ∈ a.components) (hq' : q ∈ a.components) (hz : p.2.props.cog.z ≠ q.2.props.cog.z) :
    ∃ I, a.moi = some I ∧ ¬ IsInertia I := by
  obtain ⟨g, I, g1, g2, g3⟩ := C78_symmetric_partial lib depth st st' dens a hg h hm fun q hq => (hp q hq).2
  refine ⟨I, g2, fun hI => ?_⟩
  have e := g3.1 hI.1 0 2
  have hpos : ∀ e ∈ masses a, 0 < e.1 := by
    intro e he
    obtain ⟨q, hq, rfl⟩ := List.mem_map.1 he
    exact (hp q hq).1
  obtain ⟨g', g1', hhull⟩ := C77_hull lib depth st st' dens a hg h hpos
  rw [g1] at g1'
  obtain rfl := Option.some.inj g1'
  have hgx : g.x = x := by
    have b1 := hhull ⟨1, 0, 0⟩ x (fun e he => by
      obtain ⟨q, hq, rfl⟩ := List.mem_map.1 he
      simp [Vec.dot, (hxy q hq).1])
    have b2 := hhull ⟨-1, 0, 0⟩ (-x) (fun e he => by
      obtain ⟨q, hq, rfl⟩ := List.mem_map.1 he
      simp [Vec.dot, (hxy q hq).1])
    simp [Vec.dot] at b1 b2
    linarith
  have z0 : (a.components.map fun q => q.2.props.mass * coord (q.2.props.cog - g) 0 ^ 2).sum = 0 := by
    apply List.sum_eq_zero
    intro r hr
    obtain ⟨q, hq, rfl⟩ := List.mem_map.1 hr
    simp [coord, (hxy q hq).1, hgx]
  rw [z0] at e
  have all := sum_zero_of_nonneg _ (fun r hr => by
    obtain ⟨q, hq, rfl⟩ := List.mem_map.1 hr
    have := (hp q hq).1
    positivity) e.symm
  have zz : ∀ q ∈ a.components, q.2.props.cog.z = g.z := by
    intro q hq
    have := all _ (List.mem_map.2 ⟨q, hq, rfl⟩)
    rcases mul_eq_zero.1 this with h0 | h0
    · exact absurd h0 (hp q hq).1.ne'
    · have := pow_eq_zero_iff (two_ne_zero) |>.1 h0
      simp [coord] at this
      linarith
  exact hz ((zz p hp').trans (zz q hq').symm)

theorem star_moved {s : ℝ} {c : V} {m : TriMesh ℝ} (d : V) (h : StarShaped s c m) : StarShaped s (c + d) (mapVerts (fun p => p + d) m) := by
  have e : ∀ p : V, p + d - (c + d) = p - c := fun p => by ext <;> simp
  obtain ⟨h1, t, ht, h2⟩ := h
  refine ⟨fun t ht => ?_, ⟨t.v0 + d, t.v1 + d, t.v2 + d⟩, List.mem_map.2 ⟨t, ht, rfl⟩, by simp only [e]; exact h2⟩
  obtain ⟨t, ht', rfl⟩ := List.mem_map.1 ht
  simp only [e]
  exact h1 t ht'

theorem star_sign {s : ℝ} (hs : s = 1 ∨ s = -1) {c : V} {m : TriMesh ℝ} (hc : Closed m) (h : StarShaped s c m) : 0 < s * signedVolume m := by
  have hz : StarZero s (mapVerts (fun v => v - c) m) := by
    obtain ⟨h1, t, ht, h2⟩ := h
    refine ⟨fun t ht => ?_, ⟨⟨t.v0 - c, t.v1 - c, t.v2 - c⟩, List.mem_map.2 ⟨t, ht, rfl⟩, h2⟩⟩
    obtain ⟨t, ht', rfl⟩ := List.mem_map.1 ht
    exact h1 t ht'
  rw [← (moments_turnsBy (shift_turns c) hc).1]
  exact hz.volume

/-- C166 is violated by vehicles of several parts: two equal convex parts next to each other.  For each of them the reported properties are
possible, but the tensor of inertia reported for the vehicle is not that of any body, whatever the densities and the resolution. -/
theorem C166_pair_violated (n : ℕ) (hn : 1 ≤ n) (lib : Lib) (hl : NumpyStlInertia lib) (hlib : ∀ M ρ, ∃ q, lib.massProps M ρ = .ok q) (depth : ℕ)
    (ρ₀ ρ : ℝ) (h0 : 0 < ρ₀) (h1 : 0 < ρ) :
    ∃ st st' a st1 I, addAll ⟨pairHeap n, {}⟩ twoOpts = .ok st ∧ generate lib depth st = (.ok (), st') ∧
      (∀ e ∈ st'.veh.named, StarPart [("body", ρ₀), ("right", ρ)] st'.heap e) ∧
      analyse lib (depth + 1) st' [("body", ρ₀), ("right", ρ)] = (.ok a, st1) ∧ a.moi = some I ∧ ¬ IsInertia I := by
  obtain ⟨st, st', B, F, k1, k2, k3, k4, k5, k6, k7, k8, k9, k10, k11, k12, k13, g, M, d, k14, k15, k16⟩ := two_parts n hn lib depth
  obtain ⟨c, i1, i2⟩ := C166_hexahedron _ _ (convex_prism 1 _ _ 1 (-1) (by norm_num) (wedge_convex 1 1 one_pos one_pos)) n hn none
  have same : Swept.init (diamond 1 (-1)) true (.int n) none = .ok c := i1
  rw [diamond_init 1 (-1) n hn] at same
  obtain rfl := Except.ok.inj same
  obtain ⟨g', M', d', s, p, j1, j2, j3, j4, j5, -⟩ := i2 (pairHeap n) 0 rfl
  rw [k14] at j1
  obtain rfl := (Prod.mk.inj j1).2
  rw [k15] at j2
  obtain rfl := Except.ok.inj (Prod.mk.inj j2).1
  rw [k16] at j5
  have hs1 : s = 1 := by
    have := star_sign j4 k7 j5
    rw [k8] at this
    rcases j4 with rfl | rfl
    · rfl
    · linarith
  subst hs1
  have hF : StarShaped 1 (p + ⟨0, 0, 2⟩) F := by
    have := star_moved ⟨0, 0, 2⟩ j5
    have e : (fun q : V => q + ⟨0, 0, 2⟩) = fun q => ⟨q.x, q.y, q.z + 2⟩ := by
      funext q; ext <;> simp
    rw [e, ← k13] at this
    exact this
  obtain ⟨MB, cB, mB, eB⟩ := k5
  obtain ⟨MF, cF, mF, eF⟩ := k6
  have hparts : ∀ e ∈ st'.veh.named, StarPart [("body", ρ₀), ("right", ρ)] st'.heap e := by
    rw [k4]
    intro e he
    simp only [List.mem_cons, List.not_mem_nil, or_false] at he
    rcases he with rfl | rfl
    · exact ⟨MB, cB, _, ρ₀, mB, by rw [eB]; exact k7, by rw [eB]; exact j5, by simp [Dict.get?], h0⟩
    · exact ⟨MF, cF, _, ρ, mF, by rw [eF]; exact k9, by rw [eF]; exact hF, by simp [Dict.get?], h1⟩
  obtain ⟨a, st1, ha⟩ := analyse_succeeds lib hlib st' [("body", ρ₀), ("right", ρ)] depth k3.generated (by rw [k4]; simp)
    (fun e he => by obtain ⟨M, d, -, -, hN, -⟩ := hparts e he; exact ⟨M, d, hN⟩)
    (fun e he => by obtain ⟨-, -, -, ρ, -, -, -, hd, -⟩ := hparts e he; exact ⟨ρ, hd⟩)
  obtain ⟨-, hm, hc, -⟩ := C166_vehicle_partial lib hl depth st' st1 _ a k3.generated hparts ha
  have ha' := ha
  rw [analyse_generated lib depth st' _ k3.generated] at ha'
  obtain ⟨l, f1, f2⟩ := (analyseGenerated_ok lib st' _ a).1 ⟨_, ha'⟩
  have c1 := (summarise_ok l a f2).1
  rw [k4] at f1
  cases f1 with
  | @cons _ x _ _ f1 f1' =>
    cases f1' with
    | @cons _ y _ _ f3 f3' =>
      cases f3'
      obtain ⟨-, M1, c1', r, m1, d1, p1, -⟩ := f1
      obtain ⟨-, M2, c2', r', m2, d2, p2, -⟩ := f3
      have eM : M1.tris = B := meshIs_unique ⟨M1, c1', m1, rfl⟩ ⟨MB, cB, mB, eB⟩
      have eN : M2.tris = F := meshIs_unique ⟨M2, c2', m2, rfl⟩ ⟨MF, cF, mF, eF⟩
      have a3 := (C111_component lib hl.toNumpyStl M1 (by rw [eM]; exact k7) _ _ p1).2.2 (by rw [eM, k8]; norm_num)
      have b3 := (C111_component lib hl.toNumpyStl M2 (by rw [eN]; exact k9) _ _ p2).2.2 (by rw [eN, k10]; norm_num)
      rw [eM] at a3
      rw [eN] at b3
      have hcen : centroid F = centroid B + ⟨0, 0, 2⟩ := by
        have t : TurnsBy (fun q : V => ⟨q.x, q.y, q.z + 2⟩) 1 := by
          refine ⟨one_mem _, ![0, 0, 2], fun p => ?_⟩
          rw [Matrix.one_mulVec]
          funext i
          fin_cases i <;> simp [toF]
        rw [k13, ((moments_turnsBy t k7).2 (by rw [k8]; norm_num)).1]
        ext <;> simp
      obtain ⟨I, z1, z2⟩ := spread_not_inertia lib depth st' st1 _ a k3.generated ha hm.ne' (fun q hq => ⟨(hc q hq).1, (hc q hq).2.1⟩)
        (centroid B).x (centroid B).y (by
          rw [c1]
          intro q hq
          simp only [List.mem_cons, List.not_mem_nil, or_false] at hq
          rcases hq with rfl | rfl
          · rw [a3]; exact ⟨rfl, rfl⟩
          · rw [b3, hcen]; simp) x y (by rw [c1]; simp) (by rw [c1]; simp) (by
          rw [a3, b3, k11, k12]; norm_num)
      exact ⟨st, st', a, st1, I, k1, k2, hparts, ha, z1, z2⟩

/-- C166 is violated by the parametric wedge, whose mesh is inside out: whatever its dimensions, its resolution and the density, the
reported volume and mass are negative, and the reported moment of inertia about every axis through the centre is negative. -/
theorem C166_wedge_violated (h : Heap) (id : ℕ) (kwargs : Dict String ℝ) (hk : kwargs.keys.Nodup) (w c t : ℝ)
    (hw : given kwargs "wingspan" 1 w) (hc : given kwargs "chord" 1 c) (ht : given kwargs "thickness" 0.1 t)
    (hw0 : 0 < w) (hc0 : 0 < c) (ht0 : 0 < t) (lib : Lib) (hl : NumpyStlInertia lib) (depth : ℕ) (ρ : ℝ) (hρ : 0 < ρ) :
    ∃ st, Wedge.instanceOf h id kwargs = .ok st ∧ ∀ n : ℕ, 1 ≤ n → ∃ st', generate lib depth (withResolution st id n) = (.ok (), st') ∧
      ∀ a st'', analyse lib (depth + 1) st' [("swept_1", ρ)] = (.ok a, st'') →
        a.volume < 0 ∧ a.mass < 0 ∧ ∃ I, a.moi = some I ∧ IsInertia (fun i j => -I i j) ∧ ∀ u : Fin 3 → ℝ, u ≠ 0 → form I u < 0 := by
  obtain ⟨st, h1, h2, h3, -, h5, h6⟩ := C90_partial h id kwargs hk w c t hw hc ht
  obtain ⟨st0, s1, s2, s3, s4⟩ := wedge_swept h id kwargs hk w c t hw hc ht
  rw [h1] at s1
  obtain rfl := Except.ok.inj s1
  refine ⟨st, h1, fun n hn => ?_⟩
  obtain ⟨st', M, c', g1, g2, g3, g4⟩ := h6 n hn lib depth
  change generate lib depth (withResolution st id n) = _ at g1
  have w0 : (withResolution st id n).heap id = Swept.comp (Wedge.sections w c t) 4 true (.int n) none := by
    show (st.heap.upd id { st.heap id with stl_resolution := .int n }) id = _
    rw [upd_self, s3]
    rfl
  have hch : ((withResolution st id n).heap id).children = [] := by unfold Comp.children; rw [w0]; rfl
  have hcs : (withResolution st id n).veh.components = [id] := by rw [withResolution, s2]; rfl
  obtain ⟨g, q1, q2⟩ := generate_plain_component lib depth _ st' (by rw [withResolution, s2]; rfl) (by rw [withResolution, s2]; rfl)
    (by rw [withResolution, s2]; rfl) ⟨by rw [hcs]; simp, fun k hk k' hk' => by
      rw [hcs] at hk hk'
      obtain rfl := List.mem_singleton.1 hk'
      rw [hch]; simp, fun k hk k' hk' hne => by
      rw [hcs] at hk hk'
      rw [List.mem_singleton] at hk hk'
      exact absurd (hk.trans hk'.symm) hne⟩ g1 id (by rw [hcs]; simp)
  have hpipe : st'.heap id = g id := by
    obtain ⟨P, R, T, e⟩ := generatePatches_opts (withResolution st id n).heap id (by rw [hch]; simp)
    rw [q1] at e
    change g id = _ at e
    rw [pipeline_plain (g id) (by rw [e, w0]; rfl) (by rw [e, w0]; rfl) (by rw [e, w0]; rfl) (by rw [e, w0]; rfl)] at q2
    exact (Prod.mk.inj q2).2.symm
  obtain ⟨c₁, i1, i2⟩ := C166_hexahedron _ _ (convex_prism 1 _ _ (-(w / 2)) (w / 2) (by linarith) (wedge_convex c t hc0 ht0)) n hn none
  have same : Swept.init (Wedge.sections w c t) true (.int n) none = .ok c₁ := by rw [wedge_sections]; exact i1
  rw [s4 n hn] at same
  obtain rfl := Except.ok.inj same
  obtain ⟨g', M', d', s, p, j1, j2, j3, j4, j5, j6⟩ := i2 (withResolution st id n).heap id w0
  rw [q1] at j1
  obtain rfl := (Prod.mk.inj j1).2
  rw [← hpipe, g2] at j2
  obtain rfl := Except.ok.inj (Prod.mk.inj j2).1
  have hs1 : s = -1 := by
    have := star_sign j4 g3 j5
    rw [g4] at this
    rcases j4 with rfl | rfl
    · have : 0 < c * t * w / 2 := by positivity
      linarith
    · rfl
  subst hs1
  have hgen : st'.veh.generated = true ∧ st'.veh.named = [("swept_1", id)] := by
    obtain ⟨-, -, -, -, -, -, x, y, hv⟩ := generate_steps lib depth _ st' g1
    rw [hv]
    exact ⟨rfl, h3⟩
  refine ⟨st', g1, fun a st'' ha => ?_⟩
  have ha' := ha
  rw [analyse_generated lib depth st' _ hgen.1] at ha'
  obtain ⟨l, f1, f2⟩ := (analyseGenerated_ok lib st' _ a).1 ⟨_, ha'⟩
  obtain ⟨c1, -, c2, c3, -⟩ := summarise_ok l a f2
  rw [hgen.2] at f1
  cases f1 with
  | @cons _ q _ _ f1 f1' =>
    cases f1'
    obtain ⟨-, N, d, r, m1, d1, p1, -⟩ := f1
    rw [g2] at m1
    obtain rfl := Except.ok.inj (Prod.mk.inj m1).1
    have er : ρ = r := by simpa [Dict.get?] using d1
    subst er
    have hP := j6 lib hl ρ _ hρ p1
    have v1 := hP.volume
    have v2 := hP.mass
    simp only [List.map_cons, List.map_nil, List.sum_cons, List.sum_nil, add_zero] at c2 c3
    have v1' : a.volume < 0 := by rw [c2]; simp only at v1; linarith
    have v2' : a.mass < 0 := by rw [c3]; simp only at v2; linarith
    refine ⟨v1', v2', ?_⟩
    have hmean := C77_mean lib depth st' st'' _ a hgen.1 ha v2'.ne
    obtain ⟨gg, I, e1, e2, e3⟩ := moi_returned lib depth st' st'' _ a hgen.1 ha v2'.ne
    have hcg : q.2.props.cog = gg := by
      rw [e1] at hmean
      have := Option.some.inj hmean
      have hm0 : q.2.props.mass ≠ 0 := by rw [← c3]; exact v2'.ne
      rw [this]
      unfold weightedMean masses
      rw [c1]
      ext <;> simp <;> field_simp
    have hI : I = q.2.props.moi := by
      funext i j
      rw [e3, c1]
      have : coord (q.2.props.cog - gg) j = 0 := by rw [hcg]; fin_cases j <;> simp [coord]
      simp [this]
    have hmoi : IsInertia fun i j => -I i j := by
      have := hP.moi
      simp only [neg_mul, one_mul] at this
      rw [hI]
      exact this
    refine ⟨I, e2, hmoi, fun u hu => ?_⟩
    have := (hmoi.2 u hu).1
    have e : form (fun i j => -I i j) u = -form I u := by simp only [form, Fin.sum_univ_three]; ring
    linarith

/-- A prism of length two with the section of the wedge meets the hypotheses of `C166_hexahedron`. -/
example : ConvexHexahedron (fun k => ⟨wedgeX 1 k, wedgeY 1 k, 1⟩) (fun k => ⟨wedgeX 1 k, wedgeY 1 k, -1⟩) :=
  convex_prism 1 _ _ 1 (-1) (by norm_num) (wedge_convex 1 1 one_pos one_pos)

/-- The library of the examples meets the assumptions of `C166_pair_violated`, so that there is such a vehicle, and `C166_vehicle_partial`
applies to it. -/
example : ∃ st a st1, (∀ e ∈ st.veh.named, StarPart [("body", 1), ("right", 2)] st.heap e) ∧
    analyse numpyStlFull 1 st [("body", 1), ("right", 2)] = (.ok a, st1) := by
  obtain ⟨-, st', a, st1, -, -, -, h1, h2, -⟩ := C166_pair_violated 2 (by norm_num) numpyStlFull numpyStlFull_ok (fun M ρ => ⟨_, rfl⟩) 0 1 2
    one_pos two_pos
  exact ⟨st', a, st1, h1, h2⟩

end HV
