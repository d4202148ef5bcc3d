import Verif.Model.Geometry
import Verif.Lemmas.Vec
import Verif.Lemmas.Str
import Verif.Spec.Rigid

/-!
# Properties C25, C26, C27: rotation and mirroring
-/

namespace HV

open Spec Matrix

/-- The axis with index `i`. -/
def Ax.ofFin : Fin 3 → Ax := ![.x, .y, .z]

theorem namesAxis_iff (s : String) (i : Fin 3) : NamesAxis s i ↔ axisOf s = some (Ax.ofFin i) := by
  rw [axisOf_eq_some]
  fin_cases i <;> rfl

theorem vdist_sq (u v : V) : vdist u v ^ 2 = (u.x - v.x) ^ 2 + (u.y - v.y) ^ 2 + (u.z - v.z) ^ 2 := by
  rw [← Vec.abs_sub_eq_vdist, Vec.abs_sq]
  simp [Vec.dot]; ring

theorem vdist_eq_of_sq {u v u' v' : V} (h : vdist u v ^ 2 = vdist u' v' ^ 2) : vdist u v = vdist u' v' :=
  (pow_left_inj₀ dist_nonneg dist_nonneg (by norm_num)).1 h

theorem triple_eq (a b c d : V) : triple a b c d =
    (b.x - a.x) * ((c.y - a.y) * (d.z - a.z) - (c.z - a.z) * (d.y - a.y))
    + (b.y - a.y) * ((c.z - a.z) * (d.x - a.x) - (c.x - a.x) * (d.z - a.z))
    + (b.z - a.z) * ((c.x - a.x) * (d.y - a.y) - (c.y - a.y) * (d.x - a.x)) := by
  simp [triple, toF, cross_apply, dotProduct, Fin.sum_univ_three]

theorem rodrigues_apply (k v : Fin 3 → ℝ) (θ : ℝ) (j : Fin 3) : rodrigues k v θ j =
    Real.cos θ * v j + Real.sin θ * (k ⨯₃ v) j + ((1 - Real.cos θ) * (k 0 * v 0 + k 1 * v 1 + k 2 * v 2)) * k j := by
  unfold rodrigues
  rw [Pi.add_apply, Pi.add_apply, Pi.smul_apply, Pi.smul_apply, Pi.smul_apply, smul_eq_mul, smul_eq_mul,
    smul_eq_mul, dotProduct, Fin.sum_univ_three]

theorem cross_apply' (k v : Fin 3 → ℝ) : (k ⨯₃ v) 0 = k 1 * v 2 - k 2 * v 1 ∧
    (k ⨯₃ v) 1 = k 2 * v 0 - k 0 * v 2 ∧ (k ⨯₃ v) 2 = k 0 * v 1 - k 1 * v 0 := by
  simp [cross_apply]

/-- The point produced by `RotatedPatch`. -/
theorem RotatedPatch_eq (surf : Surf) (θ : ℝ) (axis : String) (a : Ax) (point : V)
    (ha : axisOf axis = some a) (r s : ℝ) (p : V) (hp : surf r s = .ok p) :
    RotatedPatch surf θ axis point r s = .ok (rotAbout a θ (p - point) + point) := by
  simp only [RotatedPatch, hp, ha, bind, Except.bind, pure, Except.pure]

/-- C25: a rotated patch is obtained pointwise by rotating about the line through `point` in direction
of the named axis, by the given angle, in the sense of the right-hand rule. -/
theorem C25_rotation (surf : Surf) (θ : ℝ) (axis : String) (i : Fin 3) (point : V)
    (ha : NamesAxis axis i) (r s : ℝ) (p : V) (hp : surf r s = .ok p) :
    ∃ q, RotatedPatch surf θ axis point r s = .ok q ∧
      toF q = toF point + rodrigues (Pi.single i 1) (toF p - toF point) θ := by
  rw [namesAxis_iff] at ha
  refine ⟨_, RotatedPatch_eq surf θ axis _ point ha r s p hp, ?_⟩
  funext j
  rw [Pi.add_apply, rodrigues_apply]
  obtain ⟨c0, c1, c2⟩ := cross_apply' (Pi.single i 1) (toF p - toF point)
  fin_cases i <;> fin_cases j <;> simp only [Fin.zero_eta, Fin.mk_one, Fin.reduceFinMk] at c0 c1 c2 ⊢ <;>
    simp only [c0, c1, c2, Pi.sub_apply] <;> simp [Ax.ofFin, rotAbout, toF] <;> ring

/-- C25: rotation preserves distances between any two surface points and the signed volume (triple
product) of any four, and fixes every surface point on the rotation axis. -/
theorem C25_rigid (surf : Surf) (θ : ℝ) (axis : String) (i : Fin 3) (point : V) (ha : NamesAxis axis i)
    (r s : Fin 4 → ℝ) (p : Fin 4 → V) (hp : ∀ k, surf (r k) (s k) = .ok (p k)) :
    ∃ q : Fin 4 → V, (∀ k, RotatedPatch surf θ axis point (r k) (s k) = .ok (q k)) ∧
      (∀ k l, vdist (q k) (q l) = vdist (p k) (p l)) ∧
      triple (q 0) (q 1) (q 2) (q 3) = triple (p 0) (p 1) (p 2) (p 3) ∧
      ∀ k, (∀ j, j ≠ i → toF (p k) j = toF point j) → q k = p k := by
  rw [namesAxis_iff] at ha
  have hcs := Real.sin_sq_add_cos_sq θ
  refine ⟨fun k => rotAbout (Ax.ofFin i) θ (p k - point) + point,
    fun k => RotatedPatch_eq surf θ axis _ point ha _ _ _ (hp k), ?_, ?_, ?_⟩
  · intro k l
    apply vdist_eq_of_sq
    rw [vdist_sq, vdist_sq]
    fin_cases i <;> simp only [Ax.ofFin, rotAbout, Fin.zero_eta, Fin.mk_one, Fin.reduceFinMk, cons_val_zero,
      cons_val_one, cons_val, Vec.add_x, Vec.add_y, Vec.add_z, Vec.sub_x, Vec.sub_y, Vec.sub_z]
    · linear_combination (((p k).y - (p l).y) ^ 2 + ((p k).z - (p l).z) ^ 2) * hcs
    · linear_combination (((p k).x - (p l).x) ^ 2 + ((p k).z - (p l).z) ^ 2) * hcs
    · linear_combination (((p k).x - (p l).x) ^ 2 + ((p k).y - (p l).y) ^ 2) * hcs
  · rw [triple_eq, triple_eq]
    set A := p 0; set B := p 1; set C := p 2; set D := p 3
    fin_cases i <;> simp only [Ax.ofFin, rotAbout, Fin.zero_eta, Fin.mk_one, Fin.reduceFinMk, cons_val_zero,
      cons_val_one, cons_val, Vec.add_x, Vec.add_y, Vec.add_z, Vec.sub_x, Vec.sub_y, Vec.sub_z]
    all_goals
      linear_combination ((B.x - A.x) * ((C.y - A.y) * (D.z - A.z) - (C.z - A.z) * (D.y - A.y))
        + (B.y - A.y) * ((C.z - A.z) * (D.x - A.x) - (C.x - A.x) * (D.z - A.z))
        + (B.z - A.z) * ((C.x - A.x) * (D.y - A.y) - (C.y - A.y) * (D.x - A.x))) * hcs
  · intro k h
    have hx := h 0
    have hy := h 1
    have hz := h 2
    fin_cases i <;> simp [toF] at hx hy hz <;> ext <;>
      simp [Ax.ofFin, rotAbout, hx, hy, hz]

/-- Rotating the point (1,2,3) by a quarter turn about z gives (-2,1,3). -/
example : RotatedPatch (fun _ _ => .ok ⟨1, 2, 3⟩) (Real.pi / 2) "z" ⟨0, 0, 0⟩ 0 0 = .ok ⟨-2, 1, 3⟩ := by
  rw [RotatedPatch_eq _ _ "z" .z _ (by simp) 0 0 ⟨1, 2, 3⟩ rfl]
  congr 1
  ext <;> simp [rotAbout]

/-! ## C26 -/

theorem rotAbout_rotAbout (a : Ax) (α β : ℝ) (v : V) :
    rotAbout a β (rotAbout a α v) = rotAbout a (α + β) v := by
  cases a <;> ext <;> simp [rotAbout, Real.cos_add, Real.sin_add] <;> ring

/-- C26: rotations about one axis and point compose additively, and opposite rotations cancel. -/
theorem C26_compose (surf : Surf) (α β : ℝ) (axis : String) (i : Fin 3) (point : V)
    (ha : NamesAxis axis i) :
    RotatedPatch (RotatedPatch surf α axis point) β axis point = RotatedPatch surf (α + β) axis point ∧
    RotatedPatch (RotatedPatch surf α axis point) (-α) axis point = surf := by
  rw [namesAxis_iff] at ha
  constructor
  · funext r s
    cases hp : surf r s with
    | error e => simp [RotatedPatch, hp, bind, Except.bind]
    | ok p =>
      rw [RotatedPatch_eq _ _ _ _ _ ha r s p hp,
        RotatedPatch_eq _ _ _ _ _ ha r s _ (RotatedPatch_eq _ _ _ _ _ ha r s p hp)]
      congr 1
      rw [← rotAbout_rotAbout]
      congr 2
      ext <;> simp
  · funext r s
    cases hp : surf r s with
    | error e => simp [RotatedPatch, hp, bind, Except.bind]
    | ok p =>
      rw [RotatedPatch_eq _ _ _ _ _ ha r s _ (RotatedPatch_eq _ _ _ _ _ ha r s p hp)]
      congr 1
      have e : rotAbout (Ax.ofFin i) α (p - point) + point - point = rotAbout (Ax.ofFin i) α (p - point) := by
        ext <;> simp
      rw [e, rotAbout_rotAbout, add_neg_cancel]
      cases Ax.ofFin i <;> ext <;> simp [rotAbout]

/-- C26: the axis name is case-insensitive; any other name fails on every evaluation. -/
theorem C26_axis_names (surf : Surf) (θ : ℝ) (point : V) :
    (∀ axis axis' i, NamesAxis axis i → NamesAxis axis' i →
      RotatedPatch surf θ axis point = RotatedPatch surf θ axis' point) ∧
    (∀ axis, (∀ i, ¬ NamesAxis axis i) → ∀ r s, ∃ e, RotatedPatch surf θ axis point r s = .error e) := by
  constructor
  · intro axis axis' i h h'
    rw [namesAxis_iff] at h h'
    funext r s
    simp only [RotatedPatch, h, h']
  · intro axis h r s
    have hn : axisOf axis = none := by
      cases ha : axisOf axis with
      | none => rfl
      | some a =>
        exfalso
        cases a
        · exact h 0 ((namesAxis_iff _ _).2 ha)
        · exact h 1 ((namesAxis_iff _ _).2 ha)
        · exact h 2 ((namesAxis_iff _ _).2 ha)
    cases hp : surf r s with
    | error e => exact ⟨e, by simp [RotatedPatch, hp, bind, Except.bind]⟩
    | ok p =>
      exact ⟨.unbound, by simp [RotatedPatch, hp, hn, bind, Except.bind, throw, throwThe,
        MonadExceptOf.throw]⟩

example : NamesAxis "x" 0 ∧ NamesAxis "X" 0 ∧ ∀ i, ¬ NamesAxis "xy" i := by
  refine ⟨.inl rfl, .inr rfl, ?_⟩
  intro i
  fin_cases i <;> simp [NamesAxis]

/-! ## C27 -/

/-- C27, what holds: for a valid axis name the mirrored patch negates exactly that coordinate, preserves
distances, reverses the signed volume of four points, and mirroring twice gives the original patch.
Missing: unknown axis names are not reported, see `C27_unknown_axis_violated`. -/
theorem C27_mirror_partial (surf : Surf) (axis : String) (i : Fin 3) (ha : NamesAxis axis i) :
    (∀ r s p, surf r s = .ok p → ∃ q, MirroredPatch surf axis r s = .ok q ∧ toF q = negCoord i (toF p)) ∧
    (∀ r s e, surf r s = .error e → MirroredPatch surf axis r s = .error e) ∧
    MirroredPatch (MirroredPatch surf axis) axis = surf ∧
    (∀ (r s : Fin 4 → ℝ) (p : Fin 4 → V), (∀ k, surf (r k) (s k) = .ok (p k)) →
      ∃ q : Fin 4 → V, (∀ k, MirroredPatch surf axis (r k) (s k) = .ok (q k)) ∧
        (∀ k l, vdist (q k) (q l) = vdist (p k) (p l)) ∧
        triple (q 0) (q 1) (q 2) (q 3) = - triple (p 0) (p 1) (p 2) (p 3)) := by
  rw [namesAxis_iff] at ha
  have hm : ∀ r s p, surf r s = .ok p →
      MirroredPatch surf axis r s = .ok (mirrorAlong (some (Ax.ofFin i)) p) := by
    intro r s p hp
    simp only [MirroredPatch, hp, ha, bind, Except.bind, pure, Except.pure]
  refine ⟨?_, ?_, ?_, ?_⟩
  · intro r s p hp
    refine ⟨_, hm r s p hp, ?_⟩
    funext j
    fin_cases i <;> fin_cases j <;>
      simp [Ax.ofFin, mirrorAlong, toF, negCoord, Function.update]
  · intro r s e h
    simp [MirroredPatch, h, bind, Except.bind]
  · funext r s
    cases hp : surf r s with
    | error e => simp [MirroredPatch, hp, bind, Except.bind]
    | ok p =>
      have h1 := hm r s p hp
      simp only [MirroredPatch] at h1 ⊢
      rw [h1]
      simp only [ha, bind, Except.bind, pure, Except.pure, Except.ok.injEq]
      cases Ax.ofFin i <;> ext <;> simp [mirrorAlong]
  · intro r s p hp
    refine ⟨fun k => mirrorAlong (some (Ax.ofFin i)) (p k), fun k => hm _ _ _ (hp k), ?_, ?_⟩
    · intro k l
      apply vdist_eq_of_sq
      rw [vdist_sq, vdist_sq]
      cases Ax.ofFin i <;> simp only [mirrorAlong] <;> ring
    · rw [triple_eq, triple_eq]
      cases Ax.ofFin i <;> simp only [mirrorAlong] <;> ring

/-- C27 is violated for unknown axis names: the patch is silently returned unchanged. -/
theorem C27_unknown_axis_violated :
    ¬ ∀ (surf : Surf) (axis : String), (∀ i, ¬ NamesAxis axis i) → ∀ r s,
      ∃ e, MirroredPatch surf axis r s = .error e := by
  intro h
  have hn : axisOf "xz" = none := by
    cases ha : axisOf "xz" with
    | none => rfl
    | some a => cases a <;> have := (axisOf_eq_some _ _).1 ha <;> simp at this
  obtain ⟨e, he⟩ := h (fun _ _ => .ok ⟨1, 2, 3⟩) "xz" (by intro i; fin_cases i <;> simp [NamesAxis]) 0 0
  simp [MirroredPatch, hn, bind, Except.bind, pure, Except.pure] at he

example : MirroredPatch (fun r s => .ok ⟨r, s, 1⟩) "y" 2 3 = .ok ⟨2, -3, 1⟩ := by
  simp [MirroredPatch, mirrorAlong, bind, Except.bind, pure, Except.pure]

end HV
