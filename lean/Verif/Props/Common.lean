import Verif.Props.Wing
import Verif.Props.Arc
import Verif.Props.Polyline
import Verif.Props.Revolved

/-!
# C92, C93: `common.py`
-/

namespace HV
open Spec

/-- An arc whose plane normal has no `y` component, by spherical interpolation. -/
theorem arc_slerp (a b c : V) (hr : vdist a c = vdist b c) (hy : (Vec.cross (a - c) (b - c)).y = 0)
    (hz : (Vec.cross (a - c) (b - c)).z ≠ 0) :
    ∃ θ, θ = EuclideanGeometry.angle (toE a) (toE c) (toE b) ∧ 0 < θ ∧ θ < Real.pi ∧ 0 < vdist b c ∧
      (Arc a b c).length = .ok (θ * vdist b c) ∧
      ∀ t, (Arc a b c).call t = .ok (c + (a - c) * (Real.sin (θ * (1 - t)) / Real.sin θ)
        + (b - c) * (Real.sin (θ * t) / Real.sin θ)) := by
  have hN : (Vec.cross (a - c) (b - c)).abs ≠ 0 := by
    rw [ne_eq, Vec.abs_eq_zero_iff]
    intro h
    exact hz (congrArg Vec.z h)
  have hc : ¬ Collinear ℝ ({toE c, toE a, toE b} : Set E3) := fun h => hN ((Arc.cross_eq_zero_iff_collinear a b c).2 h)
  have hr' : |vdist a c - vdist b c| ≤ 1 / 10 ^ 5 := by rw [hr]; simp
  obtain ⟨t1, t2, n, ho, ha, hn, hb, h0, hpi, hB, he⟩ := Arc.eval_ok a b c 1 hr' hc
  refine ⟨_, rfl, h0, hpi, hB, ?_, ?_⟩
  · simp only [Arc, he, bind, Except.bind, pure, Except.pure]
  intro t
  obtain ⟨t1, t2, n, ho, ha, hn, hb, -, -, -, he⟩ := Arc.eval_ok a b c t hr' hc
  set θ := EuclideanGeometry.angle (toE a) (toE c) (toE b)
  have h3 := congrArg Vec.y hn
  rw [hy] at h3
  have hny : n.y = 0 := by
    simp only [Vec.mul_y] at h3
    exact (mul_eq_zero.1 h3).resolve_right hN
  simp only [Arc, he, bind, Except.bind, pure, Except.pure, hny, mul_zero, Except.ok.injEq]
  have hs : Real.sin θ ≠ 0 := (Real.sin_pos_of_pos_of_lt_pi h0 hpi).ne'
  have e : Real.sin (θ * (1 - t)) = Real.sin θ * Real.cos (θ * t) - Real.cos θ * Real.sin (θ * t) := by
    rw [mul_sub, mul_one, Real.sin_sub]
  rw [hb, ha, hr, e]
  ext <;> simp <;> field_simp <;> ring

/-! ## C92 -/

/-- A quarter circle: the radii are perpendicular. -/
theorem arc_quarter (a b c : V) (hr : vdist a c = vdist b c) (hy : (Vec.cross (a - c) (b - c)).y = 0)
    (hz : (Vec.cross (a - c) (b - c)).z ≠ 0) (hd : Vec.dot (a - c) (b - c) = 0) (t : ℝ) :
    (Arc a b c).call t = .ok (c + (a - c) * Real.cos (Real.pi / 2 * t) + (b - c) * Real.sin (Real.pi / 2 * t)) := by
  obtain ⟨θ, h1, h2, h3, h4, h5, h6⟩ := arc_slerp a b c hr hy hz
  have hθ : θ = Real.pi / 2 := by
    rw [h1, EuclideanGeometry.angle, ← InnerProductGeometry.inner_eq_zero_iff_angle_eq_pi_div_two]
    rw [vsub_eq_sub, vsub_eq_sub, ← Vec.toE_sub, ← Vec.toE_sub, ← Vec.dot_eq_inner]
    exact hd
  rw [h6, hθ, Real.sin_pi_div_two, div_one, div_one, mul_sub, mul_one, Real.sin_pi_div_two_sub]

/-- The part of a circle within 45 degrees of the `y` axis. -/
theorem circle_sector {x y r : ℝ} (hr : 0 < r) (h : x ^ 2 + y ^ 2 = r ^ 2) (hxy : |x| ≤ y) :
    ∃ t, 0 ≤ t ∧ t ≤ 1 ∧ x = r * Real.sin (Real.pi / 2 * t - Real.pi / 4) ∧ y = r * Real.cos (Real.pi / 2 * t - Real.pi / 4) := by
  have hpi := Real.pi_pos
  have hy0 : 0 ≤ y := (abs_nonneg x).trans hxy
  have hx2 : x ^ 2 ≤ y ^ 2 := by rw [← sq_abs x]; exact pow_le_pow_left₀ (abs_nonneg _) hxy 2
  have h2 : (x / r) ^ 2 ≤ (Real.sqrt 2 / 2) ^ 2 := by
    rw [div_pow, div_pow, Real.sq_sqrt (by norm_num), div_le_div_iff₀ (by positivity) (by norm_num)]
    nlinarith
  have h3 := abs_le.1 (abs_le_of_sq_le_sq h2 (by positivity))
  have hs4 : Real.arcsin (Real.sqrt 2 / 2) = Real.pi / 4 := by
    rw [← Real.sin_pi_div_four, Real.arcsin_sin] <;> linarith
  have hlo : -(Real.pi / 4) ≤ Real.arcsin (x / r) := by
    rw [← hs4, ← Real.arcsin_neg]; exact Real.monotone_arcsin h3.1
  have hhi : Real.arcsin (x / r) ≤ Real.pi / 4 := by
    rw [← hs4]; exact Real.monotone_arcsin h3.2
  have h4 : Real.sqrt 2 / 2 ≤ 1 := by
    have : Real.sqrt 2 ≤ 2 := by rw [Real.sqrt_le_left (by norm_num)]; norm_num
    linarith
  refine ⟨(Real.arcsin (x / r) + Real.pi / 4) / (Real.pi / 2), div_nonneg (by linarith) (by linarith), ?_, ?_, ?_⟩
  · rw [div_le_one (by linarith)]; linarith
  · have e : Real.pi / 2 * ((Real.arcsin (x / r) + Real.pi / 4) / (Real.pi / 2)) - Real.pi / 4 = Real.arcsin (x / r) := by
      field_simp; ring
    rw [e, Real.sin_arcsin (by linarith [h3.1]) (by linarith [h3.2])]
    field_simp
  · have e : Real.pi / 2 * ((Real.arcsin (x / r) + Real.pi / 4) / (Real.pi / 2)) - Real.pi / 4 = Real.arcsin (x / r) := by
      field_simp; ring
    rw [e, Real.cos_arcsin]
    have : 1 - (x / r) ^ 2 = (y / r) ^ 2 := by
      field_simp; linarith
    rw [this, Real.sqrt_sq (by positivity)]
    field_simp

theorem sin_cos_quarter (t : ℝ) :
    Real.cos (Real.pi / 2 * t) = Real.sqrt 2 / 2 * (Real.cos (Real.pi / 2 * t - Real.pi / 4) - Real.sin (Real.pi / 2 * t - Real.pi / 4)) ∧
    Real.sin (Real.pi / 2 * t) = Real.sqrt 2 / 2 * (Real.cos (Real.pi / 2 * t - Real.pi / 4) + Real.sin (Real.pi / 2 * t - Real.pi / 4)) := by
  have e : Real.pi / 2 * t = (Real.pi / 2 * t - Real.pi / 4) + Real.pi / 4 := by ring
  set φ := Real.pi / 2 * t - Real.pi / 4
  rw [e, Real.cos_add, Real.sin_add, Real.cos_pi_div_four, Real.sin_pi_div_four]
  constructor <;> ring

/-- The four quarter arcs of `circle_patch` in the plane `z = 0`. -/
theorem circle_arcs (centre : V) (r : ℝ) (hz : centre.z = 0) (hr : 0 < r) (sx sy ux uy : ℝ) (hs : (sx, sy, ux, uy) = (-1, 1, 1, 1) ∨
    (sx, sy, ux, uy) = (1, -1, 1, 1) ∨ (sx, sy, ux, uy) = (-1, -1, 1, -1) ∨ (sx, sy, ux, uy) = (-1, -1, -1, 1)) (t : ℝ) :
    (Arc ⟨centre.x + sx * (r * (Real.sqrt 2 / 2)), centre.y + sy * (r * (Real.sqrt 2 / 2)), 0⟩
      ⟨centre.x + ux * (r * (Real.sqrt 2 / 2)), centre.y + uy * (r * (Real.sqrt 2 / 2)), 0⟩ centre).call t =
    .ok (centre + (⟨sx * (r * (Real.sqrt 2 / 2)), sy * (r * (Real.sqrt 2 / 2)), 0⟩ : V) * Real.cos (Real.pi / 2 * t)
      + (⟨ux * (r * (Real.sqrt 2 / 2)), uy * (r * (Real.sqrt 2 / 2)), 0⟩ : V) * Real.sin (Real.pi / 2 * t)) := by
  have hk : 0 < r * (Real.sqrt 2 / 2) := by positivity
  set k := r * (Real.sqrt 2 / 2)
  have e1 : (⟨centre.x + sx * k, centre.y + sy * k, 0⟩ : V) - centre = ⟨sx * k, sy * k, 0⟩ := by ext <;> simp [hz]
  have e2 : (⟨centre.x + ux * k, centre.y + uy * k, 0⟩ : V) - centre = ⟨ux * k, uy * k, 0⟩ := by ext <;> simp [hz]
  have := arc_quarter ⟨centre.x + sx * k, centre.y + sy * k, 0⟩ ⟨centre.x + ux * k, centre.y + uy * k, 0⟩ centre ?_ ?_ ?_ ?_ t
  · rw [this, e1, e2]
  · rw [← Vec.abs_sub_eq_vdist, ← Vec.abs_sub_eq_vdist, e1, e2, Vec.abs_eq_sqrt_dot, Vec.abs_eq_sqrt_dot]
    rcases hs with h | h | h | h <;> obtain ⟨rfl, rfl, rfl, rfl⟩ : _ ∧ _ ∧ _ ∧ _ := by simpa using h
    all_goals simp [Vec.dot]
  · rw [e1, e2]; simp [Vec.cross]
  · rw [e1, e2]
    rcases hs with h | h | h | h <;> obtain ⟨rfl, rfl, rfl, rfl⟩ : _ ∧ _ ∧ _ ∧ _ := by simpa using h
    all_goals simp only [Vec.cross]; nlinarith
  · rw [e1, e2]
    rcases hs with h | h | h | h <;> obtain ⟨rfl, rfl, rfl, rfl⟩ : _ ∧ _ ∧ _ ∧ _ := by simpa using h
    all_goals simp [Vec.dot]

/-- C92, what holds: for a centre in the plane `z = 0` and a positive radius, the points of the boundary of the patch are exactly
the points at distance `r` from the centre in the plane of the centre.
Missing: centres with `z ≠ 0`, where the property fails (`C92_violated`). -/
theorem C92_circle_partial (centre : V) (r : ℝ) (hz : centre.z = 0) (hr : 0 < r) :
    ∃ P, circlePatch centre r = .ok P ∧ ∀ q, (vdist q centre = r ∧ q.z = centre.z) ↔
      ∃ t, 0 ≤ t ∧ t ≤ 1 ∧ (P t 0 = .ok q ∨ P t 1 = .ok q ∨ P 0 t = .ok q ∨ P 1 t = .ok q) := by
  set k := r * (Real.sqrt 2 / 2) with hk
  have hk2 : k ^ 2 * 2 = r ^ 2 := by
    rw [hk, mul_pow, div_pow, Real.sq_sqrt (by norm_num)]; ring
  have h22 : Real.sqrt 2 * Real.sqrt 2 = 2 := Real.mul_self_sqrt (by norm_num)
  have hN := circle_arcs centre r hz hr (-1) 1 1 1 (by simp)
  have hE := circle_arcs centre r hz hr 1 (-1) 1 1 (by simp)
  have hS := circle_arcs centre r hz hr (-1) (-1) 1 (-1) (by simp)
  have hW := circle_arcs centre r hz hr (-1) (-1) (-1) 1 (by simp)
  rw [← hk] at hN hE hS hW
  have val : ∀ (s u : V), (∀ t, centre + s * Real.cos (Real.pi / 2 * t) + u * Real.sin (Real.pi / 2 * t) =
      centre + (⟨Real.sqrt 2 / 2 * (s.x + u.x) * Real.cos (Real.pi / 2 * t - Real.pi / 4) + Real.sqrt 2 / 2 * (u.x - s.x) *
        Real.sin (Real.pi / 2 * t - Real.pi / 4), Real.sqrt 2 / 2 * (s.y + u.y) * Real.cos (Real.pi / 2 * t - Real.pi / 4) +
        Real.sqrt 2 / 2 * (u.y - s.y) * Real.sin (Real.pi / 2 * t - Real.pi / 4), Real.sqrt 2 / 2 * (s.z + u.z) *
        Real.cos (Real.pi / 2 * t - Real.pi / 4) +
        Real.sqrt 2 / 2 * (u.z - s.z) * Real.sin (Real.pi / 2 * t - Real.pi / 4)⟩ : V)) := by
    intro s u t
    rw [(sin_cos_quarter t).1, (sin_cos_quarter t).2]
    ext <;> simp <;> ring
  have hkr : Real.sqrt 2 * k = r := by rw [hk]; nlinarith
  have hN' : ∀ t, (Arc ⟨centre.x + -1 * k, centre.y + 1 * k, 0⟩ ⟨centre.x + 1 * k, centre.y + 1 * k, 0⟩ centre).call t =
      .ok (centre + ⟨r * Real.sin (Real.pi / 2 * t - Real.pi / 4), r * Real.cos (Real.pi / 2 * t - Real.pi / 4), 0⟩) := by
    intro t; rw [hN, val]; congr 2; ext <;> simp only <;> first
      | ring1
      | linear_combination Real.sin (Real.pi / 2 * t - Real.pi / 4) * hkr
      | linear_combination Real.cos (Real.pi / 2 * t - Real.pi / 4) * hkr
      | linear_combination (-Real.cos (Real.pi / 2 * t - Real.pi / 4)) * hkr
  have hE' : ∀ t, (Arc ⟨centre.x + 1 * k, centre.y + -1 * k, 0⟩ ⟨centre.x + 1 * k, centre.y + 1 * k, 0⟩ centre).call t =
      .ok (centre + ⟨r * Real.cos (Real.pi / 2 * t - Real.pi / 4), r * Real.sin (Real.pi / 2 * t - Real.pi / 4), 0⟩) := by
    intro t; rw [hE, val]; congr 2; ext <;> simp only <;> first
      | ring1
      | linear_combination Real.sin (Real.pi / 2 * t - Real.pi / 4) * hkr
      | linear_combination Real.cos (Real.pi / 2 * t - Real.pi / 4) * hkr
      | linear_combination (-Real.cos (Real.pi / 2 * t - Real.pi / 4)) * hkr
  have hS' : ∀ t, (Arc ⟨centre.x + -1 * k, centre.y + -1 * k, 0⟩ ⟨centre.x + 1 * k, centre.y + -1 * k, 0⟩ centre).call t =
      .ok (centre + ⟨r * Real.sin (Real.pi / 2 * t - Real.pi / 4), -(r * Real.cos (Real.pi / 2 * t - Real.pi / 4)), 0⟩) := by
    intro t; rw [hS, val]; congr 2; ext <;> simp only <;> first
      | ring1
      | linear_combination Real.sin (Real.pi / 2 * t - Real.pi / 4) * hkr
      | linear_combination Real.cos (Real.pi / 2 * t - Real.pi / 4) * hkr
      | linear_combination (-Real.cos (Real.pi / 2 * t - Real.pi / 4)) * hkr
  have hW' : ∀ t, (Arc ⟨centre.x + -1 * k, centre.y + -1 * k, 0⟩ ⟨centre.x + -1 * k, centre.y + 1 * k, 0⟩ centre).call t =
      .ok (centre + ⟨-(r * Real.cos (Real.pi / 2 * t - Real.pi / 4)), r * Real.sin (Real.pi / 2 * t - Real.pi / 4), 0⟩) := by
    intro t; rw [hW, val]; congr 2; ext <;> simp only <;> first
      | ring1
      | linear_combination Real.sin (Real.pi / 2 * t - Real.pi / 4) * hkr
      | linear_combination Real.cos (Real.pi / 2 * t - Real.pi / 4) * hkr
      | linear_combination (-Real.cos (Real.pi / 2 * t - Real.pi / 4)) * hkr
  have c0 : Real.pi / 2 * 0 - Real.pi / 4 = -(Real.pi / 4) := by ring
  have c1 : Real.pi / 2 * 1 - Real.pi / 4 = Real.pi / 4 := by ring
  obtain ⟨P, hP, hsides⟩ := coons_sides _ _ _ _ (fun t _ _ => ⟨_, hN' t⟩) (fun t _ _ => ⟨_, hE' t⟩) (fun t _ _ => ⟨_, hS' t⟩)
    (fun t _ _ => ⟨_, hW' t⟩) (by rw [hS', hW', c0]; simp)
    (by rw [hS', hE', c0, c1]; simp) (by rw [hN', hW', c0, c1]; simp)
    (by rw [hN', hE', c1]; simp)
  refine ⟨P, ?_, ?_⟩
  · unfold circlePatch
    simp only [Real.cos_pi_div_four, Real.sin_pi_div_four, ← hk]
    rw [← hP]
    congr 2 <;> first | rfl | (ext <;> simp <;> ring)
  · intro q
    have hd : ∀ u : V, vdist (centre + u) centre = r ↔ u.x ^ 2 + u.y ^ 2 + u.z ^ 2 = r ^ 2 := by
      intro u
      rw [← Vec.abs_sub_eq_vdist]
      have : centre + u - centre = u := by ext <;> simp
      rw [this]
      unfold Vec.abs
      rw [Real.sqrt_eq_iff_mul_self_eq (by positivity) hr.le]
      constructor <;> intro h <;> linarith
    constructor
    · rintro ⟨h1, h2⟩
      obtain ⟨u, rfl⟩ : ∃ u, q = centre + u := ⟨q - centre, by ext <;> simp⟩
      rw [hd] at h1
      have huz : u.z = 0 := by simpa using h2
      rw [huz] at h1
      have h1 : u.x ^ 2 + u.y ^ 2 = r ^ 2 := by linarith
      have hcase : |u.x| ≤ u.y ∨ |u.x| ≤ -u.y ∨ |u.y| ≤ u.x ∨ |u.y| ≤ -u.x := by
        rcases le_total |u.x| |u.y| with h | h
        · rcases le_total 0 u.y with g | g
          · rw [abs_of_nonneg g] at h; exact .inl h
          · rw [abs_of_nonpos g] at h; exact .inr (.inl h)
        · rcases le_total 0 u.x with g | g
          · rw [abs_of_nonneg g] at h; exact .inr (.inr (.inl h))
          · rw [abs_of_nonpos g] at h; exact .inr (.inr (.inr h))
      have eu : ∀ x y, x = u.x → y = u.y → (.ok (centre + ⟨x, y, 0⟩) : Res V) = .ok (centre + u) := by
        intro x y hx hy; congr 2; ext <;> simp [hx, hy, huz]
      rcases hcase with h | h | h | h
      · obtain ⟨t, t0, t1, hx, hy⟩ := circle_sector hr h1 h
        refine ⟨t, t0, t1, .inr (.inl ?_)⟩
        rw [(hsides t 0 t0 t1 le_rfl zero_le_one).2.2.1, hN']
        exact eu _ _ hx.symm hy.symm
      · obtain ⟨t, t0, t1, hx, hy⟩ := circle_sector hr (by rw [neg_sq]; exact h1) h
        refine ⟨t, t0, t1, .inl ?_⟩
        rw [(hsides t 0 t0 t1 le_rfl zero_le_one).2.1, hS']
        exact eu _ _ hx.symm (by linarith)
      · obtain ⟨t, t0, t1, hx, hy⟩ := circle_sector hr (by linarith : u.y ^ 2 + u.x ^ 2 = r ^ 2) h
        refine ⟨t, t0, t1, .inr (.inr (.inr ?_))⟩
        rw [(hsides t 0 t0 t1 le_rfl zero_le_one).2.2.2.2, hE']
        exact eu _ _ hy.symm hx.symm
      · obtain ⟨t, t0, t1, hx, hy⟩ := circle_sector hr (by rw [neg_sq]; linarith : u.y ^ 2 + (-u.x) ^ 2 = r ^ 2) h
        refine ⟨t, t0, t1, .inr (.inr (.inl ?_))⟩
        rw [(hsides t 0 t0 t1 le_rfl zero_le_one).2.2.2.1, hW']
        exact eu _ _ (by linarith) hx.symm
    · rintro ⟨t, t0, t1, h⟩
      obtain ⟨-, e1, e2, e3, e4⟩ := hsides t 0 t0 t1 le_rfl zero_le_one
      rw [e1, e2, e3, e4, hN', hE', hS', hW'] at h
      have hcs := Real.sin_sq_add_cos_sq (Real.pi / 2 * t - Real.pi / 4)
      rcases h with h | h | h | h <;> rw [← Except.ok.inj h] <;> refine ⟨(hd _).2 ?_, by simp⟩ <;> simp only <;>
        linear_combination r ^ 2 * hcs

/-- C92 is violated whenever the centre is not in the plane `z = 0`: either there is no patch or its corner is in the plane
`z = 0`, not in the plane of the centre. -/
theorem C92_violated (centre : V) (r : ℝ) (hz : centre.z ≠ 0) :
    ¬ ∃ P, circlePatch centre r = .ok P ∧ ∀ t, 0 ≤ t → t ≤ 1 → ∃ q, P t 0 = .ok q ∧ q.z = centre.z := by
  rintro ⟨P, hP, h⟩
  obtain ⟨q, hq, hqz⟩ := h 0 le_rfl zero_le_one
  unfold circlePatch at hP
  obtain ⟨c, hc, hP⟩ := bind_ok.1 hP
  rw [← pure_ok.1 hP] at hq
  obtain ⟨c1, c2, c3, c4, c5, c6, c7, c8, b1, b2, b3, b4, b5, b6, b7, b8, -, -, -, -, hcc⟩ :=
    (Coons.ofEdges_ok_iff _ _ _ _ _ c).1 hc
  obtain ⟨hS, -⟩ := C22_edges_general _ _ _ _ _ c hc 0 c1 c3 c5 c7 b1 b3 b5 b7
  rw [hS] at hq
  apply hz
  rw [← hqz, ← Except.ok.inj hq]
  obtain ⟨hr, hcol⟩ := (C14_arc_admissible _ _ _ 0).1.1 ⟨_, b5⟩
  obtain ⟨t1, t2, n, ho, ha, hn, hb, h0, hpi, hB, he⟩ := Arc.eval_ok _ _ _ 0 hr hcol
  have hv := Arc.call_of_eval he
  rw [hv] at b5
  have hz' := congrArg Vec.z (Except.ok.inj b5)
  have ha' := congrArg Vec.z ha
  have hd : vdist (⟨centre.x - r * Real.cos (Real.pi / 4), centre.y + r * Real.sin (Real.pi / 4), 0⟩ : V) centre =
      vdist (⟨centre.x - r * Real.cos (Real.pi / 4), centre.y + -r * Real.sin (Real.pi / 4), 0⟩ : V) centre := by
    rw [← Vec.abs_sub_eq_vdist, ← Vec.abs_sub_eq_vdist]
    unfold Vec.abs
    congr 1
    simp
  rw [hd] at hz'
  simp at hz' ha' ⊢
  linarith

example : ¬ ∃ P, circlePatch ⟨0, 0, 1⟩ 1 = .ok P ∧ ∀ t, 0 ≤ t → t ≤ 1 → ∃ q, P t 0 = .ok q ∧ q.z = 1 :=
  C92_violated ⟨0, 0, 1⟩ 1 one_ne_zero

/-! ## C93 -/

theorem slerp_coef {θ t : ℝ} (h0 : 0 < θ) (hpi : θ < Real.pi) (t0 : 0 ≤ t) (t1 : t ≤ 1) :
    0 ≤ Real.sin (θ * (1 - t)) / Real.sin θ ∧ 0 ≤ Real.sin (θ * t) / Real.sin θ ∧
    1 ≤ Real.sin (θ * (1 - t)) / Real.sin θ + Real.sin (θ * t) / Real.sin θ := by
  have hs := Real.sin_pos_of_pos_of_lt_pi h0 hpi
  have ha : 0 ≤ Real.sin (θ * (1 - t)) := Real.sin_nonneg_of_nonneg_of_le_pi (by nlinarith) (by nlinarith)
  have hb : 0 ≤ Real.sin (θ * t) := Real.sin_nonneg_of_nonneg_of_le_pi (by nlinarith) (by nlinarith)
  refine ⟨by positivity, by positivity, ?_⟩
  rw [← add_div, le_div_iff₀ hs, one_mul]
  have e : θ = θ * (1 - t) + θ * t := by ring
  calc Real.sin θ = Real.sin (θ * (1 - t) + θ * t) := by rw [← e]
    _ = Real.sin (θ * (1 - t)) * Real.cos (θ * t) + Real.cos (θ * (1 - t)) * Real.sin (θ * t) := Real.sin_add _ _
    _ ≤ Real.sin (θ * (1 - t)) * 1 + 1 * Real.sin (θ * t) := by
      gcongr
      · exact Real.cos_le_one _
      · exact Real.cos_le_one _
    _ = _ := by ring

theorem toE_continuous {f : ℝ → V} (hx : Continuous fun t => (f t).x) (hy : Continuous fun t => (f t).y)
    (hz : Continuous fun t => (f t).z) : Continuous fun t => toE (f t) := by
  unfold toE
  refine (PiLp.continuous_toLp 2 _).comp ?_
  apply continuous_pi
  intro i
  fin_cases i
  · exact hx
  · exact hy
  · exact hz

theorem slerp_dist (a b c : V) (hr : vdist a c = vdist b c) (hy : (Vec.cross (a - c) (b - c)).y = 0)
    (hz : (Vec.cross (a - c) (b - c)).z ≠ 0) (t : ℝ) (q : V) (hq : (Arc a b c).call t = .ok q) : vdist q c = vdist b c := by
  have hN : (Vec.cross (a - c) (b - c)).abs ≠ 0 := by
    rw [ne_eq, Vec.abs_eq_zero_iff]
    intro h
    exact hz (congrArg Vec.z h)
  obtain ⟨h1, -⟩ := C13_arc_partial a b c (by rw [hr]; simp) (fun h => hN ((Arc.cross_eq_zero_iff_collinear a b c).2 h)) hy
  obtain ⟨q', h2, h3⟩ := h1 t
  rw [hq] at h2
  cases h2
  exact h3

theorem vdist_planar (x y x' y' d : ℝ) (hd : 0 ≤ d) (h : (x - x') ^ 2 + (y - y') ^ 2 = d ^ 2) :
    vdist (⟨x, y, 0⟩ : V) ⟨x', y', 0⟩ = d := by
  rw [← Vec.abs_sub_eq_vdist]
  unfold Vec.abs
  rw [Real.sqrt_eq_iff_mul_self_eq (by positivity) hd]
  simp
  linarith

theorem ogive_lines {h u : ℝ} (hh : 0 < h) (L : ℝ) (u0 : 0 ≤ u) (u1 : u ≤ 1) :
    ((lineAt ⟨0, h, 0⟩ ⟨-L, h, 0⟩ u).z = 0 ∧ 0 ≤ (lineAt ⟨0, h, 0⟩ ⟨-L, h, 0⟩ u).y ∧ (lineAt ⟨0, h, 0⟩ ⟨-L, h, 0⟩ u).y ≤ h) ∧
    ((lineAt ⟨-L, h, 0⟩ ⟨-L, 0, 0⟩ u).z = 0 ∧ 0 ≤ (lineAt ⟨-L, h, 0⟩ ⟨-L, 0, 0⟩ u).y ∧ (lineAt ⟨-L, h, 0⟩ ⟨-L, 0, 0⟩ u).y ≤ h) := by
  have e1 : (lineAt ⟨0, h, 0⟩ ⟨-L, h, 0⟩ u).y = h := by simp [lineAt]; ring
  have e2 : (lineAt ⟨-L, h, 0⟩ ⟨-L, 0, 0⟩ u).y = h * (1 - u) := by simp [lineAt]
  rw [e1, e2]
  refine ⟨⟨by simp [lineAt], hh.le, le_rfl⟩, by simp [lineAt], by nlinarith, by nlinarith⟩

/-- The four segments of the ogive profile. -/
theorem Ogive.segments_eq (h r_n r_o L_o : ℝ) (h1 : 0 < r_n) (h2 : r_n < h) (h3 : h < r_o) :
    ∃ q κ, 0 < q ∧ 0 < κ ∧ q ^ 2 = (r_o - r_n) ^ 2 - (r_o - h) ^ 2 ∧ κ * (r_o - r_n) = r_n ∧
      Ogive.segments h r_n r_o L_o = .ok [Arc ⟨q + r_n, 0, 0⟩ ⟨q + κ * q, κ * (r_o - h), 0⟩ ⟨q, 0, 0⟩,
        Arc ⟨q + κ * q, κ * (r_o - h), 0⟩ ⟨0, h, 0⟩ ⟨0, h - r_o, 0⟩, Line ⟨0, h, 0⟩ ⟨-L_o, h, 0⟩,
        Line ⟨-L_o, h, 0⟩ ⟨-L_o, 0, 0⟩] := by
  have hD : 0 < (r_o - r_n) ^ 2 - (r_o - h) ^ 2 := by nlinarith
  have hrr : 0 < r_o - r_n := by linarith
  set q := Real.sqrt ((r_o - r_n) ^ 2 - (r_o - h) ^ 2) with hq
  have hqp : 0 < q := Real.sqrt_pos.2 hD
  have hq2 : q ^ 2 = (r_o - r_n) ^ 2 - (r_o - h) ^ 2 := Real.sq_sqrt hD.le
  have hκ : 0 < r_n / (r_o - r_n) := by positivity
  refine ⟨q, r_n / (r_o - r_n), hqp, hκ, hq2, by field_simp, ?_⟩
  have e1 : r_n * (r_o - h) / (r_o - r_n) = r_n / (r_o - r_n) * (r_o - h) := by ring
  have e2 : r_n ^ 2 - (r_n / (r_o - r_n) * (r_o - h)) ^ 2 = (r_n / (r_o - r_n) * q) ^ 2 := by
    rw [mul_pow, mul_pow, hq2]; field_simp
  have e3 : ¬ (r_n / (r_o - r_n) * q) ^ 2 < 0 := not_lt.2 (by positivity)
  unfold Ogive.segments Ogive.dims
  simp only [psqrt, pdiv, if_neg (not_lt.2 hD.le), hrr.ne', if_false, bind, Except.bind, pure, Except.pure, ← hq, e1, e2, if_neg e3,
    Real.sqrt_sq (mul_pos hκ hqp).le, Except.ok.injEq]
  simp
  have e4 : (⟨0, h, 0⟩ : V) - ⟨L_o, 0, 0⟩ = ⟨-L_o, h, 0⟩ := by ext <;> simp
  rw [e4, add_comm r_n q, add_comm (r_n / (r_o - r_n) * q) q, show -r_o + h = h - r_o by ring]
  exact ⟨rfl, rfl, rfl, rfl⟩

/-- C93: for `0 < r_n < h < r_o` and `0 < L_o` the ogive profile is a continuous planar curve with two break parameters `t1 < t2`.
It starts on the axis, at distance `r_n` in front of the nose centre; up to `t1` it is on the circle of radius `r_n` about the nose
centre on the axis; from `t1` to `t2` it is on the circle of radius `r_o` about the ogive centre; at `t1` the two radius vectors are
parallel, so that the circles have a common tangent there; at `t2` it reaches `(0,h)`, where the ogive radius is perpendicular to
the axis; it ends on the axis at `x = -L_o`.  Its height is always between `0` and `h`. -/
theorem C93_profile (h r_n r_o L_o : ℝ) (h1 : 0 < r_n) (h2 : r_n < h) (h3 : h < r_o) (h4 : 0 < L_o) :
    ∃ (line : PathObj) (Γ : ℝ → V) (t1 t2 : ℝ) (cn co : V), Ogive.line h r_n r_o L_o = .ok line ∧ (∀ t, line.call t = .ok (Γ t)) ∧
      Continuous (fun t => toE (Γ t)) ∧ 0 < t1 ∧ t1 < t2 ∧ t2 < 1 ∧
      cn.y = 0 ∧ cn.z = 0 ∧ co = ⟨0, h - r_o, 0⟩ ∧ Γ 0 = cn + ⟨r_n, 0, 0⟩ ∧
      (∀ t, 0 ≤ t → t ≤ t1 → vdist (Γ t) cn = r_n) ∧ (∀ t, t1 ≤ t → t ≤ t2 → vdist (Γ t) co = r_o) ∧
      (Γ t1 - cn) * r_o = (Γ t1 - co) * r_n ∧ Γ t2 = ⟨0, h, 0⟩ ∧ Γ 1 = ⟨-L_o, 0, 0⟩ ∧
      ∀ t, 0 ≤ t → t ≤ 1 → (Γ t).z = 0 ∧ 0 ≤ (Γ t).y ∧ (Γ t).y ≤ h := by
  obtain ⟨q, κ, hq, hκ, hq2, hκ2, hsegs⟩ := Ogive.segments_eq h r_n r_o L_o h1 h2 h3
  have hh : 0 < h := by linarith
  have ho : 0 < r_o := by linarith
  set T : V := ⟨q + κ * q, κ * (r_o - h), 0⟩ with hTd
  set cn : V := ⟨q, 0, 0⟩ with hcn
  set co : V := ⟨0, h - r_o, 0⟩ with hco
  have d1 : vdist (⟨q + r_n, 0, 0⟩ : V) cn = r_n := vdist_planar _ _ _ _ _ h1.le (by ring)
  have d2 : vdist T cn = r_n := vdist_planar _ _ _ _ _ h1.le (by
    have : (q + κ * q - q) ^ 2 + (κ * (r_o - h) - 0) ^ 2 = κ ^ 2 * (q ^ 2 + (r_o - h) ^ 2) := by ring
    rw [this, hq2]
    have : κ ^ 2 * ((r_o - r_n) ^ 2 - (r_o - h) ^ 2 + (r_o - h) ^ 2) = (κ * (r_o - r_n)) ^ 2 := by ring
    rw [this, hκ2])
  have d3 : vdist T co = r_o := vdist_planar _ _ _ _ _ ho.le (by
    have : (q + κ * q - 0) ^ 2 + (κ * (r_o - h) - (h - r_o)) ^ 2 = (1 + κ) ^ 2 * (q ^ 2 + (r_o - h) ^ 2) := by ring
    rw [this, hq2]
    have : (1 + κ) ^ 2 * ((r_o - r_n) ^ 2 - (r_o - h) ^ 2 + (r_o - h) ^ 2) = (r_o - r_n + κ * (r_o - r_n)) ^ 2 := by ring
    rw [this, hκ2]
    ring)
  have d4 : vdist (⟨0, h, 0⟩ : V) co = r_o := vdist_planar _ _ _ _ _ ho.le (by ring)
  have hy1 : (Vec.cross (⟨q + r_n, 0, 0⟩ - cn) (T - cn)).y = 0 := by simp [Vec.cross, hcn, hTd]
  have hz1 : (Vec.cross (⟨q + r_n, 0, 0⟩ - cn) (T - cn)).z ≠ 0 := by
    have : (Vec.cross (⟨q + r_n, 0, 0⟩ - cn) (T - cn)).z = r_n * (κ * (r_o - h)) := by simp [Vec.cross, hcn, hTd]
    rw [this]
    have : 0 < r_o - h := by linarith
    positivity
  have hy2 : (Vec.cross (T - co) (⟨0, h, 0⟩ - co)).y = 0 := by simp [Vec.cross, hco, hTd]
  have hz2 : (Vec.cross (T - co) (⟨0, h, 0⟩ - co)).z ≠ 0 := by
    have : (Vec.cross (T - co) (⟨0, h, 0⟩ - co)).z = (q + κ * q) * r_o := by simp [Vec.cross, hco, hTd]
    rw [this]
    positivity
  obtain ⟨θ1, -, p1, p1', -, l1, c1⟩ := arc_slerp _ T cn (d1.trans d2.symm) hy1 hz1
  obtain ⟨θ2, -, p2, p2', -, l2, c2⟩ := arc_slerp T ⟨0, h, 0⟩ co (d3.trans d4.symm) hy2 hz2
  classical
  let len : PathObj → ℝ := fun s => match s.length with | .ok l => l | .error _ => 0
  set segs := [Arc ⟨q + r_n, 0, 0⟩ T cn, Arc T ⟨0, h, 0⟩ co, Line ⟨0, h, 0⟩ ⟨-L_o, h, 0⟩,
        Line ⟨-L_o, h, 0⟩ ⟨-L_o, 0, 0⟩] with hsd
  have hlen : ∀ s ∈ segs, s.length = .ok (len s) ∧ 0 < len s := by
    intro s hs
    simp only [hsd, List.mem_cons, List.not_mem_nil, or_false] at hs
    rcases hs with rfl | rfl | rfl | rfl
    · have e : len (Arc ⟨q + r_n, 0, 0⟩ T cn) = θ1 * vdist T cn := by simp only [len, l1]
      rw [e, l1, d2]
      exact ⟨rfl, by positivity⟩
    · have e : len (Arc T ⟨0, h, 0⟩ co) = θ2 * vdist ⟨0, h, 0⟩ co := by simp only [len, l2]
      rw [e, l2, d4]
      exact ⟨rfl, by positivity⟩
    · refine ⟨rfl, ?_⟩
      show 0 < ((⟨-L_o, h, 0⟩ : V) - ⟨0, h, 0⟩).abs
      simp only [Vec.abs]
      apply Real.sqrt_pos.2
      simp
      positivity
    · refine ⟨rfl, ?_⟩
      show 0 < ((⟨-L_o, 0, 0⟩ : V) - ⟨-L_o, h, 0⟩).abs
      simp only [Vec.abs]
      apply Real.sqrt_pos.2
      simp
      positivity
  let γ : ℕ → ℝ → V := fun i t => match i with
    | 0 => cn + (⟨q + r_n, 0, 0⟩ - cn) * (Real.sin (θ1 * (1 - t)) / Real.sin θ1) + (T - cn) * (Real.sin (θ1 * t) / Real.sin θ1)
    | 1 => co + (T - co) * (Real.sin (θ2 * (1 - t)) / Real.sin θ2) + (⟨0, h, 0⟩ - co) * (Real.sin (θ2 * t) / Real.sin θ2)
    | 2 => lineAt ⟨0, h, 0⟩ ⟨-L_o, h, 0⟩ t
    | _ => lineAt ⟨-L_o, h, 0⟩ ⟨-L_o, 0, 0⟩ t
  have hs1 := (Real.sin_pos_of_pos_of_lt_pi p1 p1').ne'
  have hs2 := (Real.sin_pos_of_pos_of_lt_pi p2 p2').ne'
  have g00 : γ 0 0 = ⟨q + r_n, 0, 0⟩ := by
    simp only [γ, sub_zero, mul_one, mul_zero, Real.sin_zero, zero_div, div_self hs1]; ext <;> simp
  have g01 : γ 0 1 = T := by
    simp only [γ, sub_self, mul_one, mul_zero, Real.sin_zero, zero_div, div_self hs1]; ext <;> simp
  have g10 : γ 1 0 = T := by
    simp only [γ, sub_zero, mul_one, mul_zero, Real.sin_zero, zero_div, div_self hs2]; ext <;> simp
  have g11 : γ 1 1 = ⟨0, h, 0⟩ := by
    simp only [γ, sub_self, mul_one, mul_zero, Real.sin_zero, zero_div, div_self hs2]; ext <;> simp
  have g20 : γ 2 0 = ⟨0, h, 0⟩ := Except.ok.inj (line_zero _ _)
  have g21 : γ 2 1 = ⟨-L_o, h, 0⟩ := Except.ok.inj (line_one _ _)
  have g30 : γ 3 0 = ⟨-L_o, h, 0⟩ := Except.ok.inj (line_zero _ _)
  have g31 : γ 3 1 = ⟨-L_o, 0, 0⟩ := Except.ok.inj (line_one _ _)
  have hγ : ∀ i (hi : i < segs.length) t, segs[i].call t = .ok (γ i t) := by
    intro i hi t
    have hi : i < 4 := hi
    rcases (by omega : i = 0 ∨ i = 1 ∨ i = 2 ∨ i = 3) with rfl | rfl | rfl | rfl
    · exact c1 t
    · exact c2 t
    · rfl
    · rfl
  have hcont : ∀ i, i < segs.length → Continuous fun t => toE (γ i t) := by
    intro i hi
    have hi : i < 4 := hi
    rcases (by omega : i = 0 ∨ i = 1 ∨ i = 2 ∨ i = 3) with rfl | rfl | rfl | rfl <;> apply toE_continuous <;>
      simp only [γ, lineAt, Vec.add_x, Vec.add_y, Vec.add_z, Vec.mul_x, Vec.mul_y, Vec.mul_z] <;> fun_prop
  have hjoin : ∀ i, i + 1 < segs.length → γ i 1 = γ (i + 1) 0 := by
    intro i hi
    have hi : i + 1 < 4 := hi
    rcases (by omega : i = 0 ∨ i = 1 ∨ i = 2) with rfl | rfl | rfl
    · rw [g01, g10]
    · rw [g11, g20]
    · rw [g21, g30]
  obtain ⟨P, Γ, hP, hPΓ, hΓ⟩ := C09_continuous len segs (by simp [hsd]) hlen (1 / 10 ^ 10) γ hγ hcont hjoin
  obtain ⟨P', hP', ⟨b0, b4, bm⟩, -, hval, hv0, hv1, -⟩ := C09_polyline len segs (by simp [hsd]) hlen (by
    intro s hs t
    obtain ⟨i, hi, rfl⟩ := List.getElem_of_mem hs
    exact ⟨_, hγ i hi t⟩) (1 / 10 ^ 10)
  rw [hP] at hP'
  cases hP'
  set β := bp len segs with hβ
  have b01 : β 0 < β 1 := bm 0 1 (by norm_num) (by simp [hsd])
  have b12 : β 1 < β 2 := bm 1 2 (by norm_num) (by simp [hsd])
  have b23 : β 2 < β 3 := bm 2 3 (by norm_num) (by simp [hsd])
  have b34 : β 3 < β 4 := bm 3 4 (by norm_num) (by simp [hsd])
  have b4 : β 4 = 1 := b4
  have hvalΓ : ∀ t i, Active len segs t i → Γ t = γ i ((t - β i) / (β (i + 1) - β i)) := by
    intro t i hi
    have e := hval t i hi
    rw [hPΓ, hγ i hi.1] at e
    exact Except.ok.inj e
  have hΓ1 : Γ (β 1) = T := by
    rw [hvalΓ (β 1) 0 ⟨by simp [hsd], .inl rfl, .inr le_rfl⟩, zero_add, div_self (by linarith), g01]
  have hΓ2 : Γ (β 2) = ⟨0, h, 0⟩ := by
    rw [hvalΓ (β 2) 1 ⟨by simp [hsd], .inr b12, .inr le_rfl⟩, div_self (by linarith), g11]
  have nose : ∀ t, vdist (γ 0 t) cn = r_n := fun t =>
    (slerp_dist _ _ _ (d1.trans d2.symm) hy1 hz1 t _ (c1 t)).trans d2
  have ogv : ∀ t, vdist (γ 1 t) co = r_o := fun t =>
    (slerp_dist _ _ _ (d3.trans d4.symm) hy2 hz2 t _ (c2 t)).trans d4
  have hΓ0 : Γ 0 = ⟨q + r_n, 0, 0⟩ := by
    rw [hPΓ] at hv0
    have : segs.head (by simp [hsd]) = segs[0]'(by simp [hsd]) := rfl
    rw [this, hγ 0 (by simp [hsd]), g00] at hv0
    exact Except.ok.inj hv0
  have hΓe : Γ 1 = ⟨-L_o, 0, 0⟩ := by
    rw [hPΓ] at hv1
    have : segs.getLast (by simp [hsd]) = segs[3]'(by simp [hsd]) := rfl
    rw [this, hγ 3 (by simp [hsd]), g31] at hv1
    exact Except.ok.inj hv1
  refine ⟨P, Γ, β 1, β 2, cn, co, ?_, hPΓ, hΓ, by linarith, b12, by linarith, rfl, rfl, rfl, ?_, ?_, ?_, ?_, hΓ2, hΓe, ?_⟩
  · unfold Ogive.line
    rw [hsegs, ok_bind]
    exact hP
  · rw [hΓ0]; ext <;> simp [hcn]
  · intro t t0 ht
    rw [hvalΓ t 0 ⟨by simp [hsd], .inl rfl, .inr ht⟩]
    exact nose _
  · intro t t0 ht
    rcases t0.lt_or_eq with t0 | rfl
    · rw [hvalΓ t 1 ⟨by simp [hsd], .inr t0, .inr ht⟩]
      exact ogv _
    · rw [hΓ1]; exact d3
  · rw [hΓ1]
    ext
    · simp [hTd, hcn, hco]; linear_combination q * hκ2
    · simp [hTd, hcn, hco]; linear_combination (r_o - h) * hκ2
    · simp [hTd, hcn, hco]
  · have hpl : ∀ i, i < 4 → ∀ u, 0 ≤ u → u ≤ 1 → (γ i u).z = 0 ∧ 0 ≤ (γ i u).y ∧ (γ i u).y ≤ h := by
      intro i hi u u0 u1
      have le_of_dist : ∀ (p c : V) (d : ℝ), vdist p c = d → p.y ≤ c.y + d := by
        intro p c d hd
        rw [← Vec.abs_sub_eq_vdist] at hd
        have : p.y - c.y ≤ (p - c).abs := by
          unfold Vec.abs
          apply Real.le_sqrt_of_sq_le
          simp
          nlinarith [sq_nonneg (p.x - c.x), sq_nonneg (p.z - c.z)]
        linarith
      rcases (by omega : i = 0 ∨ i = 1 ∨ i = 2 ∨ i = 3) with rfl | rfl | rfl | rfl
      · obtain ⟨k1, k2, k3⟩ := slerp_coef p1 p1' u0 u1
        refine ⟨by simp [γ, hTd, hcn], ?_, ?_⟩
        · have : (γ 0 u).y = κ * (r_o - h) * (Real.sin (θ1 * u) / Real.sin θ1) := by simp [γ, hTd, hcn]
          rw [this]
          have : 0 < r_o - h := by linarith
          positivity
        · have := le_of_dist _ _ _ (nose u)
          simp only [hcn] at this
          linarith
      · obtain ⟨k1, k2, k3⟩ := slerp_coef p2 p2' u0 u1
        refine ⟨by simp [γ, hTd, hco], ?_, ?_⟩
        · have : (γ 1 u).y = h - r_o + (κ * (r_o - h) + (r_o - h)) * (Real.sin (θ2 * (1 - u)) / Real.sin θ2) +
            r_o * (Real.sin (θ2 * u) / Real.sin θ2) := by
            simp only [γ, hTd, hco, Vec.add_y, Vec.mul_y, Vec.sub_y]; ring
          rw [this]
          have hp : 0 < r_o - h := by linarith
          have m1 : 0 ≤ κ * (r_o - h) * (Real.sin (θ2 * (1 - u)) / Real.sin θ2) := by positivity
          nlinarith
        · have := le_of_dist _ _ _ (ogv u)
          simp only [hco] at this
          linarith
      · exact ogive_lines hh L_o u0 u1 |>.1
      · exact ogive_lines hh L_o u0 u1 |>.2
    intro t t0 t1
    have hu : ∀ i, β i ≤ t → t ≤ β (i + 1) → β i < β (i + 1) → 0 ≤ (t - β i) / (β (i + 1) - β i) ∧
        (t - β i) / (β (i + 1) - β i) ≤ 1 := by
      intro i a1 a2 a3
      exact ⟨div_nonneg (by linarith) (by linarith), (div_le_one (by linarith)).2 (by linarith)⟩
    rcases le_or_gt t (β 1) with k | k
    · rw [hvalΓ t 0 ⟨by simp [hsd], .inl rfl, .inr k⟩]
      obtain ⟨u0, u1⟩ := hu 0 (by linarith) k b01
      exact hpl 0 (by norm_num) _ u0 u1
    rcases le_or_gt t (β 2) with k' | k'
    · rw [hvalΓ t 1 ⟨by simp [hsd], .inr k, .inr k'⟩]
      obtain ⟨u0, u1⟩ := hu 1 k.le k' b12
      exact hpl 1 (by norm_num) _ u0 u1
    rcases le_or_gt t (β 3) with k'' | k''
    · rw [hvalΓ t 2 ⟨by simp [hsd], .inr k', .inr k''⟩]
      obtain ⟨u0, u1⟩ := hu 2 k'.le k'' b23
      exact hpl 2 (by norm_num) _ u0 u1
    · rw [hvalΓ t 3 ⟨by simp [hsd], .inr k'', .inl rfl⟩]
      obtain ⟨u0, u1⟩ := hu 3 k''.le (by rw [b4]; exact t1) b34
      exact hpl 3 (by norm_num) _ u0 u1

/-- C93, C60: every admissible ogive nose can be constructed, generates and meshes, and its mesh is closed and consistently
oriented. -/
theorem C93_watertight (h r_n r_o L_o : ℝ) (h1 : 0 < r_n) (h2 : r_n < h) (h3 : h < r_o) (h4 : 0 < L_o) (n : ℕ) (hn : 1 ≤ n)
    (name : Option String) : ∃ c, Ogive.comp h r_n r_o L_o n name = .ok c ∧ ∀ (H : Heap) (id : ℕ), H id = c →
      ∃ H' M c', generatePatches H id = (.ok (), H') ∧ (H' id).mesh = (.ok M, c') ∧ Closed M.tris := by
  obtain ⟨line, Γ, t1, t2, cn, co, hl, hc, -, -, -, -, e1, e2, -, e3, -, -, -, -, e4, -⟩ := C93_profile h r_n r_o L_o h1 h2 h3 h4
  refine ⟨RevolvedComponent line n name, by unfold Ogive.comp; rw [hl]; rfl, fun H id hid => ?_⟩
  refine C60_watertight line Γ (fun t _ _ => hc t) ?_ ?_ n hn name H id hid
  · rw [e3]; simp [e1, e2]
  · rw [e4]; simp

/-- The hypotheses are met by concrete dimensions. -/
example : (0 : ℝ) < 0.1 ∧ (0.1 : ℝ) < 0.5 ∧ (0.5 : ℝ) < 2 ∧ (0 : ℝ) < 1 := by norm_num

end HV
