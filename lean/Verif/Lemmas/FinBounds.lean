import Verif.Lemmas.RectFin
import Verif.Props.Size

/-!
# How far the patches of a fin reach
-/

namespace HV
open Spec

/-- A quarter ellipse stays in its quadrant and its rectangle. -/
theorem ellArc_quadrant {ptan : ℝ → ℝ} {b w : ℝ} (hT : TanLike ptan) (hb : 0 < b) (hw : 0 < w) (hpos : 0 < ptan (Real.pi / 2))
    (hneg : ptan (-(Real.pi / 2)) = -ptan (Real.pi / 2)) (top : Bool) {r : ℝ} (hr : r ∈ Set.Icc (0 : ℝ) 1) :
    0 ≤ (ellArc ptan b w top r).y ∧ (ellArc ptan b w top r).y ≤ w ∧
      (if top then -b ≤ (ellArc ptan b w top r).z ∧ (ellArc ptan b w top r).z ≤ 0 else
        0 ≤ (ellArc ptan b w top r).z ∧ (ellArc ptan b w top r).z ≤ b) := by
  set P : ℕ → V := fun i : ℕ => ellRaw ptan b w top ((i : ℝ) / (1000 : ℕ)) with hP
  have hch : 0 < chordSum P 1000 := by
    refine lt_of_le_of_ne (chordSum_zero P ▸ chordSum_mono _ (Nat.zero_le _)) ?_
    intro h
    have he := chordSum_eq_imp P (Nat.zero_le 1000) (by rw [chordSum_zero]; exact h)
    obtain ⟨a1, a2, a3, a4⟩ := ellRaw_ends ptan hT b w hb hw hpos hneg
    have p0 : P 0 = ellRaw ptan b w top 0 := by simp [hP]
    have p1 : P 1000 = ellRaw ptan b w top 1 := by simp only [hP]; rw [div_self (by norm_num)]
    rw [p0, p1] at he
    have hS : 0 < Real.sqrt (b ^ 2 + (w * ptan (Real.pi / 2)) ^ 2) := Real.sqrt_pos.2 (by positivity)
    have hpq : 0 < w * b / Real.sqrt (b ^ 2 + (w * ptan (Real.pi / 2)) ^ 2) * ptan (Real.pi / 2) := by positivity
    cases top
    · rw [a1, a3] at he
      have := congrArg Vec.z he
      simp only at this
      linarith
    · rw [a2, a4] at he
      have := congrArg Vec.z he
      simp only at this
      linarith
  obtain ⟨u0, u1⟩ := ArcLen.uMap_mem P 1000 (by norm_num) hch hr.1 hr.2
  have hval : ellArc ptan b w top r = ellRaw ptan b w top (ArcLen.uMap P 1000 r) := rfl
  rw [hval]
  generalize ArcLen.uMap P 1000 r = u at u0 u1
  clear hval hch
  obtain ⟨e1, e2⟩ := ellRaw_box ptan hb hw top u
  have hS : 0 < Real.sqrt (b ^ 2 + (w * ptan (Elipse.angle top u)) ^ 2) := Real.sqrt_pos.2 (by positivity)
  have hy : 0 ≤ (ellRaw ptan b w top u).y := by simp only [ellRaw]; positivity
  refine ⟨hy, (abs_le.1 e1).2, ?_⟩
  have hz : (ellRaw ptan b w top u).z = (ellRaw ptan b w top u).y * ptan (Elipse.angle top u) := rfl
  have hpi := Real.pi_pos
  cases top
  · simp only [Bool.false_eq_true, if_false]
    refine ⟨?_, (abs_le.1 e2).2⟩
    rw [hz]
    refine mul_nonneg hy ?_
    simp only [Elipse.angle, Bool.false_eq_true, if_false]
    rcases u1.lt_or_eq with h | h
    · rw [hT.exact _ (by rw [abs_of_nonneg (by positivity)]; nlinarith)]
      exact Real.tan_nonneg_of_nonneg_of_le_pi_div_two (by positivity) (by nlinarith)
    · rw [h, one_mul]; exact hpos.le
  · simp only [if_true]
    refine ⟨(abs_le.1 e2).1, ?_⟩
    rw [hz]
    refine mul_nonpos_of_nonneg_of_nonpos hy ?_
    simp only [Elipse.angle, if_true]
    rcases u0.lt_or_eq with h | h
    · rw [hT.exact _ (by rw [abs_lt]; constructor <;> nlinarith)]
      exact Real.tan_nonpos_of_nonpos_of_neg_pi_div_two_le (by nlinarith) (by nlinarith)
    · rw [← h]
      have : -Real.pi / 2 + 0 * Real.pi / 2 = -(Real.pi / 2) := by ring
      rw [this, hneg]; linarith

/-- An affine function on a Coons patch. -/
theorem coons_aff {n e s w : PathObj} {F : Surf} (hF : CoonsPatch n e s w = .ok F) {N E S W : ℝ → V} (hn : ∀ t, n.call t = .ok (N t))
    (he : ∀ t, e.call t = .ok (E t)) (hs : ∀ t, s.call t = .ok (S t)) (hw : ∀ t, w.call t = .ok (W t)) (a b c d : ℝ) {u v : ℝ} {q : V}
    (hq : F u v = .ok q) : aff a b c d q = (1 - v) * aff a b c d (S u) + v * aff a b c d (N u) + (1 - u) * aff a b c d (W v) +
      u * aff a b c d (E v) - ((1 - u) * (1 - v) * aff a b c d (S 0) + u * (1 - v) * aff a b c d (S 1) + (1 - u) * v * aff a b c d (N 0) +
      u * v * aff a b c d (N 1)) := by
  unfold CoonsPatch at hF
  rw [bind_ok] at hF
  obtain ⟨C, hc, hF⟩ := hF
  cases hF
  obtain ⟨a1, a2, a3, a4, a5, a6, a7, a8, h1, h2, h3, h4, -, -, -, -, -, -, -, -, rfl⟩ := (Coons.ofEdges_ok_iff n e s w _ C).1 hc
  rw [hs] at h1 h2
  rw [hn] at h3 h4
  unfold Coons.call at hq
  simp only [bind_ok, hs, hn, hw, he] at hq
  obtain ⟨q1, g1, q2, g2, q3, g3, q4, g4, g5⟩ := hq
  cases g1; cases g2; cases g3; cases g4; cases g5; cases h1; cases h2; cases h3; cases h4
  simp [Coons.blend, aff]
  ring

/-- The first coordinate of the elliptical patches: horizontal. -/
theorem patch_across {u v s e x w : ℝ} (hu : u ∈ Set.Icc (0 : ℝ) 1) (hv : v ∈ Set.Icc (0 : ℝ) 1) (s0 : 0 ≤ s) (s1 : s ≤ w) (e0 : 0 ≤ e) (e1 : e ≤ w)
    (x0 : 0 ≤ x) (x1 : x ≤ w) : |(1 - v) * s + u * e - ((1 - u) * (1 - v) * x + u * (1 - v) * w)| ≤ w := by
  have hu0 := hu.1
  have hv0 := hv.1
  have hu1 := sub_nonneg.2 hu.2
  have hv1 := sub_nonneg.2 hv.2
  have hw : 0 ≤ w := s0.trans s1
  rw [abs_le]
  constructor
  · have := mul_nonneg hv1 s0
    have := mul_nonneg hu0 e0
    have a1 : (1 - u) * (1 - v) * x ≤ (1 - u) * (1 - v) * w := mul_le_mul_of_nonneg_left x1 (mul_nonneg hu1 hv1)
    have : (1 - u) * (1 - v) * w + u * (1 - v) * w = (1 - v) * w := by ring
    nlinarith [mul_nonneg hv0 hw]
  · have a1 := mul_le_mul_of_nonneg_left s1 hv1
    have a2 := mul_le_mul_of_nonneg_left e1 hu0
    have a3 := mul_nonneg (mul_nonneg hu1 hv1) x0
    have : (1 - v) * w + u * w - u * (1 - v) * w = w - (1 - u) * v * w := by ring
    have := mul_nonneg (mul_nonneg hu1 hv0) hw
    linarith

/-- The height of the flat elliptical patches. -/
theorem patch_high {l m S T c b g : ℝ} (hl : l ∈ Set.Icc (0 : ℝ) 1) (hm : m ∈ Set.Icc (0 : ℝ) 1) (s0 : -b ≤ S) (s1 : S ≤ 0) (t0 : 0 ≤ T)
    (t1 : T ≤ b) (hc : |c| ≤ g) : |l * S + m * T - c| ≤ b + g := by
  have b0 : 0 ≤ b := t0.trans t1
  have k1 := mul_nonneg hl.1 (neg_nonneg.2 s1)
  have k2 := mul_nonneg hm.1 t0
  have k3 : l * -S ≤ 1 * b := mul_le_mul hl.2 (by linarith) (neg_nonneg.2 s1) zero_le_one
  have k4 : m * T ≤ 1 * b := mul_le_mul hm.2 t1 t0 zero_le_one
  rw [abs_le] at hc ⊢
  constructor <;> linarith [hc.1, hc.2]

/-- The height of the patch that ends in the tip of the rudder. -/
theorem patch_rudder {u v S T Z M c g : ℝ} (hu : u ∈ Set.Icc (0 : ℝ) 1) (hv : v ∈ Set.Icc (0 : ℝ) 1) (s0 : 0 ≤ S) (s1 : S ≤ M) (t0 : -M ≤ T)
    (t1 : T ≤ 0) (hZ : |Z| ≤ M) (hc : |c| ≤ g) : |u * (1 - v) * Z + v * S + (1 - u) * T - c| ≤ M + g := by
  have M0 : 0 ≤ M := s0.trans s1
  have hu1 := sub_nonneg.2 hu.2
  have hv1 := sub_nonneg.2 hv.2
  rw [abs_le] at hZ hc ⊢
  have k1 := mul_le_mul_of_nonneg_left hZ.2 (mul_nonneg hu.1 hv1)
  have k2 := mul_le_mul_of_nonneg_left hZ.1 (mul_nonneg hu.1 hv1)
  constructor
  · have k3 := mul_le_mul_of_nonneg_left t0 hu1
    have k4 := mul_nonneg hv.1 s0
    have k6 := mul_nonneg (mul_nonneg hu.1 hv.1) M0
    have e : u * (1 - v) * -M + (1 - u) * -M = -M + u * v * M := by ring
    linarith [hc.2]
  · have k3 := mul_le_mul_of_nonneg_left s1 hv.1
    have k4 := mul_nonneg hu1 (neg_nonneg.2 t1)
    have k6 := mul_nonneg (mul_nonneg hu1 hv1) M0
    have e : u * (1 - v) * M + v * M = M - (1 - u) * (1 - v) * M := by ring
    linarith [hc.1]

section
variable {ptan : ℝ → ℝ} {a : Fin.Args} {wmin : ℝ} {o : V}

/-- The elliptical patch of the bottom face: within the edge width of `p3`, and as thick as the fin. -/
theorem bottom_bound (h : UniformFin ptan a wmin o) {e : String × Surf} {l : List (String × Surf)} (hl : Fin.bottom ptan a = .ok (e :: l))
    {u v : ℝ} (hu : u ∈ Set.Icc (0 : ℝ) 1) (hv : v ∈ Set.Icc (0 : ℝ) 1) {p : V} (hp : e.2 u v = .ok p) :
    ∃ η ζ : ℝ, p = a.p3 + ⟨η, 0, ζ⟩ ∧ |η| ≤ widthAt a.LE_wf 1 ∧ |ζ| ≤ a.fin_thickness / 2 + poleGap ptan (a.fin_thickness / 2) wmin := by
  have z1 : (1 : ℝ) ∈ Set.Icc (0 : ℝ) 1 := ⟨zero_le_one, le_rfl⟩
  have z0 : (0 : ℝ) ∈ Set.Icc (0 : ℝ) 1 := ⟨le_rfl, zero_le_one⟩
  have hy := bottom_plane h hl hp
  obtain ⟨et, eb, e1, e2, v1, v2, k, c1, c2, c3, c4, g1, g2⟩ := fin_tips h a.p3 z1
  have hr := h.rim
  have hgap := hr.gap_nonneg
  unfold Fin.bottom at hl
  simp only [h.tt, h.tb, hr.width_ok z1, ok_bind, e1, e2] at hl
  obtain ⟨F, hF, hl⟩ := bind_ok.1 hl
  obtain ⟨B1, -, hl⟩ := bind_ok.1 hl
  obtain ⟨B2, -, hl⟩ := bind_ok.1 hl
  have hl := pure_ok.1 hl
  obtain ⟨rfl, -⟩ := List.cons.inj hl
  obtain ⟨q, hq, hrot⟩ : ∃ q, F u v = .ok q ∧ p = rotAbout .z (-90 * Real.pi / 180) (q - a.p3) + a.p3 := by
    cases hq : F u v with
    | error e =>
      simp only [RotatedPatch, hq, bind, Except.bind] at hp
      cases hp
    | ok q =>
      have := RotatedPatch_eq F (-90 * Real.pi / 180) "z" .z a.p3 ((namesAxis_iff _ 2).1 (.inl rfl)) u v _ hq
      simp only at hp
      rw [this] at hp
      cases hp
      exact ⟨q, rfl, rfl⟩
  have fits := hr.fits_at z1
  have hw := hr.width_pos z1
  have quadr := fun top {r : ℝ} (hr' : r ∈ Set.Icc (0 : ℝ) 1) => ellArc_quadrant h.like hr.bpos hw fits.1.1 fits.2 top hr'
  obtain ⟨s0, s1, s2⟩ := quadr true hu
  obtain ⟨t0, t1, t2⟩ := quadr false hv
  obtain ⟨x0, x1, -⟩ := quadr true z0
  simp only [if_true, Bool.false_eq_true, if_false] at s2 t2
  have hnose := hr.nose true z1
  simp only [if_true] at hnose
  have hpole := (vdist_coords _ _).2.2.trans (hr.pole (Real.pi / 2) z1).2
  simp only [swing, upBy] at hpole
  have val := fun A B C D => coons_aff hF (N := fun t => lineAt a.p3 (a.p3 + Fin.half a) t) (fun _ => rfl) v2 v1
    (W := fun t => lineAt (a.p3 - Fin.half a) a.p3 t) (fun _ => rfl) A B C D hq
  have vy := val 0 1 0 0
  have vz := val 0 0 1 0
  simp only [aff, hnose, lineAt, Fin.half, Vec.add_x, Vec.add_y, Vec.add_z, Vec.sub_x, Vec.sub_y, Vec.sub_z, Vec.mul_x, Vec.mul_y, Vec.mul_z] at vy vz
  refine ⟨q.y - a.p3.y, q.z - a.p3.z, ?_, ?_, ?_⟩
  · have ang : -90 * Real.pi / 180 = -(Real.pi / 2) := by ring
    have ey : p.y = a.p3.y := hy
    ext
    · rw [hrot]
      simp only [rotAbout, ang, Real.cos_neg, Real.sin_neg, Real.cos_pi_div_two, Real.sin_pi_div_two, Vec.add_x, Vec.sub_x, Vec.sub_y]
      ring
    · simp [ey]
    · rw [hrot]
      simp [rotAbout]
  · have := patch_across hu hv s0 s1 t0 t1 x0 x1
    refine le_trans (le_of_eq ?_) this
    congr 1
    linear_combination vy
  · set S := (ellArc ptan (a.fin_thickness / 2) (widthAt a.LE_wf 1) true u).z
    set T := (ellArc ptan (a.fin_thickness / 2) (widthAt a.LE_wf 1) false v).z
    set X := (ellArc ptan (a.fin_thickness / 2) (widthAt a.LE_wf 1) true 0).z
    set g := poleGap ptan (a.fin_thickness / 2) wmin
    have e : q.z - a.p3.z = (1 - v) * S + u * T - (1 - u) * (1 - v) * (X - -(a.fin_thickness / 2)) := by linear_combination vz
    have hu1 := sub_nonneg.2 hu.2
    have hv1 := sub_nonneg.2 hv.2
    have hc : |(1 - u) * (1 - v) * (X - -(a.fin_thickness / 2))| ≤ g := by
      rw [abs_mul, abs_of_nonneg (mul_nonneg hu1 hv1)]
      refine (mul_le_of_le_one_left (abs_nonneg _) ?_).trans hpole
      nlinarith [hu.1, hv.1, mul_nonneg hu.1 hv1]
    rw [e]
    exact patch_high ⟨hv1, by linarith [hv.1]⟩ hu s2.1 s2.2 t2.1 t2.2 hc

/-- The elliptical patch of the flat trailing edge. -/
theorem flat_bound (h : UniformFin ptan a wmin o) {e : String × Surf} {l : List (String × Surf)} (hl : Fin.flatTE ptan a = .ok (e :: l))
    {u v : ℝ} (hu : u ∈ Set.Icc (0 : ℝ) 1) (hv : v ∈ Set.Icc (0 : ℝ) 1) {p : V} (hp : e.2 u v = .ok p) :
    ∃ η ζ : ℝ, p = a.p1 + ⟨0, η, ζ⟩ ∧ |η| ≤ widthAt a.LE_wf 0 ∧ |ζ| ≤ a.fin_thickness / 2 + poleGap ptan (a.fin_thickness / 2) wmin := by
  have z1 : (1 : ℝ) ∈ Set.Icc (0 : ℝ) 1 := ⟨zero_le_one, le_rfl⟩
  have z0 : (0 : ℝ) ∈ Set.Icc (0 : ℝ) 1 := ⟨le_rfl, zero_le_one⟩
  have hx := flat_plane h hl hp
  obtain ⟨et, eb, e1, e2, v1, v2, k, c1, c2, c3, c4, g1, g2⟩ := fin_tips h a.p1 z0
  have hr := h.rim
  have hgap := hr.gap_nonneg
  unfold Fin.flatTE at hl
  simp only [h.tt, h.tb, hr.width_ok z0, ok_bind, e1, e2] at hl
  obtain ⟨F, hF, hl⟩ := bind_ok.1 hl
  obtain ⟨B1, -, hl⟩ := bind_ok.1 hl
  obtain ⟨B2, -, hl⟩ := bind_ok.1 hl
  have hl := pure_ok.1 hl
  obtain ⟨rfl, -⟩ := List.cons.inj hl
  have fits := hr.fits_at z0
  have hw := hr.width_pos z0
  have flip : ∀ {r : ℝ}, r ∈ Set.Icc (0 : ℝ) 1 → 1 - r ∈ Set.Icc (0 : ℝ) 1 := fun hr => ⟨by linarith [hr.2], by linarith [hr.1]⟩
  have quadr := fun top {r : ℝ} (hr' : r ∈ Set.Icc (0 : ℝ) 1) => ellArc_quadrant h.like hr.bpos hw fits.1.1 fits.2 top hr'
  obtain ⟨s0, s1, s2⟩ := quadr false (flip hu)
  obtain ⟨t0, t1, t2⟩ := quadr true (flip hv)
  obtain ⟨x0, x1, -⟩ := quadr false z1
  simp only [if_true, Bool.false_eq_true, if_false] at s2 t2
  have hnose := hr.nose false z0
  simp only [Bool.false_eq_true, if_false] at hnose
  have hpole := (vdist_coords _ _).2.2.trans (hr.pole (Real.pi / 2) z0).1
  simp only [swing, upBy] at hpole
  have sub : ∀ (p : PathObj) (f : ℝ → V), (∀ r, p.call r = .ok (f r)) → ∀ r, (SubRangedPath p 1 0).call r = .ok (f (1 - r)) := by
    intro p f hf r
    simp only [SubRangedPath]
    rw [← hf]
    congr 1; ring
  have val := fun A B C D => coons_aff hF (N := fun t => lineAt a.p1 (a.p1 - Fin.half a) t) (fun _ => rfl) (sub _ _ v1) (sub _ _ v2)
    (W := fun t => lineAt (a.p1 + Fin.half a) a.p1 t) (fun _ => rfl) A B C D hp
  have vy := val 0 1 0 0
  have vz := val 0 0 1 0
  simp only [sub_self, sub_zero] at vy vz
  simp only [aff, hnose, lineAt, Fin.half, Vec.add_x, Vec.add_y, Vec.add_z, Vec.sub_x, Vec.sub_y, Vec.sub_z, Vec.mul_x, Vec.mul_y, Vec.mul_z] at vy vz
  refine ⟨p.y - a.p1.y, p.z - a.p1.z, ?_, ?_, ?_⟩
  · ext <;> simp [hx]
  · have := patch_across hu hv s0 s1 t0 t1 x0 x1
    refine le_trans (le_of_eq ?_) this
    congr 1
    linear_combination vy
  · set S := (ellArc ptan (a.fin_thickness / 2) (widthAt a.LE_wf 0) false (1 - u)).z
    set T := (ellArc ptan (a.fin_thickness / 2) (widthAt a.LE_wf 0) true (1 - v)).z
    set X := (ellArc ptan (a.fin_thickness / 2) (widthAt a.LE_wf 0) false 1).z
    set g := poleGap ptan (a.fin_thickness / 2) wmin
    have e : p.z - a.p1.z = (1 - v) * S + u * T - (1 - u) * (1 - v) * (X - a.fin_thickness / 2) := by linear_combination vz
    have hu1 := sub_nonneg.2 hu.2
    have hv1 := sub_nonneg.2 hv.2
    have hc : |(1 - u) * (1 - v) * (X - a.fin_thickness / 2)| ≤ g := by
      rw [abs_mul, abs_of_nonneg (mul_nonneg hu1 hv1)]
      refine (mul_le_of_le_one_left (abs_nonneg _) ?_).trans hpole
      nlinarith [hu.1, hv.1, mul_nonneg hu.1 hv1]
    rw [e, add_comm ((1 - v) * S)]
    exact patch_high hu ⟨hv1, by linarith [hv.1]⟩ t2.1 t2.2 s2.1 s2.2 hc

/-- The elliptical patch of the sharp trailing edge. -/
theorem sharp_bound (h : UniformFin ptan a wmin o) (hz : a.p1.z = 0) {e1 e2 e3 : String × Surf} {l : List (String × Surf)}
    (hl : Fin.sharpTE ptan a = .ok (e1 :: e2 :: e3 :: l)) {u v : ℝ} (hu : u ∈ Set.Icc (0 : ℝ) 1) (hv : v ∈ Set.Icc (0 : ℝ) 1) {p : V}
    (hp : e3.2 u v = .ok p) :
    ∃ σ ∈ Set.Icc (0 : ℝ) 1, ∃ η ζ : ℝ, p = ⟨a.p1.x - σ * a.rudder_length, a.p1.y + η, ζ⟩ ∧ |η| ≤ widthAt a.LE_wf 0 ∧
      |ζ| ≤ max (a.fin_thickness / 2) |a.rudder_length * Real.sin a.rudder_angle| + poleGap ptan (a.fin_thickness / 2) wmin := by
  have z1 : (1 : ℝ) ∈ Set.Icc (0 : ℝ) 1 := ⟨zero_le_one, le_rfl⟩
  have z0 : (0 : ℝ) ∈ Set.Icc (0 : ℝ) 1 := ⟨le_rfl, zero_le_one⟩
  obtain ⟨et, eb, q1, q2, v1, v2, k, c1, c2, c3, c4, g1, g2⟩ := fin_tips h a.p1 z0
  have hr := h.rim
  have hgap := hr.gap_nonneg
  have d1 : (⟨a.p1.x, a.p1.y, -(a.fin_thickness / 2)⟩ : V) = a.p1 - Fin.half a := by
    rw [sub_half, hz]; ext <;> simp
  have d2 : (⟨a.p1.x, a.p1.y, a.fin_thickness / 2⟩ : V) = a.p1 + Fin.half a := by
    rw [add_half, hz]; ext <;> simp
  unfold Fin.sharpTE at hl
  obtain ⟨T0, -, hl⟩ := bind_ok.1 hl
  obtain ⟨B0, -, hl⟩ := bind_ok.1 hl
  simp only [h.tt, h.tb, hr.width_ok z0, ok_bind, q1, q2, d1, d2] at hl
  obtain ⟨F, hF, hl⟩ := bind_ok.1 hl
  obtain ⟨R, -, hl⟩ := bind_ok.1 hl
  have hl := pure_ok.1 hl
  simp only [List.cons.injEq] at hl
  obtain ⟨-, -, rfl, -⟩ := hl
  have fits := hr.fits_at z0
  have hw := hr.width_pos z0
  have quadr := fun top {r : ℝ} (hr' : r ∈ Set.Icc (0 : ℝ) 1) => ellArc_quadrant h.like hr.bpos hw fits.1.1 fits.2 top hr'
  obtain ⟨s0, s1, s2⟩ := quadr false hu
  obtain ⟨t0, t1, t2⟩ := quadr true hv
  obtain ⟨x0, x1, -⟩ := quadr false z1
  simp only [if_true, Bool.false_eq_true, if_false] at s2 t2
  have hnose := hr.nose false z0
  simp only [Bool.false_eq_true, if_false] at hnose
  have hpole := (vdist_coords _ _).2.2.trans (hr.pole (Real.pi / 2) z0).1
  simp only [swing, upBy] at hpole
  have val := fun A B C D => coons_aff hF (E := fun t => lineAt (rudderTip a a.p1) (a.p1 + Fin.half a) t) v2 (fun _ => rfl)
    (S := fun t => lineAt (a.p1 - Fin.half a) (rudderTip a a.p1) t) (fun _ => rfl) v1 A B C D hp
  have vx := val 1 0 0 0
  have vy := val 0 1 0 0
  have vz := val 0 0 1 0
  have ex : ∀ top r, (ellArc ptan (a.fin_thickness / 2) (widthAt a.LE_wf 0) top r).x = 0 := fun _ _ => rfl
  simp only [aff, hnose, ex, lineAt, Fin.half, rudderTip, hz, Vec.add_x, Vec.add_y, Vec.add_z, Vec.sub_x, Vec.sub_y, Vec.sub_z, Vec.mul_x, Vec.mul_y,
    Vec.mul_z] at vx vy vz
  have hu1 := sub_nonneg.2 hu.2
  have hv1 := sub_nonneg.2 hv.2
  refine ⟨u * (1 - v), ⟨mul_nonneg hu.1 hv1, mul_le_one₀ hu.2 hv1 (by linarith [hv.1])⟩, p.y - a.p1.y, p.z, ?_, ?_, ?_⟩
  · ext
    · simp only
      linear_combination vx
    · simp
    · rfl
  · have := patch_across (u := 1 - u) (v := 1 - v) ⟨hu1, by linarith [hu.1]⟩ ⟨hv1, by linarith [hv.1]⟩ s0 s1 t0 t1 x0 x1
    refine le_trans (le_of_eq ?_) this
    congr 1
    linear_combination vy
  · set S := (ellArc ptan (a.fin_thickness / 2) (widthAt a.LE_wf 0) false u).z
    set T := (ellArc ptan (a.fin_thickness / 2) (widthAt a.LE_wf 0) true v).z
    set X := (ellArc ptan (a.fin_thickness / 2) (widthAt a.LE_wf 0) false 1).z
    set g := poleGap ptan (a.fin_thickness / 2) wmin
    set Z := a.rudder_length * Real.sin a.rudder_angle
    set M := max (a.fin_thickness / 2) |Z| with hM
    have m1 : a.fin_thickness / 2 ≤ M := le_max_left _ _
    have m2 : |Z| ≤ M := le_max_right _ _
    have e : p.z = u * (1 - v) * Z + v * S + (1 - u) * T - u * v * (X - a.fin_thickness / 2) := by linear_combination vz
    have hc : |u * v * (X - a.fin_thickness / 2)| ≤ g := by
      rw [abs_mul, abs_of_nonneg (mul_nonneg hu.1 hv.1)]
      exact (mul_le_of_le_one_left (abs_nonneg _) (mul_le_one₀ hu.2 hv.1 hv.2)).trans hpole
    rw [e]
    exact patch_rudder hu hv s2.1 (s2.2.trans m1) (by linarith [s2.1, t2.1]) t2.2 m2 hc

end

end HV
