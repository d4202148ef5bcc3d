import Verif.Model.Geometry
import Verif.Lemmas.Vec
import Verif.Lemmas.Res
import Verif.Props.ArcLength
import Verif.Props.PathsGeom
import Verif.Props.Coons
import Verif.Props.Rigid

/-!
# Properties C34, C35: leading-edge and trailing-edge patches
-/

namespace HV

open Spec

/-! ## C34 -/

/-- C34: a flat leading-edge patch over `[t0,t1]` runs (in its first parameter) from `t1` to `t0`; at `r=0`
it is path1, and at `r=1` it is path2 whenever the two paths have the same plan-form point; each point is on
the vertical segment between the two. -/
theorem C34_flat (p1 p2 : PathObj) (t0 t1 τ r : ℝ) (a b : V)
    (ha : p1.call ((1 - τ) * t1 + τ * t0) = .ok a) (hb : p2.call ((1 - τ) * t1 + τ * t0) = .ok b) :
    ∃ q, FlatLeadingEdgePatchFunction p1 p2 t0 t1 τ r = .ok q ∧
      q.x = a.x ∧ q.y = a.y ∧ q.z = (1 - r) * a.z + r * b.z ∧
      (r = 0 → q = a) ∧ (r = 1 → a.x = b.x → a.y = b.y → q = b) ∧
      (a.x = b.x → a.y = b.y → toE q = (1 - r) • toE a + r • toE b) := by
  have e : t1 - τ * (t1 - t0) = (1 - τ) * t1 + τ * t0 := by ring
  refine ⟨⟨a.x, a.y, (1 - r) * a.z + r * b.z⟩, ?_, rfl, rfl, rfl, ?_, ?_, ?_⟩
  · simp only [FlatLeadingEdgePatchFunction, e, ha, hb, bind, Except.bind, pure, Except.pure]
  · rintro rfl; ext <;> simp
  · rintro rfl h1 h2; ext <;> simp [h1, h2]
  · intro h1 h2
    rw [← Vec.toE_mul, ← Vec.toE_mul, ← Vec.toE_add]
    congr 1
    ext <;> simp [h1, h2] <;> ring

/-- C34: neighbouring leading-edge patches share their seam, for all three kinds, also where they raise. -/
theorem C34_seams (ptan : ℝ → ℝ) (p1 p2 line : PathObj) (th : OffFn) (w : ℝ → Res ℝ) (t0 t1 t2 r : ℝ)
    (side : String) :
    FlatLeadingEdgePatchFunction p1 p2 t0 t1 0 r = FlatLeadingEdgePatchFunction p1 p2 t1 t2 1 r ∧
    MeanLeadingEdgePatchFunction ptan p1 p2 w t0 t1 side 0 r =
      MeanLeadingEdgePatchFunction ptan p1 p2 w t1 t2 side 1 r ∧
    LeadingEdgePatchFunction ptan line th w t0 t1 side 0 r =
      LeadingEdgePatchFunction ptan line th w t1 t2 side 1 r := by
  have e : t1 - 0 * (t1 - t0) = t2 - 1 * (t2 - t1) := by ring
  refine ⟨?_, ?_, ?_⟩
  · simp only [FlatLeadingEdgePatchFunction, e]
  · simp only [MeanLeadingEdgePatchFunction, e]
  · simp only [LeadingEdgePatchFunction, e]

/-- The arc-length reparameterised ellipse exists, and is the ellipse after a parameter change. -/
theorem elipse_norm (ptan : ℝ → ℝ) (c : V) (th w : ℝ) (side : String) (ht : th ≠ 0)
    (hs : side = "top" ∨ side = "bot") :
    ∃ (q : PathObj) (u : ℝ → ℝ), ArcLengthParameterizedPath (ElipsePath ptan c th w side) = .ok q ∧
      ∀ t, q.call t = (ElipsePath ptan c th w side).call (u t) := by
  have hex : ∀ r, ∃ p, (ElipsePath ptan c th w side).call r = .ok p := by
    intro r
    obtain ⟨top, rfl⟩ : ∃ top : Bool, side = if top then "top" else "bot" := by
      rcases hs with rfl | rfl
      · exact ⟨true, rfl⟩
      · exact ⟨false, rfl⟩
    exact ⟨_, Elipse.at_eq ptan c th w top r ht⟩
  choose P hP using hex
  have := ArcLengthParameterizedPath_eq (ElipsePath ptan c th w side) (fun i => P ((i : ℝ) / (1000 : ℕ))) 1000
    (by norm_num) (fun i _ => hP _)
  exact ⟨_, _, this, fun t => rfl⟩

/-- C34: if a mean leading-edge patch evaluates, its point `q` is related to the mean-line point `m` and the
guide point `g` at the same parameter by the ellipse with semi-axes width and `m.z - g.z`: horizontal offset
along one and vertical offset along the other; away from the two ends of the mean line, the horizontal offset
is orthogonal to the local chord of the mean line. -/
theorem C34_mean (ptan : ℝ → ℝ) (mean guide : PathObj) (width : ℝ → Res ℝ) (t0 t1 τ r : ℝ) (side : String)
    (hs : side = "top" ∨ side = "bot") (m g : V) (w : ℝ)
    (hm : mean.call ((1 - τ) * t1 + τ * t0) = .ok m) (hg : guide.call ((1 - τ) * t1 + τ * t0) = .ok g)
    (hw : width ((1 - τ) * t1 + τ * t0) = .ok w) (hw0 : w ≠ 0) (hth : m.z ≠ g.z) (q : V)
    (hq : MeanLeadingEdgePatchFunction ptan mean guide width t0 t1 side τ r = .ok q) :
    ((q.x - m.x) ^ 2 + (q.y - m.y) ^ 2) / w ^ 2 + (q.z - m.z) ^ 2 / (m.z - g.z) ^ 2 = 1 ∧
    ((1 - τ) * t1 + τ * t0 ≠ 0 → (1 - τ) * t1 + τ * t0 ≠ 1 →
      ∃ δ > 0, ∃ a b, mean.call ((1 - τ) * t1 + τ * t0 - δ) = .ok a ∧
        mean.call ((1 - τ) * t1 + τ * t0 + δ) = .ok b ∧
        (a.x = b.x ∧ a.y = b.y ∨ (q.x - m.x) * (b.x - a.x) + (q.y - m.y) * (b.y - a.y) = 0)) := by
  have e : t1 - τ * (t1 - t0) = (1 - τ) * t1 + τ * t0 := by ring
  simp only [MeanLeadingEdgePatchFunction, e] at hq
  set t := (1 - τ) * t1 + τ * t0 with ht
  have hth' : m.z - g.z ≠ 0 := sub_ne_zero.2 hth
  obtain ⟨en, u, hen, hcall⟩ := elipse_norm ptan ⟨0, 0, 0⟩ (m.z - g.z) w side hth' hs
  obtain ⟨pe, hpe, -, hell⟩ := C20_on_ellipse ptan ⟨0, 0, 0⟩ (m.z - g.z) w side (u r) hth' hw0 hs
  rw [hm, ok_bind, hg, ok_bind, hw, ok_bind, hen, ok_bind, hcall r, hpe, ok_bind] at hq
  obtain ⟨φ, hφ, hq⟩ := bind_ok.1 hq
  have hq := pure_ok.1 hq
  subst hq
  simp only [Vec.add_x, Vec.add_y, Vec.add_z, add_sub_cancel_left, sub_zero] at hell ⊢
  constructor
  · have := Real.sin_sq_add_cos_sq φ
    have e2 : (pe.y * Real.cos φ) ^ 2 + (pe.y * Real.sin φ) ^ 2 = pe.y ^ 2 := by
      linear_combination pe.y ^ 2 * this
    rw [e2, ← div_pow, ← div_pow]
    exact hell
  · intro h0 h1
    simp only [leAngle, h0, h1, if_false] at hφ
    obtain ⟨b, hb, hφ⟩ := bind_ok.1 hφ
    obtain ⟨a, ha, hφ⟩ := bind_ok.1 hφ
    have hφ := pure_ok.1 hφ
    refine ⟨min (min 0.001 |1 - t|) |t - 0|, ?_, a, b, ha, hb, ?_⟩
    · have : 0 < |1 - t| := abs_pos.2 (sub_ne_zero.2 (Ne.symm h1))
      have : 0 < |t - 0| := abs_pos.2 (by simpa using h0)
      refine lt_min (lt_min (by norm_num) ‹_›) ‹_›
    · by_cases hz : (⟨b.x - a.x, b.y - a.y⟩ : ℂ) = 0
      · left
        have h1 := congrArg Complex.re hz
        have h2 := congrArg Complex.im hz
        simp only [Complex.zero_re, Complex.zero_im] at h1 h2
        constructor <;> linarith
      · right
        rw [← hφ, Real.cos_add_pi_div_two, Real.sin_add_pi_div_two]
        unfold Arc.arctan2
        rw [Complex.cos_arg hz, Complex.sin_arg]
        simp only []
        ring

/-- C34: the point also exists whenever the mean line, the guide line and the width do. -/
theorem C34_mean_defined (ptan : ℝ → ℝ) (mean guide : PathObj) (width : ℝ → Res ℝ) (t0 t1 τ r : ℝ)
    (side : String) (hs : side = "top" ∨ side = "bot")
    (hm : ∀ t, ∃ m, mean.call t = .ok m) (hg : ∀ t, ∃ g, guide.call t = .ok g) (hw : ∀ t, ∃ w, width t = .ok w)
    (hth : ∀ t m g, mean.call t = .ok m → guide.call t = .ok g → m.z ≠ g.z) :
    ∃ q, MeanLeadingEdgePatchFunction ptan mean guide width t0 t1 side τ r = .ok q := by
  choose M hM using hm
  choose G hG using hg
  choose W hW using hw
  set t := t1 - τ * (t1 - t0) with ht
  have hth' : (M t).z - (G t).z ≠ 0 := sub_ne_zero.2 (hth t _ _ (hM t) (hG t))
  obtain ⟨en, u, hen, hcall⟩ := elipse_norm ptan ⟨0, 0, 0⟩ ((M t).z - (G t).z) (W t) side hth' hs
  obtain ⟨top, htop⟩ : ∃ top : Bool, side = if top then "top" else "bot" := by
    rcases hs with rfl | rfl
    · exact ⟨true, rfl⟩
    · exact ⟨false, rfl⟩
  obtain ⟨pe, hpe⟩ : ∃ pe, (ElipsePath ptan ⟨0, 0, 0⟩ ((M t).z - (G t).z) (W t) side).call (u r) = .ok pe := by
    rw [htop]; exact ⟨_, Elipse.at_eq ptan ⟨0, 0, 0⟩ ((M t).z - (G t).z) (W t) top (u r) hth'⟩
  have hφ : ∃ φ, leAngle mean t = .ok φ := by
    unfold leAngle
    split_ifs
    · exact ⟨_, rfl⟩
    · exact ⟨_, rfl⟩
    · simp only [hM, bind, Except.bind, pure, Except.pure]
      exact ⟨_, rfl⟩
  obtain ⟨φ, hφ⟩ := hφ
  have : ∃ q, (MeanLeadingEdgePatchFunction ptan mean guide width t0 t1 side τ r) = .ok q := by
    unfold MeanLeadingEdgePatchFunction
    simp only [← ht]
    rw [hM, ok_bind, hG, ok_bind, hW, ok_bind, hen, ok_bind, hcall r, hpe, ok_bind, hφ, ok_bind]
    exact ⟨_, rfl⟩
  exact this

/-- C34: attachment of the `"bot"` patch: at `r = 0` it is the nose point at horizontal distance `w` from the
mean line and at its height; at `r = 1` it is within `|th|/T` horizontally and `|th|^3/(w T)^2` vertically of
the point at height `|th|` above the mean line, where `T` is the (huge) numerical `tan(π/2)`. -/
theorem C34_mean_attaches (ptan : ℝ → ℝ) (hT : TanLike ptan) (hpole : 0 < ptan (Real.pi / 2))
    (mean guide : PathObj) (width : ℝ → Res ℝ) (t0 t1 τ : ℝ) (m g : V) (w : ℝ)
    (hm : mean.call ((1 - τ) * t1 + τ * t0) = .ok m) (hg : guide.call ((1 - τ) * t1 + τ * t0) = .ok g)
    (hw : width ((1 - τ) * t1 + τ * t0) = .ok w) (hw0 : 0 < w) (hth : m.z ≠ g.z) :
    (∀ q, MeanLeadingEdgePatchFunction ptan mean guide width t0 t1 "bot" τ 0 = .ok q →
      q.z = m.z ∧ (q.x - m.x) ^ 2 + (q.y - m.y) ^ 2 = w ^ 2) ∧
    (∀ q, MeanLeadingEdgePatchFunction ptan mean guide width t0 t1 "bot" τ 1 = .ok q →
      (q.x - m.x) ^ 2 + (q.y - m.y) ^ 2 ≤ (|m.z - g.z| / ptan (Real.pi / 2)) ^ 2 ∧
      |q.z - (m.z + |m.z - g.z|)| ≤ |m.z - g.z| ^ 3 / (w * ptan (Real.pi / 2)) ^ 2) := by
  have e : t1 - τ * (t1 - t0) = (1 - τ) * t1 + τ * t0 := by ring
  have hth' : m.z - g.z ≠ 0 := sub_ne_zero.2 hth
  set th := m.z - g.z with hthd
  set T := ptan (Real.pi / 2) with hTd
  have hb : 0 < |th| := abs_pos.2 hth'
  set E := ElipsePath ptan ⟨0, 0, 0⟩ th w "bot" with hE
  have hex : ∀ r, ∃ p, E.call r = .ok p := fun r => ⟨_, Elipse.at_eq ptan ⟨0, 0, 0⟩ th w false r hth'⟩
  choose P hP using hex
  have hD : 0 < th ^ 2 + (w * T) ^ 2 := by positivity
  have hS := Real.sqrt_pos.2 hD
  have hS2 := Real.sq_sqrt hD.le
  set S := Real.sqrt (th ^ 2 + (w * T) ^ 2) with hSd
  have hE1 : E.call 1 = .ok ⟨0, w * |th| / S, w * |th| / S * T⟩ := by
    have := Elipse.at_eq ptan ⟨0, 0, 0⟩ th w false 1 hth'
    rw [Vec.zero_add'] at this
    have ha : Elipse.angle false 1 = Real.pi / 2 := by simp [Elipse.angle]
    rw [ha] at this
    exact this
  have hE0 : E.call 0 = .ok ⟨0, w, 0⟩ := by
    have := (C20_sides ptan hT ⟨0, 0, 0⟩ th w hth' hw0).2.2.1
    rwa [Vec.zero_add'] at this
  have hpos : 0 < chordSum (fun i : ℕ => P ((i : ℝ) / (1000 : ℕ))) 1000 := by
    have hle : ∀ (Q : ℕ → V) (n : ℕ), vdist (Q 0) (Q n) ≤ chordSum Q n := by
      intro Q n
      unfold chordSum vdist
      exact dist_le_range_sum_dist (fun i => toE (Q i)) n
    refine lt_of_lt_of_le ?_ (hle _ 1000)
    have p0 : P (((0 : ℕ) : ℝ) / (1000 : ℕ)) = ⟨0, w, 0⟩ := by
      have := hP (((0 : ℕ) : ℝ) / (1000 : ℕ))
      simp only [Nat.cast_zero, zero_div] at this ⊢
      rw [hE0] at this; injection this with h; exact h.symm
    have p1 : P (((1000 : ℕ) : ℝ) / (1000 : ℕ)) = ⟨0, w * |th| / S, w * |th| / S * T⟩ := by
      have := hP (((1000 : ℕ) : ℝ) / (1000 : ℕ))
      rw [div_self (by norm_num)] at this ⊢
      rw [hE1] at this; injection this with h; exact h.symm
    simp only [p0, p1]
    refine dist_pos.2 fun h => ?_
    have := congrArg Vec.z (Vec.toE_injective h)
    simp only [] at this
    have : 0 < w * |th| / S * T := by positivity
    linarith
  obtain ⟨en, u, hen, -, -, -, -, c0, c1, -⟩ := C15_reparameterisation E (fun i : ℕ => P ((i : ℝ) / (1000 : ℕ))) 1000
    (by norm_num) (fun i _ => hP _) hpos
  have hen' : ArcLengthParameterizedPath E = .ok en := hen
  constructor
  · intro q hq
    simp only [MeanLeadingEdgePatchFunction, e] at hq
    rw [hm, ok_bind, hg, ok_bind, hw, ok_bind, hen', ok_bind, c0, hE0, ok_bind] at hq
    obtain ⟨φ, -, hq⟩ := bind_ok.1 hq
    have hq := pure_ok.1 hq
    subst hq
    simp only [Vec.add_x, Vec.add_y, Vec.add_z, add_sub_cancel_left, add_zero, true_and]
    linear_combination w ^ 2 * Real.sin_sq_add_cos_sq φ
  · intro q hq
    simp only [MeanLeadingEdgePatchFunction, e] at hq
    rw [hm, ok_bind, hg, ok_bind, hw, ok_bind, hen', ok_bind, c1, hE1, ok_bind] at hq
    obtain ⟨φ, -, hq⟩ := bind_ok.1 hq
    have hq := pure_ok.1 hq
    clear hpos hen hen' c0 c1
    subst hq
    simp only [Vec.add_x, Vec.add_y, Vec.add_z, add_sub_cancel_left, add_sub_add_left_eq_sub]
    have hwS : w / S ≤ 1 / T := by
      rw [div_le_div_iff₀ hS hpole, one_mul]
      apply Real.le_sqrt_of_sq_le
      nlinarith [sq_nonneg th]
    have hxe : w * |th| / S ≤ |th| / T := by
      have := mul_le_mul_of_nonneg_right hwS hb.le
      calc w * |th| / S = w / S * |th| := by ring
        _ ≤ 1 / T * |th| := this
        _ = |th| / T := by ring
    constructor
    · have e2 : (w * |th| / S * Real.cos φ) ^ 2 + (w * |th| / S * Real.sin φ) ^ 2 = (w * |th| / S) ^ 2 := by
        linear_combination (w * |th| / S) ^ 2 * Real.sin_sq_add_cos_sq φ
      rw [e2]
      have : 0 ≤ w * |th| / S := by positivity
      exact pow_le_pow_left₀ this hxe 2
    · -- with y = w T / S in [0,1]: |th| (1 - y) ≤ |th| (1 - y²) = |th| th² / S²
      set y := w * T / S with hy
      have hy0 : 0 ≤ y := by positivity
      have hy2 : y ^ 2 = 1 - th ^ 2 / S ^ 2 := by
        rw [hy, div_pow, hS2]; field_simp; ring
      have hy1 : y ≤ 1 := by
        have : y ^ 2 ≤ 1 := by rw [hy2]; have : 0 ≤ th ^ 2 / S ^ 2 := by positivity
                               linarith
        exact abs_le_one_iff_mul_self_le_one.2 (by nlinarith) |> fun h => (abs_le.1 h).2
      have hz : w * |th| / S * T = |th| * y := by rw [hy]; ring
      rw [hz]
      have : |(|th| * y - |th|)| = |th| * (1 - y) := by
        rw [show |th| * y - |th| = -(|th| * (1 - y)) by ring, abs_neg, abs_of_nonneg]
        exact mul_nonneg hb.le (by linarith)
      rw [this]
      have h1 : 1 - y ≤ th ^ 2 / S ^ 2 := by nlinarith
      have h2 : th ^ 2 / S ^ 2 ≤ th ^ 2 / (w * T) ^ 2 := by
        apply div_le_div_of_nonneg_left (sq_nonneg _) (by positivity)
        rw [hS2]; nlinarith [sq_nonneg th]
      calc |th| * (1 - y) ≤ |th| * (th ^ 2 / (w * T) ^ 2) := mul_le_mul_of_nonneg_left (h1.trans h2) hb.le
        _ = |th| ^ 3 / (w * T) ^ 2 := by rw [← sq_abs th]; ring

/-- Concrete data for the mean leading edge: a straight mean line, a guide line above it, unit width. -/
example : ∃ m g : V, (Line ⟨1, 0, 0⟩ ⟨0, 1, 0⟩).call ((1 - 0) * 1 + 0 * 0) = .ok m ∧
    (Line ⟨1, 0, 1⟩ ⟨0, 1, 2⟩).call ((1 - 0) * 1 + 0 * 0) = .ok g ∧ m.z ≠ g.z := by
  refine ⟨⟨0, 1, 0⟩, ⟨0, 1, 2⟩, ?_, ?_, by norm_num⟩
  · simp only [Line, lineAt, Except.ok.injEq]; ext <;> simp
  · simp only [Line, lineAt, Except.ok.injEq]; ext <;> simp

/-! ## C35 -/

theorem approxEq_refl (v : V) : v.approxEq v := by
  rw [approxEq_iff_cornerClose]; intro i; rw [sub_self, abs_zero]; positivity

/-- A Coons patch whose west and east edges are the straight joins of its south and north edges always
exists, and has exactly the south and north edges. -/
theorem coons_ruled (south north : PathObj) (s0 s1 n0 n1 : V) (h1 : south.call 0 = .ok s0)
    (h2 : south.call 1 = .ok s1) (h3 : north.call 0 = .ok n0) (h4 : north.call 1 = .ok n1) :
    ∃ surf, CoonsPatch north (Line s1 n1) south (Line s0 n0) = .ok surf ∧
      ∀ r a b, south.call r = .ok a → north.call r = .ok b →
        surf r 0 = .ok a ∧ surf r 1 = .ok b := by
  have l0 : ∀ a b : V, (Line a b).call 0 = .ok a := by
    intro a b; simp only [Line, lineAt, Except.ok.injEq]; ext <;> simp
  have l1 : ∀ a b : V, (Line a b).call 1 = .ok b := by
    intro a b; simp only [Line, lineAt, Except.ok.injEq]; ext <;> simp
  have hc : ∃ c, Coons.ofEdges north (Line s1 n1) south (Line s0 n0) = .ok c := by
    simp only [Coons.ofEdges, h1, h2, h3, h4, l0, l1, bind, Except.bind, pure, Except.pure]
    simp only [approxEq_refl, not_true_eq_false, if_false]
    exact ⟨_, rfl⟩
  obtain ⟨c, hc⟩ := hc
  refine ⟨c.call, by simp only [CoonsPatch, hc, bind, Except.bind, pure, Except.pure], ?_⟩
  intro r a b ha hb
  obtain ⟨w, hw⟩ : ∃ w, (Line s0 n0).call r = .ok w := ⟨_, rfl⟩
  obtain ⟨e, he⟩ : ∃ e, (Line s1 n1).call r = .ok e := ⟨_, rfl⟩
  obtain ⟨k1, k2, -, -⟩ := C22_edges north (Line s1 n1) south (Line s0 n0) c hc (by rw [h1, l0]) (by rw [h2, l0])
    (by rw [h3, l1]) (by rw [h4, l1]) r a b w e ha hb hw he
  exact ⟨by rw [k1, ha], by rw [k2, hb]⟩

/-- The flap side of a trailing-edge patch: `s = 0` for `"top"`, `s = 1` for `"bot"`. -/
def Spec.tipSide (side : String) : ℝ := if side = "top" then 0 else 1

/-- The trailing-edge side of a trailing-edge patch. -/
def Spec.hingeSide (side : String) : ℝ := if side = "top" then 1 else 0

/-- C35 for `MeanTrailingEdgePatch`: one side of the patch is the trailing edge path, the other is the
straight flap tip; each end of the tip is at distance `|flap_length|` from the mean-line point it hinges on,
deflected by `flap_angle` from the -x direction in the x-z plane, for every angle. -/
theorem C35_mean_flap_partial (mean te : PathObj) (L α : ℝ) (side : String) (hs : side = "top" ∨ side = "bot")
    (m0 m1 e0 e1 : V) (hm0 : mean.call 0 = .ok m0) (hm1 : mean.call 1 = .ok m1) (he0 : te.call 0 = .ok e0)
    (he1 : te.call 1 = .ok e1) :
    ∃ surf tip0 tip1, MeanTrailingEdgePatch mean te L α side = .ok surf ∧
      (∀ r p, te.call r = .ok p →
        surf r (hingeSide side) = .ok p ∧
        ∃ q, surf r (tipSide side) = .ok q ∧ toE q = (1 - r) • toE tip0 + r • toE tip1) ∧
      surf 0 (tipSide side) = .ok tip0 ∧ surf 1 (tipSide side) = .ok tip1 ∧
      vdist tip0 m0 = |L| ∧ vdist tip1 m1 = |L| ∧
      toE tip0 - toE m0 = L • toE ⟨-Real.cos α, 0, Real.sin α⟩ ∧
      toE tip1 - toE m1 = L • toE ⟨-Real.cos α, 0, Real.sin α⟩ := by
  set tip0 : V := ⟨m0.x - L * Real.cos α, m0.y, m0.z + L * Real.sin α⟩ with ht0
  set tip1 : V := ⟨m1.x - L * Real.cos α, m1.y, m1.z + L * Real.sin α⟩ with ht1
  have dir : ∀ m : V, toE ⟨m.x - L * Real.cos α, m.y, m.z + L * Real.sin α⟩ - toE m
      = L • toE ⟨-Real.cos α, 0, Real.sin α⟩ := by
    intro m
    rw [← Vec.toE_sub, ← Vec.toE_mul]
    congr 1
    ext <;> simp <;> ring
  have hdist : ∀ m : V, vdist ⟨m.x - L * Real.cos α, m.y, m.z + L * Real.sin α⟩ m = |L| := by
    intro m
    unfold vdist
    rw [dist_eq_norm, dir, norm_smul, Real.norm_eq_abs, ← Vec.abs_eq_norm]
    have : (⟨-Real.cos α, 0, Real.sin α⟩ : V).abs = 1 := by
      unfold Vec.abs
      have := Real.sin_sq_add_cos_sq α
      rw [show (-Real.cos α) ^ 2 + (0 : ℝ) ^ 2 + Real.sin α ^ 2 = 1 by linarith, Real.sqrt_one]
    rw [this, mul_one]
  have t0 : (Line tip0 tip1).call 0 = .ok tip0 := by
    simp only [Line, lineAt, Except.ok.injEq]; ext <;> simp
  have t1 : (Line tip0 tip1).call 1 = .ok tip1 := by
    simp only [Line, lineAt, Except.ok.injEq]; ext <;> simp
  have lin : ∀ r, ∃ q, (Line tip0 tip1).call r = .ok q ∧ toE q = (1 - r) • toE tip0 + r • toE tip1 := by
    intro r
    refine ⟨_, rfl, ?_⟩
    rw [← Vec.toE_mul, ← Vec.toE_mul, ← Vec.toE_add]
    congr 1
  rcases hs with rfl | rfl
  · obtain ⟨surf, hsf, hed⟩ := coons_ruled (Line tip0 tip1) te tip0 tip1 e0 e1 t0 t1 he0 he1
    refine ⟨surf, tip0, tip1, ?_, ?_, ?_, ?_, hdist m0, hdist m1, dir m0, dir m1⟩
    · simp only [MeanTrailingEdgePatch, hm0, hm1, true_or, if_true, bind, Except.bind, pure, Except.pure, ← ht0, ← ht1,
        t0, t1, he0, he1, hsf]
    · intro r p hp
      obtain ⟨q, hq, hq'⟩ := lin r
      obtain ⟨k1, k2⟩ := hed r q p hq hp
      exact ⟨by simpa [hingeSide] using k2, q, by simpa [tipSide] using k1, hq'⟩
    · simpa [tipSide] using (hed 0 _ _ t0 he0).1
    · simpa [tipSide] using (hed 1 _ _ t1 he1).1
  · obtain ⟨surf, hsf, hed⟩ := coons_ruled te (Line tip0 tip1) e0 e1 tip0 tip1 he0 he1 t0 t1
    have hne : ("bot" : String) ≠ "top" := by decide
    refine ⟨surf, tip0, tip1, ?_, ?_, ?_, ?_, hdist m0, hdist m1, dir m0, dir m1⟩
    · simp only [MeanTrailingEdgePatch, hm0, hm1, or_true, if_true, bind, Except.bind, pure, Except.pure, ← ht0, ← ht1,
        t0, t1, he0, he1, hsf, hne, if_false]
    · intro r p hp
      obtain ⟨q, hq, hq'⟩ := lin r
      obtain ⟨k1, k2⟩ := hed r p q hp hq
      exact ⟨by simpa [hingeSide] using k1, q, by simpa [tipSide] using k2, hq'⟩
    · simpa [tipSide] using (hed 0 _ _ he0 t0).2
    · simpa [tipSide] using (hed 1 _ _ he1 t1).2

/-- C35 for `TrailingEdgePatch`: the patch starts on the trailing edge path and ends on a straight tip, but
the distance of the tip from the hinge point `A0` is `√(L² + (L sin α - A0.z)²)`: the flap is not shortened in
x when deflected, and the height of the hinge is ignored. -/
theorem C35_flap_partial (A0 B0 : V) (te : PathObj) (L α : ℝ) (side : String) (hs : side = "top" ∨ side = "bot")
    (e0 e1 : V) (he0 : te.call 0 = .ok e0) (he1 : te.call 1 = .ok e1) :
    ∃ surf tip0 tip1, TrailingEdgePatch A0 B0 te L α side = .ok surf ∧
      (∀ r p, te.call r = .ok p → surf r (hingeSide side) = .ok p) ∧
      surf 0 (tipSide side) = .ok tip0 ∧ surf 1 (tipSide side) = .ok tip1 ∧
      vdist tip0 A0 = Real.sqrt (L ^ 2 + (L * Real.sin α - A0.z) ^ 2) ∧
      vdist tip1 B0 = Real.sqrt (L ^ 2 + (L * Real.sin α - B0.z) ^ 2) ∧
      (vdist tip0 A0 = |L| ↔ L * Real.sin α = A0.z) := by
  set tip0 : V := ⟨A0.x - L, A0.y, 0 + L * Real.sin α⟩ with ht0
  set tip1 : V := ⟨B0.x - L, B0.y, 0 + L * Real.sin α⟩ with ht1
  have hdist : ∀ m : V, vdist ⟨m.x - L, m.y, 0 + L * Real.sin α⟩ m
      = Real.sqrt (L ^ 2 + (L * Real.sin α - m.z) ^ 2) := by
    intro m
    rw [← Vec.abs_sub_eq_vdist]
    unfold Vec.abs
    congr 1
    simp only [Vec.sub_x, Vec.sub_y, Vec.sub_z]
    ring
  have hiff : vdist tip0 A0 = |L| ↔ L * Real.sin α = A0.z := by
    rw [hdist A0, ← Real.sqrt_sq_eq_abs, Real.sqrt_inj (by positivity) (sq_nonneg _), add_eq_left,
      pow_eq_zero_iff (by norm_num), sub_eq_zero]
  have t0 : (Line tip0 tip1).call 0 = .ok tip0 := by
    simp only [Line, lineAt, Except.ok.injEq]; ext <;> simp
  have t1 : (Line tip0 tip1).call 1 = .ok tip1 := by
    simp only [Line, lineAt, Except.ok.injEq]; ext <;> simp
  have lin : ∀ r, ∃ q, (Line tip0 tip1).call r = .ok q := fun r => ⟨_, rfl⟩
  rcases hs with rfl | rfl
  · obtain ⟨surf, hsf, hed⟩ := coons_ruled (Line tip0 tip1) te tip0 tip1 e0 e1 t0 t1 he0 he1
    refine ⟨surf, tip0, tip1, ?_, ?_, ?_, ?_, hdist A0, hdist B0, hiff⟩
    · simp only [TrailingEdgePatch, if_true, bind, Except.bind, pure, Except.pure, ← ht0, ← ht1,
        t0, t1, he0, he1, hsf]
    · intro r p hp
      obtain ⟨q, hq⟩ := lin r
      obtain ⟨k1, k2⟩ := hed r q p hq hp
      simpa [hingeSide] using k2
    · simpa [tipSide] using (hed 0 _ _ t0 he0).1
    · simpa [tipSide] using (hed 1 _ _ t1 he1).1
  · obtain ⟨surf, hsf, hed⟩ := coons_ruled te (Line tip0 tip1) e0 e1 tip0 tip1 he0 he1 t0 t1
    have hne : ("bot" : String) ≠ "top" := by decide
    refine ⟨surf, tip0, tip1, ?_, ?_, ?_, ?_, hdist A0, hdist B0, hiff⟩
    · simp only [TrailingEdgePatch, if_true, bind, Except.bind, pure, Except.pure, ← ht0, ← ht1,
        t0, t1, he0, he1, hsf, hne, if_false]
    · intro r p hp
      obtain ⟨q, hq⟩ := lin r
      obtain ⟨k1, k2⟩ := hed r p q hp hq
      simpa [hingeSide] using k1
    · simpa [tipSide] using (hed 0 _ _ he0 t0).2
    · simpa [tipSide] using (hed 1 _ _ he1 t1).2

/-- C35 is violated by `TrailingEdgePatch`: a unit flap deflected by a right angle has its tip at distance
`√2` from the hinge. -/
theorem C35_flap_violated :
    ∃ surf tip, TrailingEdgePatch ⟨0, 0, 0⟩ ⟨0, 1, 0⟩ (Line ⟨0, 0, 0⟩ ⟨0, 1, 0⟩) 1 (Real.pi / 2) "bot" = .ok surf ∧
      surf 0 1 = .ok tip ∧ vdist tip ⟨0, 0, 0⟩ = Real.sqrt 2 ∧ vdist tip ⟨0, 0, 0⟩ ≠ 1 := by
  obtain ⟨surf, tip0, tip1, h, -, h0, -, hd, -, -⟩ := C35_flap_partial ⟨0, 0, 0⟩ ⟨0, 1, 0⟩
    (Line ⟨0, 0, 0⟩ ⟨0, 1, 0⟩) 1 (Real.pi / 2) "bot" (.inr rfl) ⟨0, 0, 0⟩ ⟨0, 1, 0⟩
    (by simp only [Line, lineAt, Except.ok.injEq]; ext <;> simp)
    (by simp only [Line, lineAt, Except.ok.injEq]; ext <;> simp)
  have hd' : vdist tip0 ⟨0, 0, 0⟩ = Real.sqrt 2 := by
    rw [hd]; congr 1; simp; norm_num
  refine ⟨surf, tip0, h, by simpa [tipSide] using h0, hd', ?_⟩
  rw [hd']
  intro h
  have := Real.sq_sqrt (show (0 : ℝ) ≤ 2 by norm_num)
  rw [h] at this
  norm_num at this

end HV
