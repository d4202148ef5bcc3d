import Verif.Props.Size
import Verif.Props.RevolvedEnds
import Verif.Props.Common

/-!
# C137: the dimensions of bodies of revolution, of the ogive nose and of the Falcon 9 are those of their meshes
-/

namespace HV
open Spec Veh

theorem axisDist_le_iff {v : V} {R : ℝ} : axisDist v ≤ R ↔ ∀ a b : ℝ, a ^ 2 + b ^ 2 = 1 → a * v.y + b * v.z ≤ R := by
  constructor
  · intro h a b hab
    refine le_trans ?_ h
    unfold axisDist
    apply Real.le_sqrt_of_sq_le
    nlinarith [sq_nonneg (a * v.z - b * v.y)]
  · intro h
    by_cases hd : axisDist v = 0
    · have h1 := h 1 0 (by norm_num)
      have h2 := h (-1) 0 (by norm_num)
      rw [hd]; linarith
    · have hs : axisDist v ^ 2 = v.y ^ 2 + v.z ^ 2 := Real.sq_sqrt (by positivity)
      have := h (v.y / axisDist v) (v.z / axisDist v) (by rw [div_pow, div_pow, ← add_div, ← hs]; field_simp)
      have e : v.y / axisDist v * v.y + v.z / axisDist v * v.z = axisDist v := by
        field_simp; linarith
      rwa [e] at this

theorem axisDist_revolveRot (a : ℝ) (p : V) : axisDist (revolveRot a p) = axisDist p := by
  unfold axisDist revolveRot
  congr 1
  linear_combination (p.y ^ 2 + p.z ^ 2) * (Real.sin_sq_add_cos_sq a)

theorem axisDist_centre {R : ℝ} (p q r s : V) (hp : axisDist p ≤ R) (hq : axisDist q ≤ R) (hr : axisDist r ≤ R) (hs : axisDist s ≤ R) :
    axisDist (cellCentre MeshArith.real p q r s) ≤ R := by
  rw [axisDist_le_iff] at *
  intro a b hab
  have e := aff_centre 0 a b 0 p q r s
  unfold aff at e
  have := hp a b hab
  have := hq a b hab
  have := hr a b hab
  have := hs a b hab
  linarith

/-- C137 in general: a body of revolution of any resolution lies between any two planes across the axis between which its profile lies, and
within any distance of the axis within which its profile lies; the mesh contains the profile at `n + 1` evenly spaced parameters, above, below, to
the left and to the right of the axis. -/
theorem C137_revolved (line : PathObj) (f : ℝ → V) (hl : ∀ t, 0 ≤ t → t ≤ 1 → line.call t = .ok (f t)) (hz : ∀ t, 0 ≤ t → t ≤ 1 → (f t).z = 0)
    (n : ℕ) (hn : 1 ≤ n) (name : Option String) (h : Heap) (id : ℕ) (hid : h id = RevolvedComponent line n name) :
    ∃ h' M c', generatePatches h id = (.ok (), h') ∧ (h' id).mesh = (.ok M, c') ∧
      (∀ lo hi : ℝ, (∀ t, 0 ≤ t → t ≤ 1 → lo ≤ (f t).x ∧ (f t).x ≤ hi) → ∀ v, IsVertex v M.tris → lo ≤ v.x ∧ v.x ≤ hi) ∧
      (∀ R : ℝ, (∀ t, 0 ≤ t → t ≤ 1 → |(f t).y| ≤ R) → ∀ v, IsVertex v M.tris → axisDist v ≤ R) ∧
      ∀ i ≤ n, ∀ p, p = f ((i : ℝ) / n) → IsVertex ⟨p.x, p.y, 0⟩ M.tris ∧ IsVertex ⟨p.x, -p.y, 0⟩ M.tris ∧ IsVertex ⟨p.x, 0, p.y⟩ M.tris ∧
        IsVertex ⟨p.x, 0, -p.y⟩ M.tris := by
  obtain ⟨h', M, c', g1, g2, g3⟩ := revolved_mesh line f hl n hn name h id hid
  have hu : ∀ i : ℕ, i ≤ n → 0 ≤ (i : ℝ) / n ∧ (i : ℝ) / n ≤ 1 := fun i hi => unit_div n i hn hi
  have keep : ∀ K : V → Prop, (∀ p q r s : V, K p → K q → K r → K s → K (cellCentre MeshArith.real p q r s)) →
      (∀ a t, 0 ≤ t → t ≤ 1 → K (revolveRot a (f t))) → ∀ v, IsVertex v M.tris → K v := by
    intro K hK hp v hv
    rw [g3, isVertex_flatten] at hv
    obtain ⟨m, hm, hv⟩ := hv
    obtain ⟨P, hP, rfl⟩ := List.mem_map.1 hm
    obtain ⟨k, -, rfl⟩ := List.mem_map.1 hP
    exact grid_keeps n _ K hK (fun i hi j _ => hp _ _ (hu i hi).1 (hu i hi).2) v hv
  refine ⟨h', M, c', g1, g2, ?_, ?_, ?_⟩
  · intro lo hi hx
    refine keep (fun v => lo ≤ v.x ∧ v.x ≤ hi) ?_ (fun a t h0 h1 => hx t h0 h1)
    intro p q r s hp hq hr hs
    have e := aff_centre 1 0 0 0 p q r s
    unfold aff at e
    constructor <;> linarith [hp.1, hp.2, hq.1, hq.2, hr.1, hr.2, hs.1, hs.2]
  · intro R hR
    refine keep (fun v => axisDist v ≤ R) (fun p q r s => axisDist_centre p q r s) ?_
    intro a t h0 h1
    show axisDist (revolveRot a (f t)) ≤ R
    rw [axisDist_revolveRot]
    refine le_trans (le_of_eq ?_) (hR t h0 h1)
    unfold axisDist
    rw [hz t h0 h1, ← Real.sqrt_sq_eq_abs]
    simp
  · rintro i hi p rfl
    have hv : ∀ k : ℕ, k < 4 → IsVertex (revolveRot ((k : ℝ) * Real.pi / 2) (f ((i : ℝ) / n))) M.tris := by
      intro k hk
      rw [g3, isVertex_flatten]
      have := gridMesh_vertex n n (revolveGrid f n k) i 0 hn hn hi (by omega)
      refine ⟨_, List.mem_map.2 ⟨revolveGrid f n k, List.mem_map.2 ⟨k, List.mem_range.2 hk, rfl⟩, rfl⟩, ?_⟩
      simpa [revolveGrid] using this
    have w0 := hv 0 (by omega)
    have w1 := hv 1 (by omega)
    have w2 := hv 2 (by omega)
    have w3 := hv 3 (by omega)
    have e2 : ((2 : ℕ) : ℝ) * Real.pi / 2 = Real.pi := by push_cast; ring
    have e3 : ((3 : ℕ) : ℝ) * Real.pi / 2 = Real.pi + Real.pi / 2 := by push_cast; ring
    rw [e2] at w2
    rw [e3] at w3
    have z := hz _ (hu i hi).1 (hu i hi).2
    simp [revolveRot, Real.sin_add, Real.cos_add, z] at w0 w1 w2 w3
    exact ⟨w0, w2, w3, w1⟩

/-- Within segment `i` the polyline follows segment `i`. -/
theorem polyline_within (segs : List PathObj) (hne : segs ≠ []) (h : ∀ s ∈ segs, GoodSeg s) (P : PathObj) (hP : Polyline segs = .ok P)
    (i : ℕ) (hi : i < segs.length) (t : ℝ) (h0 : bp lenOf segs i < t) (h1 : t < bp lenOf segs (i + 1)) :
    ∃ u ∈ Set.Icc (0 : ℝ) 1, fnOf P t = fnOf segs[i] u := by
  obtain ⟨P', hP', ⟨b0, b1, hb⟩, hex, hact, -, -, -⟩ := C09_polyline lenOf segs hne (fun s hs => (h s hs).len)
    (fun s hs => (h s hs).2) (1 / 10 ^ 10)
  rw [hP] at hP'
  obtain rfl := Except.ok.inj hP'
  have hd : 0 < bp lenOf segs (i + 1) - bp lenOf segs i := sub_pos.2 (hb i (i + 1) (by omega) (by omega))
  refine ⟨(t - bp lenOf segs i) / (bp lenOf segs (i + 1) - bp lenOf segs i), ⟨div_nonneg (by linarith) hd.le, (div_le_one hd).2 (by linarith)⟩, ?_⟩
  unfold fnOf
  rw [hact t i ⟨hi, .inr h0, .inr h1.le⟩]

/-- An interval contains a point of every fine enough division of `[0, 1]`. -/
theorem grid_hits (a b : ℝ) (h0 : 0 ≤ a) (hab : a < b) (h1 : b ≤ 1) : ∃ N : ℕ, ∀ n : ℕ, N ≤ n → ∃ i ≤ n, a < (i : ℝ) / n ∧ (i : ℝ) / n < b := by
  obtain ⟨N, hN⟩ := exists_nat_gt (1 / (b - a))
  refine ⟨N, fun n hn => ?_⟩
  have hba : 0 < b - a := by linarith
  have hNp : (0 : ℝ) < N := (by positivity : (0 : ℝ) < 1 / (b - a)).trans hN
  have hnp : (0 : ℝ) < n := hNp.trans_le (by exact_mod_cast hn)
  have hk : 1 < (n : ℝ) * (b - a) := by
    rw [div_lt_iff₀ hba] at hN
    have : (N : ℝ) * (b - a) ≤ n * (b - a) := mul_le_mul_of_nonneg_right (by exact_mod_cast hn) hba.le
    linarith
  have hf := Nat.floor_le (mul_nonneg hnp.le h0)
  have hf' := Nat.lt_floor_add_one ((n : ℝ) * a)
  have hlt : ((⌊(n : ℝ) * a⌋₊ + 1 : ℕ) : ℝ) / n < b := by
    rw [div_lt_iff₀ hnp]; push_cast; nlinarith
  refine ⟨⌊(n : ℝ) * a⌋₊ + 1, ?_, ?_, hlt⟩
  · have : ((⌊(n : ℝ) * a⌋₊ + 1 : ℕ) : ℝ) / n ≤ 1 := by linarith
    rw [div_le_one hnp] at this
    exact_mod_cast this
  · rw [lt_div_iff₀ hnp]; push_cast; nlinarith

set_option maxHeartbeats 800000 in
/-- The profile of an ogive nose followed by a line `B`. -/
theorem nose_profile (h r_n r_o L q κ : ℝ) (h1 : 0 < r_n) (h2 : r_n < h) (h3 : h < r_o) (h4 : 0 < L) (hq : 0 < q)
    (hq2 : q ^ 2 = (r_o - r_n) ^ 2 - (r_o - h) ^ 2) (hκ : κ * (r_o - r_n) = r_n) (B : PathObj) (gB : GoodSeg B) (lo R : ℝ) (hR : h ≤ R)
    (hlo : lo ≤ -L) (hB : ∀ t ∈ Set.Icc (0 : ℝ) 1, (lo ≤ (fnOf B t).x ∧ (fnOf B t).x ≤ 0) ∧ (0 ≤ (fnOf B t).y ∧ (fnOf B t).y ≤ R) ∧ (fnOf B t).z = 0)
    (P : PathObj) (hP : Polyline [Arc ⟨q + r_n, 0, 0⟩ ⟨q + κ * q, κ * (r_o - h), 0⟩ ⟨q, 0, 0⟩,
      Arc ⟨q + κ * q, κ * (r_o - h), 0⟩ ⟨0, h, 0⟩ ⟨0, h - r_o, 0⟩, Line ⟨0, h, 0⟩ ⟨-L, h, 0⟩, B] = .ok P) :
    GoodSeg P ∧ fnOf P 0 = ⟨q + r_n, 0, 0⟩ ∧ fnOf P 1 = fnOf B 1 ∧
      (∀ t ∈ Set.Icc (0 : ℝ) 1, (lo ≤ (fnOf P t).x ∧ (fnOf P t).x ≤ q + r_n) ∧ (0 ≤ (fnOf P t).y ∧ (fnOf P t).y ≤ R) ∧ (fnOf P t).z = 0) ∧
      ∃ a b, 0 ≤ a ∧ a < b ∧ b ≤ 1 ∧ ∀ t, a < t → t < b → (fnOf P t).y = h := by
  set ρ := r_o - r_n with hρ
  have hρ0 : 0 < ρ := by linarith
  have hlt : r_o - h < ρ := by linarith
  set α := Real.arcsin ((r_o - h) / ρ) with hα
  have hq0 : 0 < (r_o - h) / ρ := div_pos (by linarith) hρ0
  have hq1 : (r_o - h) / ρ < 1 := (div_lt_one hρ0).2 hlt
  have hα0 : 0 < α := Real.arcsin_pos.2 hq0
  have hα1 : α < Real.pi / 2 := Real.arcsin_lt_pi_div_two.2 hq1
  have hsin : ρ * Real.sin α = r_o - h := by rw [Real.sin_arcsin (by linarith) hq1.le]; field_simp
  have hcos : ρ * Real.cos α = q := by
    rw [hα, Real.cos_arcsin, show 1 - ((r_o - h) / ρ) ^ 2 = (q / ρ) ^ 2 by rw [div_pow, div_pow, hq2]; field_simp,
      Real.sqrt_sq (by positivity)]
    field_simp
  have hcp : 0 < Real.cos α := Real.cos_pos_of_mem_Ioo ⟨by linarith [Real.pi_pos], hα1⟩
  have hpi := Real.pi_pos
  have hκs : κ * (r_o - h) = r_n * Real.sin α := by rw [← hsin, ← hκ]; ring
  have hκc : κ * q = r_n * Real.cos α := by rw [← hcos, ← hκ]; ring
  rw [hκs, hκc] at hP
  set T : V := ⟨q + r_n * Real.cos α, r_n * Real.sin α, 0⟩ with hT
  obtain ⟨gn, fn⟩ := goodArc ⟨q + r_n, 0, 0⟩ T ⟨q, 0, 0⟩ r_n 0 α h1 hα0 (by linarith) rfl
    (by rw [Real.cos_zero, Real.sin_zero]; ext <;> simp) (by ext <;> simp [T])
  have hro : r_o = ρ + r_n := by rw [hρ]; ring
  obtain ⟨go, fo⟩ := goodArc T ⟨0, h, 0⟩ ⟨0, h - r_o, 0⟩ r_o α (Real.pi / 2) (by linarith) hα1 (by linarith) rfl
    (by
      ext
      · simp [T]; linear_combination (-1 : ℝ) * hcos + Real.cos α * (-1) * hro
      · simp [T]; linear_combination (-1 : ℝ) * hsin - Real.sin α * hro
      · rfl)
    (by rw [Real.cos_pi_div_two, Real.sin_pi_div_two]; ext <;> simp)
  have g3 : GoodSeg (Line ⟨0, h, 0⟩ ⟨-L, h, 0⟩) := goodLine _ _ (by intro e; have := congrArg Vec.x e; simp at this; linarith)
  set segs : List PathObj := [Arc ⟨q + r_n, 0, 0⟩ T ⟨q, 0, 0⟩, Arc T ⟨0, h, 0⟩ ⟨0, h - r_o, 0⟩, Line ⟨0, h, 0⟩ ⟨-L, h, 0⟩, B] with hsegs
  have hgood : ∀ s ∈ segs, GoodSeg s := by
    intro s hs
    simp only [hsegs, List.mem_cons, List.not_mem_nil, or_false] at hs
    rcases hs with rfl | rfl | rfl | rfl <;> assumption
  have hne : segs ≠ [] := by simp [hsegs]
  obtain ⟨P', hP', hG, p0, p1, hact⟩ := goodPolyline segs hne hgood
  rw [hP] at hP'
  obtain rfl := Except.ok.inj hP'
  refine ⟨hG, ?_, ?_, ?_, ?_⟩
  · rw [p0]
    show fnOf (Arc ⟨q + r_n, 0, 0⟩ T ⟨q, 0, 0⟩) 0 = _
    rw [fn]; simp
  · rw [p1]; rfl
  · intro t ht
    obtain ⟨i, hi, u, ⟨hu0, hu1⟩, -, -, -, e⟩ := hact t ht
    rw [e]
    have hi' : i < 4 := hi
    interval_cases i
    · show (lo ≤ (fnOf (Arc ⟨q + r_n, 0, 0⟩ T ⟨q, 0, 0⟩) u).x ∧ _) ∧ _
      rw [show (segs[0] : PathObj) = Arc ⟨q + r_n, 0, 0⟩ T ⟨q, 0, 0⟩ from rfl, fn]
      have c1 := Real.cos_le_one (0 + (α - 0) * u)
      have s1 := Real.sin_le_one (0 + (α - 0) * u)
      have a1 : 0 ≤ 0 + (α - 0) * u := by rw [zero_add, sub_zero]; exact mul_nonneg hα0.le hu0
      have a2 : 0 + (α - 0) * u ≤ Real.pi / 2 := by have := mul_le_mul_of_nonneg_left hu1 hα0.le; linarith
      have c0 := Real.cos_nonneg_of_neg_pi_div_two_le_of_le (by linarith) a2
      have s0 := Real.sin_nonneg_of_nonneg_of_le_pi a1 (by linarith)
      have := mul_nonneg h1.le c0
      have := mul_nonneg h1.le s0
      have : r_n * Real.cos (0 + (α - 0) * u) ≤ r_n * 1 := mul_le_mul_of_nonneg_left c1 h1.le
      have : r_n * Real.sin (0 + (α - 0) * u) ≤ r_n * 1 := mul_le_mul_of_nonneg_left s1 h1.le
      refine ⟨⟨?_, ?_⟩, ⟨?_, ?_⟩, rfl⟩ <;> simp only <;> linarith
    · rw [show (segs[1] : PathObj) = Arc T ⟨0, h, 0⟩ ⟨0, h - r_o, 0⟩ from rfl, fo]
      set θ := α + (Real.pi / 2 - α) * u with hθ
      have a1 : α ≤ θ := by have := mul_nonneg (sub_nonneg.2 hα1.le) hu0; linarith
      have a2 : θ ≤ Real.pi / 2 := by have := mul_nonneg (sub_nonneg.2 hα1.le) (sub_nonneg.2 hu1); linarith
      have c0 := Real.cos_nonneg_of_neg_pi_div_two_le_of_le (by linarith) a2
      have c1 : Real.cos θ ≤ Real.cos α := Real.cos_le_cos_of_nonneg_of_le_pi hα0.le (by linarith) a1
      have s0 : Real.sin α ≤ Real.sin θ := Real.sin_le_sin_of_le_of_le_pi_div_two (by linarith) a2 a1
      have s1 := Real.sin_le_one θ
      have k1 : r_o * Real.cos θ ≤ r_o * Real.cos α := mul_le_mul_of_nonneg_left c1 (by linarith)
      have k2 : r_o * Real.cos α = q + r_n * Real.cos α := by rw [hro]; linear_combination hcos
      have k3 : r_n * Real.cos α ≤ r_n * 1 := mul_le_mul_of_nonneg_left (Real.cos_le_one α) h1.le
      have k4 : 0 ≤ r_o * Real.cos θ := mul_nonneg (by linarith) c0
      have k5 : r_o * Real.sin α ≤ r_o * Real.sin θ := mul_le_mul_of_nonneg_left s0 (by linarith)
      have k6 : r_o * Real.sin α = r_o - h + r_n * Real.sin α := by rw [← hsin, hro]; ring
      have k7 : 0 ≤ r_n * Real.sin α := by
        exact mul_nonneg h1.le (Real.sin_nonneg_of_nonneg_of_le_pi hα0.le (by linarith))
      have k8 : r_o * Real.sin θ ≤ r_o * 1 := mul_le_mul_of_nonneg_left s1 (by linarith)
      refine ⟨⟨?_, ?_⟩, ⟨?_, ?_⟩, rfl⟩ <;> simp only <;> linarith
    · rw [show (segs[2] : PathObj) = Line ⟨0, h, 0⟩ ⟨-L, h, 0⟩ from rfl, fnOf_line]
      have := mul_nonneg h4.le hu0
      have := mul_nonneg h4.le (sub_nonneg.2 hu1)
      refine ⟨⟨?_, ?_⟩, ⟨?_, ?_⟩, ?_⟩ <;> simp only <;> linarith
    · rw [show (segs[3] : PathObj) = B from rfl]
      obtain ⟨⟨b1, b2⟩, b3, b4⟩ := hB u ⟨hu0, hu1⟩
      exact ⟨⟨b1, by linarith⟩, b3, b4⟩
  · have hpos : ∀ s ∈ segs, 0 < lenOf s := fun s hs => ((hgood s hs).len).2
    refine ⟨bp lenOf segs 2, bp lenOf segs 3, ?_, Polyline.bp_succ lenOf segs hpos 2 (by simp [hsegs]), ?_, ?_⟩
    · have := Polyline.bp_le lenOf segs hpos (show 0 ≤ 2 by omega) (by simp [hsegs])
      rwa [Polyline.bp_zero] at this
    · have := Polyline.bp_le lenOf segs hpos (show 3 ≤ 4 by omega) (by simp [hsegs])
      rwa [show bp lenOf segs 4 = 1 from Polyline.bp_last lenOf segs hne hpos] at this
    · intro t a b
      obtain ⟨u, -, e⟩ := polyline_within segs hne hgood P hP 2 (by simp [hsegs]) t a b
      rw [e, show (segs[2]'(by simp [hsegs]) : PathObj) = Line ⟨0, h, 0⟩ ⟨-L, h, 0⟩ from rfl, fnOf_line]
      show h * (1 - u) + h * u = h
      ring


/-- A body of revolution of known extent: the mesh reaches from `lo` to `hi` along the axis and lies within `R` of the axis. -/
theorem revolved_extent (line : PathObj) (gl : GoodSeg line) (lo hi R : ℝ)
    (hb : ∀ t ∈ Set.Icc (0 : ℝ) 1, (lo ≤ (fnOf line t).x ∧ (fnOf line t).x ≤ hi) ∧ (0 ≤ (fnOf line t).y ∧ (fnOf line t).y ≤ R) ∧ (fnOf line t).z = 0)
    (h0 : fnOf line 0 = ⟨hi, 0, 0⟩) (h1 : fnOf line 1 = ⟨lo, 0, 0⟩) (n : ℕ) (hn : 1 ≤ n) (name : Option String) (h : Heap) (id : ℕ)
    (hid : h id = RevolvedComponent line n name) :
    ∃ h' M c', generatePatches h id = (.ok (), h') ∧ (h' id).mesh = (.ok M, c') ∧ Spans (·.x) lo hi M.tris ∧
      (∀ v, IsVertex v M.tris → axisDist v ≤ R) ∧
      ∀ i ≤ n, (fnOf line ((i : ℝ) / n)).y = R → Spans (·.y) (-R) R M.tris ∧ Spans (·.z) (-R) R M.tris := by
  obtain ⟨h', M, c', g1, g2, g3, g4, g5⟩ := C137_revolved line (fnOf line) (fun t _ _ => gl.call t) (fun t a b => (hb t ⟨a, b⟩).2.2) n hn name h id hid
  have hR := g4 R (fun t a b => by rw [abs_of_nonneg (hb t ⟨a, b⟩).2.1.1]; exact (hb t ⟨a, b⟩).2.1.2)
  have hnn : (n : ℝ) ≠ 0 := by positivity
  refine ⟨h', M, c', g1, g2, ⟨g3 lo hi fun t a b => (hb t ⟨a, b⟩).1, ?_, ?_⟩, hR, ?_⟩
  · have := (g5 n le_rfl _ rfl).1
    rw [div_self hnn, h1] at this
    exact ⟨_, this, rfl⟩
  · have := (g5 0 (by omega) _ rfl).1
    rw [Nat.cast_zero, zero_div, h0] at this
    exact ⟨_, this, rfl⟩
  · intro i hi e
    obtain ⟨w1, w2, w3, w4⟩ := g5 i hi _ rfl
    rw [e] at w1 w2 w3 w4
    have k := fun v hv => axisDist_le_iff.1 (hR v hv)
    refine ⟨⟨fun v hv => ⟨?_, ?_⟩, ⟨_, w2, rfl⟩, ⟨_, w1, rfl⟩⟩, ⟨fun v hv => ⟨?_, ?_⟩, ⟨_, w4, rfl⟩, ⟨_, w3, rfl⟩⟩⟩
    · have := k v hv (-1) 0 (by norm_num); simp only; linarith
    · have := k v hv 1 0 (by norm_num); simp only; linarith
    · have := k v hv 0 (-1) (by norm_num); simp only; linarith
    · have := k v hv 0 1 (by norm_num); simp only; linarith

/-- C137 for the ogive nose, except for the length: the mesh reaches from the tip, at `√((r_o - r_n)² - (r_o - h)²) + r_n`, to `-L_o`; it lies within `h` of
the axis and, from some resolution on, it measures `2 h` across.  Missing: `L_o` is documented as the ogive length, see `C137_ogive_violated`. -/
theorem C137_ogive_partial (h r_n r_o L_o : ℝ) (h1 : 0 < r_n) (h2 : r_n < h) (h3 : h < r_o) (h4 : 0 < L_o) :
    ∃ N : ℕ, ∀ n : ℕ, 1 ≤ n → ∀ name : Option String, ∃ c, Ogive.comp h r_n r_o L_o n name = .ok c ∧ ∀ (H : Heap) (id : ℕ), H id = c →
      ∃ H' M c', generatePatches H id = (.ok (), H') ∧ (H' id).mesh = (.ok M, c') ∧
        Spans (·.x) (-L_o) (Real.sqrt ((r_o - r_n) ^ 2 - (r_o - h) ^ 2) + r_n) M.tris ∧ (∀ v, IsVertex v M.tris → axisDist v ≤ h) ∧
        (N ≤ n → Spans (·.y) (-h) h M.tris ∧ Spans (·.z) (-h) h M.tris) := by
  obtain ⟨q, κ, hq, hκ, hq2, hκ2, hsegs⟩ := Ogive.segments_eq h r_n r_o L_o h1 h2 h3
  have gB : GoodSeg (Line ⟨-L_o, h, 0⟩ ⟨-L_o, 0, 0⟩) := goodLine _ _ (by intro e; have := congrArg Vec.y e; simp at this; linarith)
  obtain ⟨line, Γ, -, -, -, -, hl, -⟩ := C93_profile h r_n r_o L_o h1 h2 h3 h4
  have hl' := hl
  unfold Ogive.line at hl'
  rw [hsegs, ok_bind] at hl'
  obtain ⟨p1, p2, p3, p4, a, b, a0, ab, b1, p5⟩ := nose_profile h r_n r_o L_o q κ h1 h2 h3 h4 hq hq2 hκ2 _ gB (-L_o) h le_rfl le_rfl (by
    intro t ht
    rw [fnOf_line]
    have := mul_nonneg (h1.trans h2).le ht.1
    have := mul_nonneg (h1.trans h2).le (sub_nonneg.2 ht.2)
    refine ⟨⟨?_, ?_⟩, ⟨?_, ?_⟩, ?_⟩ <;> simp only <;> linarith) line hl'
  obtain ⟨N, hN⟩ := grid_hits a b a0 ab b1
  have eq : Real.sqrt ((r_o - r_n) ^ 2 - (r_o - h) ^ 2) = q := by rw [← hq2, Real.sqrt_sq hq.le]
  refine ⟨N, fun n hn name => ⟨RevolvedComponent line n name, by unfold Ogive.comp; rw [hl]; rfl, fun H id hid => ?_⟩⟩
  obtain ⟨H', M, c', g1, g2, g3, g4, g5⟩ := revolved_extent line p1 (-L_o) (q + r_n) h p4 p2 (by rw [p3, fnOf_line_one]) n hn name H id hid
  refine ⟨H', M, c', g1, g2, by rw [eq]; exact g3, g4, fun hNn => ?_⟩
  obtain ⟨i, hi, i1, i2⟩ := hN n hNn
  exact g5 i hi (p5 _ i1 i2)

/-- The extent of a mesh is unique. -/
theorem spans_unique {f : V → ℝ} {a b c d : ℝ} {m : TriMesh ℝ} (h : Spans f a b m) (k : Spans f c d m) : a = c ∧ b = d := by
  obtain ⟨h1, ⟨u, hu, eu⟩, ⟨v, hv, ev⟩⟩ := h
  obtain ⟨k1, ⟨w, hw, ew⟩, ⟨x, hx, ex⟩⟩ := k
  have := (h1 w hw).1
  have := (k1 u hu).1
  have := (h1 x hx).2
  have := (k1 v hv).2
  constructor <;> linarith

/-- C137 fails for the ogive nose: `L_o`, "the ogive length", is neither the length of the component, which is longer for all dimensions and
resolutions, nor has it to do with the length of the ogive in front of `x = 0`, which is the same whatever `L_o`; it is the length of the cylinder behind. -/
theorem C137_ogive_violated (h r_n r_o L_o : ℝ) (h1 : 0 < r_n) (h2 : r_n < h) (h3 : h < r_o) (h4 : 0 < L_o) (n : ℕ) (hn : 1 ≤ n)
    (name : Option String) : ∃ c, Ogive.comp h r_n r_o L_o n name = .ok c ∧ ∀ (H : Heap) (id : ℕ), H id = c →
      ∃ H' M c', generatePatches H id = (.ok (), H') ∧ (H' id).mesh = (.ok M, c') ∧
        ∀ lo hi, Spans (·.x) lo hi M.tris → L_o + r_n < hi - lo ∧ hi = Real.sqrt ((r_o - r_n) ^ 2 - (r_o - h) ^ 2) + r_n := by
  obtain ⟨N, hh⟩ := C137_ogive_partial h r_n r_o L_o h1 h2 h3 h4
  obtain ⟨c, e, k⟩ := hh n hn name
  refine ⟨c, e, fun H id hid => ?_⟩
  obtain ⟨H', M, c', g1, g2, g3, -⟩ := k H id hid
  refine ⟨H', M, c', g1, g2, fun lo hi hs => ?_⟩
  obtain ⟨rfl, rfl⟩ := spans_unique g3 hs
  have : 0 < Real.sqrt ((r_o - r_n) ^ 2 - (r_o - h) ^ 2) := Real.sqrt_pos.2 (by nlinarith)
  exact ⟨by linarith, rfl⟩

theorem fairing_segments (D h r_n r_o f_L : ℝ) (h1 : 0 < r_n) (h2 : r_n < h) (h3 : h < r_o) :
    ∃ q κ, 0 < q ∧ q ^ 2 = (r_o - r_n) ^ 2 - (r_o - h) ^ 2 ∧ κ * (r_o - r_n) = r_n ∧
      Falcon9.fairingLine D h r_n r_o f_L = (Polyline [Line ⟨-f_L, h, 0⟩ ⟨-f_L - 0.1 * f_L, D / 2, 0⟩,
        Line ⟨-f_L - 0.1 * f_L, D / 2, 0⟩ ⟨-f_L - 0.3 * f_L, 0, 0⟩]).bind fun B =>
        Polyline [Arc ⟨q + r_n, 0, 0⟩ ⟨q + κ * q, κ * (r_o - h), 0⟩ ⟨q, 0, 0⟩,
          Arc ⟨q + κ * q, κ * (r_o - h), 0⟩ ⟨0, h, 0⟩ ⟨0, h - r_o, 0⟩, Line ⟨0, h, 0⟩ ⟨-f_L, h, 0⟩, B] := by
  have hD : 0 < (r_o - r_n) ^ 2 - (r_o - h) ^ 2 := by nlinarith
  have hrr : 0 < r_o - r_n := by linarith
  set q := Real.sqrt ((r_o - r_n) ^ 2 - (r_o - h) ^ 2) with hq
  have hqp : 0 < q := Real.sqrt_pos.2 hD
  have hq2 : q ^ 2 = (r_o - r_n) ^ 2 - (r_o - h) ^ 2 := Real.sq_sqrt hD.le
  have hκ : 0 < r_n / (r_o - r_n) := by positivity
  refine ⟨q, r_n / (r_o - r_n), hqp, hq2, by field_simp, ?_⟩
  have e1 : r_n * (r_o - h) / (r_o - r_n) = r_n / (r_o - r_n) * (r_o - h) := by ring
  have e2 : r_n ^ 2 - (r_n / (r_o - r_n) * (r_o - h)) ^ 2 = (r_n / (r_o - r_n) * q) ^ 2 := by
    rw [mul_pow, mul_pow, hq2]; field_simp
  have e3 : ¬ (r_n / (r_o - r_n) * q) ^ 2 < 0 := not_lt.2 (by positivity)
  have e4 : (⟨0, h, 0⟩ : V) - ⟨f_L, 0, 0⟩ = ⟨-f_L, h, 0⟩ := by ext <;> simp
  unfold Falcon9.fairingLine
  simp only [Falcon9.npSqrt, pdiv, if_neg (not_lt.2 hD.le), hrr.ne', if_false, bind, Except.bind, ← hq, e1, e2, if_neg e3,
    Real.sqrt_sq (mul_pos hκ hqp).le, e4]
  rw [show -(-q - r_n) = q + r_n by ring, show -(-q - r_n / (r_o - r_n) * q) = q + r_n / (r_o - r_n) * q by ring, neg_neg,
    show -r_o + h = h - r_o by ring]

/-- C137 for the Falcon 9.  The body reaches from `-f_L` back by `L_b` and lies within its cylinder of diameter `D`; if the resolution is even or not
too coarse for the shape, it measures `D` across.  The fairing reaches from its tip, at `√((r_o - r_n)² - (r_o - h)²) + r_n`, to `-1.3 f_L`; if it is
not narrower than the body, it lies within `h` of the axis, and from some resolution on it measures `2 h` across. -/
theorem C137_falcon9 (hp : Heap) (id1 id2 : ℕ) (hid : id1 ≠ id2) (kwargs : Dict String ℝ) (D L_b h r_n r_o f_L : ℝ)
    (ha : FalconArgs kwargs D L_b h r_n r_o f_L) (hd : FalconDims D L_b h r_n r_o f_L) :
    ∃ st N, Falcon9.instanceOf hp id1 id2 kwargs = .ok st ∧ ∀ n1 n2 : ℕ, 1 ≤ n1 → 1 ≤ n2 → ∀ (lib : Lib) (depth : ℕ), ∃ st' M1 M2 c1 c2,
      generate lib depth (withResolution (withResolution st id1 n1) id2 n2) = (.ok (), st') ∧
      (st'.heap id1).mesh = (.ok M1, c1) ∧ (st'.heap id2).mesh = (.ok M2, c2) ∧
      Spans (·.x) (-1.3 * f_L) (Real.sqrt ((r_o - r_n) ^ 2 - (r_o - h) ^ 2) + r_n) M1.tris ∧
      (D ≤ 2 * h → (∀ v, IsVertex v M1.tris → axisDist v ≤ h) ∧ (N ≤ n1 → Spans (·.y) (-h) h M1.tris ∧ Spans (·.z) (-h) h M1.tris)) ∧
      Spans (·.x) (-f_L - L_b) (-f_L) M2.tris ∧ (∀ v, IsVertex v M2.tris → axisDist v ≤ D / 2) ∧
      (Even n2 ∨ D ≤ (n2 - 1) * L_b → Spans (·.y) (-(D / 2)) (D / 2) M2.tris ∧ Spans (·.z) (-(D / 2)) (D / 2) M2.tris) := by
  obtain ⟨P, hP, bP⟩ := fairing_backLine D L_b h r_n r_o f_L hd
  obtain ⟨Q, hQ, bQ, fQ⟩ := body_backLine D L_b h f_L hd.body.1 hd.body.2
  obtain ⟨st, b1, b2, b3, b4⟩ := falcon_instance hp id1 id2 hid kwargs ha.keys D L_b h r_n r_o f_L ha.D ha.L_b ha.h' ha.nose ha.ogive
    ha.fairing P Q hP hQ
  obtain ⟨⟨hD, hL⟩, hf, ⟨hn, hnh⟩, hho⟩ := hd
  have hh : 0 < h := hn.trans hnh
  obtain ⟨q, κ, hq, hq2, hκ2, hseg⟩ := fairing_segments D h r_n r_o f_L hn hnh hho
  have eq : Real.sqrt ((r_o - r_n) ^ 2 - (r_o - h) ^ 2) = q := by rw [← hq2, Real.sqrt_sq hq.le]
  have g4 : GoodSeg (Line ⟨-f_L, h, 0⟩ ⟨-f_L - 0.1 * f_L, D / 2, 0⟩) := goodLine _ _ (by intro e; have := congrArg Vec.x e; simp at this; linarith)
  have g5 : GoodSeg (Line ⟨-f_L - 0.1 * f_L, D / 2, 0⟩ ⟨-f_L - 0.3 * f_L, 0, 0⟩) := goodLine _ _ (by intro e; have := congrArg Vec.y e; simp at this; linarith)
  have hgood5 : ∀ s ∈ [Line ⟨-f_L, h, 0⟩ ⟨-f_L - 0.1 * f_L, D / 2, 0⟩, Line ⟨-f_L - 0.1 * f_L, D / 2, 0⟩ ⟨-f_L - 0.3 * f_L, 0, 0⟩], GoodSeg s := by
    intro s hs
    simp only [List.mem_cons, List.not_mem_nil, or_false] at hs
    rcases hs with rfl | rfl <;> assumption
  obtain ⟨B, hB, gB, -, B1, aB⟩ := goodPolyline _ (by simp) hgood5
  have hP' := hP
  rw [hseg, hB] at hP'
  change Polyline _ = _ at hP'
  have inB : ∀ t ∈ Set.Icc (0 : ℝ) 1, (-1.3 * f_L ≤ (fnOf B t).x ∧ (fnOf B t).x ≤ 0) ∧ (0 ≤ (fnOf B t).y ∧ (fnOf B t).y ≤ max h (D / 2)) ∧
      (fnOf B t).z = 0 := by
    intro t ht
    obtain ⟨i, hi, u, ⟨hu0, hu1⟩, -, -, -, e⟩ := aB t ht
    rw [e]
    have m1 := le_max_left h (D / 2)
    have m2 := le_max_right h (D / 2)
    have k1 := mul_nonneg hf.le hu0
    have k2 := mul_nonneg hf.le (sub_nonneg.2 hu1)
    have k3 := mul_nonneg hD.le hu0
    have k4 := mul_nonneg hD.le (sub_nonneg.2 hu1)
    have k5 := mul_nonneg hh.le hu0
    have k6 := mul_nonneg hh.le (sub_nonneg.2 hu1)
    have k7 := mul_le_mul_of_nonneg_right m1 (sub_nonneg.2 hu1)
    have k8 := mul_le_mul_of_nonneg_right m2 hu0
    have k9 := mul_nonneg (hh.le.trans m1) hu0
    have k10 := mul_le_mul_of_nonneg_right m2 (sub_nonneg.2 hu1)
    have hi' : i < 2 := hi
    interval_cases i
    · simp only [List.getElem_cons_zero, fnOf_line]
      refine ⟨⟨?_, ?_⟩, ⟨?_, ?_⟩, ?_⟩ <;> linarith
    · simp only [List.getElem_cons_succ, List.getElem_cons_zero, fnOf_line]
      refine ⟨⟨?_, ?_⟩, ⟨?_, ?_⟩, ?_⟩ <;> linarith
  obtain ⟨p1, p2, p3, p4, a, b, a0, ab, ab1, p5⟩ := nose_profile h r_n r_o f_L q κ hn hnh hho hf hq hq2 hκ2 B gB (-1.3 * f_L) (max h (D / 2))
    (le_max_left _ _) (by linarith) inB P hP'
  obtain ⟨N, hN⟩ := grid_hits a b a0 ab ab1
  refine ⟨st, N, b1, fun n1 n2 hn1 hn2 lib depth => ?_⟩
  obtain ⟨st', M1, M2, c1, c2, s1, s2, s3, -⟩ := falcon_generate st id1 id2 hid b2 P Q 100 50 b3 b4 _ _ _ _ bP bQ n1 n2 hn1 hn2 lib depth
  refine ⟨st', M1, M2, c1, c2, s1, s2, s3, ?_⟩
  set w := withResolution (withResolution st id1 n1) id2 n2 with hw
  have w1 : w.heap id1 = RevolvedComponent P n1 := by
    show ((st.heap.upd id1 _).upd id2 _) id1 = _
    rw [upd_ne _ _ _ _ hid, upd_self, b3]; rfl
  have w2 : w.heap id2 = RevolvedComponent Q n2 := by
    show ((st.heap.upd id1 _).upd id2 { (st.heap.upd id1 _) id2 with stl_resolution := .int n2 }) id2 = _
    rw [upd_self, upd_ne _ _ _ _ hid.symm, b4]; rfl
  have wv : w.veh = falconVeh id1 id2 := b2
  have hcs : w.veh.components = [id1, id2] := by rw [wv]; rfl
  have plain : ∀ (k : ℕ) (L : PathObj) (m : ℕ), k ∈ w.veh.components → w.heap k = RevolvedComponent L m →
      ∃ g, generatePatches w.heap k = (.ok (), g) ∧ st'.heap k = g k := by
    intro k L m hk hL
    obtain ⟨g, q1, q2⟩ := generate_plain_component lib depth w st' (by rw [wv]; rfl) (by rw [wv]; rfl) (by rw [wv]; rfl)
      (by
        rw [hcs]
        refine unshared_leaves _ _ (by simp [hid]) ?_
        intro k hk
        simp only [List.mem_cons, List.not_mem_nil, or_false] at hk
        rcases hk with rfl | rfl
        · unfold Comp.children; rw [w1]; rfl
        · unfold Comp.children; rw [w2]; rfl) s1 k hk
    refine ⟨g, q1, ?_⟩
    obtain ⟨A, B, C, e⟩ := generatePatches_opts w.heap k (by unfold Comp.children; rw [hL]; simp [RevolvedComponent])
    rw [q1] at e
    change g k = _ at e
    rw [pipeline_plain (g k) (by rw [e, hL]; rfl) (by rw [e, hL]; rfl) (by rw [e, hL]; rfl) (by rw [e, hL]; rfl)] at q2
    exact (Prod.mk.inj q2).2.symm
  obtain ⟨g1, t1, t2⟩ := plain id1 P n1 (by rw [hcs]; simp) w1
  obtain ⟨g2, t3, t4⟩ := plain id2 Q n2 (by rw [hcs]; simp) w2
  obtain ⟨x1, X1, y1, i1, i2, i3, i4, i5⟩ := revolved_extent P p1 (-1.3 * f_L) (q + r_n) (max h (D / 2)) p4 p2 (by
    rw [p3, B1]
    show fnOf (Line ⟨-f_L - 0.1 * f_L, D / 2, 0⟩ ⟨-f_L - 0.3 * f_L, 0, 0⟩) 1 = _
    rw [fnOf_line_one]
    ext <;> simp
    ring) n1 hn1 none w.heap id1 w1
  rw [t1] at i1
  obtain rfl := (Prod.mk.inj i1).2
  rw [← t2, s2] at i2
  obtain rfl := Except.ok.inj (Prod.mk.inj i2).1
  obtain ⟨x2, X2, y2, j1, j2, j3, j4, j5⟩ := revolved_extent Q bQ.good (-f_L - L_b) (-f_L) (D / 2) (by
    intro t ht
    obtain ⟨e1, e2, e3⟩ := fQ t ht
    have m0 : 0 ≤ max 0 (min 1 ((t * (D + L_b) - D / 2) / L_b)) := le_max_left _ _
    have m1 : max 0 (min 1 ((t * (D + L_b) - D / 2) / L_b)) ≤ 1 := max_le (by norm_num) (min_le_left _ _)
    have k1 := mul_nonneg hL.le m0
    have k2 := mul_le_mul_of_nonneg_left m1 hL.le
    refine ⟨⟨by rw [e1]; linarith, by rw [e1]; linarith⟩, ⟨?_, by rw [e2]; exact min_le_left _ _⟩, e3⟩
    rw [e2]
    refine le_min (by linarith) (le_min (mul_nonneg ht.1 (by linarith)) (mul_nonneg (sub_nonneg.2 ht.2) (by linarith)))) bQ.first bQ.last n2 hn2 none
    w.heap id2 w2
  rw [t3] at j1
  obtain rfl := (Prod.mk.inj j1).2
  rw [← t4, s3] at j2
  obtain rfl := Except.ok.inj (Prod.mk.inj j2).1
  refine ⟨by rw [eq]; exact i3, fun hDh => ?_, j3, j4, fun hev => ?_⟩
  · have em : max h (D / 2) = h := max_eq_left (by linarith)
    rw [em] at i4 i5
    refine ⟨i4, fun hNn => ?_⟩
    obtain ⟨i, hi, k1, k2⟩ := hN n1 hNn
    exact i5 i hi (p5 _ k1 k2)
  · have hn2p : (0 : ℝ) < n2 := by exact_mod_cast hn2
    have : ∃ i ≤ n2, D / 2 ≤ (i : ℝ) / n2 * (D + L_b) ∧ D / 2 ≤ (1 - (i : ℝ) / n2) * (D + L_b) := by
      rcases Nat.even_or_odd n2 with ⟨m, hm⟩ | ⟨m, hm⟩
      · refine ⟨m, by omega, ?_⟩
        have : (m : ℝ) / n2 = 1 / 2 := by
          rw [div_eq_div_iff hn2p.ne' (by norm_num), hm]; push_cast; ring
        rw [this]
        constructor <;> linarith
      · have hle : D ≤ (n2 - 1) * L_b := by
          rcases hev with ⟨k, hk⟩ | h
          · omega
          · exact h
        have hc : (n2 : ℝ) = 2 * m + 1 := by rw [hm]; push_cast; ring
        refine ⟨m, by omega, ?_, ?_⟩
        · rw [div_mul_eq_mul_div, le_div_iff₀ hn2p, hc]
          rw [hc] at hle
          nlinarith
        · rw [one_sub_div hn2p.ne', div_mul_eq_mul_div, le_div_iff₀ hn2p, hc]
          rw [hc] at hle
          nlinarith
    obtain ⟨i, hi, k1, k2⟩ := this
    refine j5 i hi ?_
    obtain ⟨u0, u1⟩ := unit_div n2 i hn2 hi
    rw [(fQ _ ⟨u0, u1⟩).2.1]
    exact min_eq_left (le_min k1 k2)

/-- The default dimensions of the Falcon 9, and of the nose of the ReFEX, meet the hypotheses; the default resolution of the body is even. -/
example : FalconArgs [] 3.75 60 (5 / 2) 0.75 7 6 ∧ FalconDims 3.75 60 (5 / 2) 0.75 7 6 ∧ (3.75 : ℝ) ≤ 2 * (5 / 2) ∧ Even 50 ∧
    (0 : ℝ) < 0.075 ∧ (0.075 : ℝ) < 0.225 ∧ (0.225 : ℝ) < 1.5 ∧ (0 : ℝ) < 0.05 := by
  refine ⟨⟨by simp [Dict.keys], ?_, ?_, ?_, ?_, ?_, ?_⟩, ⟨by norm_num, by norm_num, by norm_num, by norm_num⟩, by norm_num, by decide, by norm_num,
    by norm_num, by norm_num, by norm_num⟩ <;> exact .inr ⟨by simp, rfl⟩

end HV
