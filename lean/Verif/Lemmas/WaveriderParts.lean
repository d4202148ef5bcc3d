import Verif.Lemmas.WaveriderBody
import Verif.Lemmas.Moved
import Verif.Props.Roberts

/-!
# The parts of the waverider
-/

namespace HV
open Spec Veh

theorem Cubic.bez_abs {a b c d M t : ℝ} (ha : |a| ≤ M) (hb : |b| ≤ M) (hc : |c| ≤ M) (hd : |d| ≤ M) (ht : t ∈ Set.Icc (0 : ℝ) 1) :
    |Cubic.bez a b c d t| ≤ M := by
  obtain ⟨t0, t1⟩ := ht
  have s0 := sub_nonneg.2 t1
  rw [abs_le] at *
  have w0 : 0 ≤ (1 - t) ^ 3 := by positivity
  have w1 : 0 ≤ 3 * t * (1 - t) ^ 2 := by positivity
  have w2 : 0 ≤ 3 * t ^ 2 * (1 - t) := by positivity
  have w3 : 0 ≤ t ^ 3 := by positivity
  have e : (1 - t) ^ 3 + 3 * t * (1 - t) ^ 2 + 3 * t ^ 2 * (1 - t) + t ^ 3 = 1 := by ring
  have hM : M = M * ((1 - t) ^ 3 + 3 * t * (1 - t) ^ 2 + 3 * t ^ 2 * (1 - t) + t ^ 3) := by rw [e, mul_one]
  unfold Cubic.bez
  constructor
  · nlinarith [mul_le_mul_of_nonneg_right ha.1 w0, mul_le_mul_of_nonneg_right hb.1 w1, mul_le_mul_of_nonneg_right hc.1 w2, mul_le_mul_of_nonneg_right hd.1 w3]
  · nlinarith [mul_le_mul_of_nonneg_right ha.2 w0, mul_le_mul_of_nonneg_right hb.2 w1, mul_le_mul_of_nonneg_right hc.2 w2, mul_le_mul_of_nonneg_right hd.2 w3]

theorem roberts_clusters {β : ℝ} (h : 1 < β) (e1 e2 : Bool) : Clusters (RobertsFunction.call e1 e2 β) := by
  obtain ⟨g, h1, h2, h3, -, h4⟩ := C18_roberts β h e1 e2
  exact ⟨fun t t0 t1 => ⟨g t, h1 t, (h4.mapsTo ⟨t0, t1⟩).1, (h4.mapsTo ⟨t0, t1⟩).2⟩, by have := h1 0; rwa [h2] at this, by have := h1 1; rwa [h3] at this⟩

namespace Waverider
variable {p : Params}

/-- The curvatures of the waverider over a box that holds all its parts. -/
theorem curvatures_bend (hp : WaveriderOk p) : Bends (curvatures p) (waveriderX p) (waveriderY p) (waveriderZ p) (waveriderFactor p) := by
  have h1 := hp.length
  have h2 := hp.width
  have h3 := hp.edge
  have h4 := hp.thick.1
  have a1 := abs_nonneg p.w1x
  have a2 := abs_nonneg p.w2x
  have a3 := abs_nonneg p.flap_height
  have a4 := abs_nonneg (p.w1y - p.zero_offset)
  have a5 := abs_nonneg (p.w2y - p.zero_offset)
  exact .cons _ _ _ _ _ _ _ _ _
    (gentle_parabola "x" (.inl rfl) _ _ (bendX p) _ _ (by unfold waveriderX; linarith) (by unfold waveriderY; linarith)
      (by intro x y; simp [curvX, bendX]) (by intro x y; rw [if_pos rfl]; simp only [curvXd, bendX]; congr 1; ring))
    (.cons _ _ _ _ _ _ _ _ _
      (gentle_parabola "y" (.inr rfl) _ _ (bendY p) _ _ (by unfold waveriderX waveriderZ; linarith) (by unfold waveriderY waveriderZ; linarith)
        (by intro x y; simp [curvY, bendY]) (by intro x y; rw [if_neg (by decide)]; simp only [curvYd, bendY]; congr 1; ring))
      (.nil _ _ _))

theorem curvatures_level : LevelAtPlane (curvatures p) := by
  intro k hk hd x
  simp only [curvatures, List.mem_cons, List.not_mem_nil, or_false] at hk
  rcases hk with rfl | rfl
  · simp at hd
  · simp [curvYd]

/-- The points of the leading edge. -/
noncomputable def leadPt (p : Params) (y2 y3 t : ℝ) : V := ⟨leadX p t, leadY p y2 y3 t, 0⟩

theorem leadX_mem (hp : WaveriderOk p) {t : ℝ} (ht : t ∈ Set.Icc (0 : ℝ) 1) : 0 ≤ leadX p t ∧ leadX p t ≤ p.length := by
  have z0 : (0 : ℝ) ∈ Set.Icc (0 : ℝ) 1 := by simp
  have z1 : (1 : ℝ) ∈ Set.Icc (0 : ℝ) 1 := by simp
  have x0 := (Cubic.bez_incr hp.px.1.le hp.px.2.1 hp.px.2.2 z0 ht ht.1).1
  have x1 := (Cubic.bez_incr hp.px.1.le hp.px.2.1 hp.px.2.2 ht z1 ht.2).1
  rw [Cubic.bez_zero] at x0
  rw [Cubic.bez_one] at x1
  unfold leadX
  constructor <;> linarith

section
variable {y2 y3 : ℝ} (hp : WaveriderOk p) (h3 : p.width / 20 ≤ y3) (h32 : y3 ≤ y2) (h2 : y2 ≤ p.width / 2)
include hp h3 h32 h2

theorem leadY_mem {t : ℝ} (ht : t ∈ Set.Icc (0 : ℝ) 1) : 0 ≤ leadY p y2 y3 t ∧ leadY p y2 y3 t ≤ p.width / 2 := by
  have z0 : (0 : ℝ) ∈ Set.Icc (0 : ℝ) 1 := by simp
  have z1 : (1 : ℝ) ∈ Set.Icc (0 : ℝ) 1 := by simp
  have x0 := (lead_decr hp h3 h32 h2 z0 ht ht.1).1
  have x1 := (lead_decr hp h3 h32 h2 ht z1 ht.2).1
  unfold leadY at *
  rw [Cubic.bez_zero] at x0
  rw [Cubic.bez_one] at x1
  constructor <;> linarith

theorem lead_mono : MonoEdge (leadPt p y2 y3) where
  fwd t ht u hu h := by
    have := (Cubic.bez_incr hp.px.1.le hp.px.2.1 hp.px.2.2 ht hu h).1
    simp only [leadPt, leadX]
    linarith
  inw t ht u hu h := by
    have := (lead_decr hp h3 h32 h2 ht hu h).1
    simp only [leadPt]
    linarith

theorem wing_smooth {ptan : ℝ → ℝ} (hT : FloatTan ptan) :
    SmoothWing ptan (fun x y => 0 ≤ x ∧ x ≤ p.length ∧ 0 ≤ y) (wingArgs bisect01 (lead p y2 y3) p) (leadPt p y2 y3) (topH (lead p y2 y3) p) (botH p)
      (fun _ => p.le_width) 1e-12 := by
  have hw := hp.width
  have hL := hp.length
  have hs := hp.small
  have ht1 := hp.thick.1
  have ht2 := hp.thick.2
  have he := hp.edge
  refine ⟨hT.like, lower_bezier, X43.up_custom, rfl, .inl rfl, lead_call p y2 y3, ?_, ?_, top_ok hp h3 h32 h2, bot_ok hp h3 h32 h2,
    liesOver_box (lead_mono hp h3 h32 h2) 0 p.length ?_ ?_ ?_ ?_ ?_ ?_ ?_, .inl rfl, fun _ _ => rfl, ?_, ?_, ?_, ?_⟩
  · simp only [leadPt, leadX, leadY, Cubic.bez_zero]; rfl
  · simp only [leadPt, leadX, leadY, Cubic.bez_one]; rfl
  · simp only [leadPt, leadX, Cubic.bez_zero]; exact le_rfl
  · simp only [leadPt, leadX, Cubic.bez_one]; exact le_rfl
  · exact ⟨le_rfl, hL.le⟩
  · simp only [wingArgs, A1]; constructor <;> linarith
  · exact le_rfl
  · exact le_rfl
  · simp only [leadPt, leadY, Cubic.bez_one]; exact le_rfl
  · intro t ht
    have := (rise_edge hp h3 h32 h2 t ht).2
    simp only [leadPt, topH, botH]
    linarith
  · intro t _; linarith
  · intro t ht
    obtain ⟨r1, r2⟩ := rise_edge hp h3 h32 h2 t ht
    rw [abs_le] at r1
    refine hT.fits _ _ ?_ he
    simp only [leadPt, topH, botH]
    rw [abs_le]
    constructor <;> linarith
  · intro t ht
    obtain ⟨r1, r2⟩ := rise_edge hp h3 h32 h2 t ht
    rw [abs_le] at r1
    refine hT.gap _ _ ?_ ?_ he <;> simp only [leadPt, topH, botH] <;> linarith

/-- The section parameter above a point that is within the planform up to a small error of the station. -/
theorem param_le (x y t : ℝ) (ht : t ∈ Set.Icc (0 : ℝ) 1) (h8 : 1 / 8 ≤ 1 - t) (h0 : 0 ≤ x) (h1 : x ≤ p.length) (hy : y ≤ leadY p y2 y3 t)
    (hr : ∀ r ∈ Set.Icc (0 : ℝ) 1, leadX p r = x → |r - t| ≤ 1e-6) : param (lead p y2 y3) x y ≤ 1.1 := by
  have hw := hp.width
  obtain ⟨s, hs, a, ⟨r, hr1, hrx, hsr⟩, -⟩ := lead_width x h0 h1
  have k := hr r hr1 hrx
  have hst : |s - t| ≤ 2e-6 := by
    rw [abs_le] at *
    constructor <;> linarith
  have hlow := lead_low hp h3 h32 h2 hs
  have hnear := lead_near hp h3 h32 h2 ht hs hst
  have h1s : 1 / 10 ≤ 1 - s := by rw [abs_le] at hst; linarith
  have hpos : p.width / 200 ≤ leadY p y2 y3 s := by nlinarith
  rw [show param (lead p y2 y3) x y = ratio (leadY p y2 y3 s) y by unfold param; rw [a]; rfl]
  unfold ratio
  split_ifs
  · norm_num
  · rw [div_le_iff₀ (by linarith)]
    linarith

omit h3 h32 h2 in
theorem leadX_inj {r t : ℝ} (hr : r ∈ Set.Icc (0 : ℝ) 1) (ht : t ∈ Set.Icc (0 : ℝ) 1) (h : leadX p r = leadX p t) : r = t := by
  rcases lt_trichotomy r t with h' | h' | h'
  · exact absurd h (Cubic.bez_strict hp.px.1 hp.px.2.1 hp.px.2.2 hr ht h').ne
  · exact h'
  · exact absurd h (Cubic.bez_strict hp.px.1 hp.px.2.1 hp.px.2.2 ht hr h').ne'

omit h3 h32 h2 in
theorem leadX_lt {r t : ℝ} (hr : r ∈ Set.Icc (0 : ℝ) 1) (ht : t ∈ Set.Icc (0 : ℝ) 1) (h : leadX p r ≤ leadX p t) : r ≤ t := by
  by_contra hc
  exact absurd (Cubic.bez_strict hp.px.1 hp.px.2.1 hp.px.2.2 ht hr (not_le.1 hc)) (not_lt.2 h)

theorem wing_box {t1 r : ℝ} (ht1 : t1 ∈ Set.Icc (0 : ℝ) 1) (hr : r ∈ Set.Icc (0 : ℝ) 1) (hrx : leadX p r = p.length / 2) (hd : |t1 - r| ≤ 6e-7) :
    WingBox (wingArgs bisect01 (lead p y2 y3) p) (leadPt p y2 y3) (topH (lead p y2 y3) p) (botH p) (fun _ => p.le_width) t1
      (waveriderX p) (waveriderY p) (waveriderZ p) := by
  have hw := hp.width
  have hL := hp.length
  have ht := hp.thick.1
  have he := hp.edge
  have z0 : (0 : ℝ) ∈ Set.Icc (0 : ℝ) 1 := by simp
  have z1 : (1 : ℝ) ∈ Set.Icc (0 : ℝ) 1 := by simp
  have a1 := abs_nonneg p.w1x
  have a2 := abs_nonneg p.w2x
  have a3 := abs_nonneg p.flap_height
  have a4 := abs_nonneg (p.w1y - p.zero_offset)
  have a5 := abs_nonneg (p.w2y - p.zero_offset)
  have lift : ∀ (h : ℝ → ℝ → ℝ) (v : V), (h = topH (lead p y2 y3) p ∨ h = botH p) → 0 ≤ v.x → v.x ≤ p.length → 0 ≤ v.y → v.y ≤ p.width / 2 → v.z = 0 →
      |rise (lead p y2 y3) p v.x v.y| ≤ p.width / 2 → Box (waveriderX p) (waveriderY p) (waveriderZ p) (liftBy h v) := by
    intro h v hh x0 x1 y0 y1 z hrise
    rw [abs_le] at hrise
    refine ⟨?_, ?_, ?_⟩
    · show |v.x| ≤ _
      rw [abs_of_nonneg x0]; unfold waveriderX; linarith
    · show |v.y| ≤ _
      rw [abs_of_nonneg y0]; unfold waveriderY; linarith
    · show |v.z + h v.x v.y| ≤ _
      rw [z, zero_add, abs_le]
      unfold waveriderZ
      rcases hh with rfl | rfl <;> simp only [topH, botH] <;> constructor <;> linarith
  have root : ∀ x, 0 ≤ x → x ≤ p.length → |rise (lead p y2 y3) p x 0| ≤ p.width / 2 := by
    intro x h0 h1
    refine rise_within hp h3 h32 h2 x 0 h0 h1 le_rfl ?_
    unfold param ratio
    split_ifs <;> norm_num
  have trail : ∀ y, 0 ≤ y → y ≤ p.width / 2 → |rise (lead p y2 y3) p 0 y| ≤ p.width / 2 := by
    intro y h0 h1
    refine rise_within hp h3 h32 h2 0 y le_rfl hL.le h0 (param_le hp h3 h32 h2 0 y 0 z0 (by norm_num) le_rfl hL.le ?_ ?_)
    · rw [leadY, Cubic.bez_zero]; exact h1
    · intro u hu hux
      have : u = 0 := leadX_inj hp hu z0 (by rw [hux, leadX, Cubic.bez_zero])
      rw [this]; norm_num
  obtain ⟨l1, l2⟩ := leadX_mem hp ht1
  obtain ⟨m1, m2⟩ := leadY_mem hp h3 h32 h2 ht1
  have h8 : 1 / 8 ≤ 1 - t1 := by
    have := (Cubic.bez_incr hp.px.1.le hp.px.2.1 hp.px.2.2 hr z1 hr.2).2
    have e : Cubic.bez 0 p.p2x p.p3x p.length r = p.length / 2 := hrx
    rw [Cubic.bez_one, e, sub_zero] at this
    have : 1 / 6 ≤ 1 - r := by nlinarith
    rw [abs_le] at hd
    linarith
  have chord : ∀ s ∈ Set.Icc (0 : ℝ) 1, |rise (lead p y2 y3) p (p.length / 2 * (1 - s) + leadX p t1 * s) (leadY p y2 y3 t1 * s)| ≤ p.width / 2 := by
    intro s hs
    have hs' := sub_nonneg.2 hs.2
    have x0 : 0 ≤ p.length / 2 * (1 - s) + leadX p t1 * s := add_nonneg (mul_nonneg (by linarith) hs') (mul_nonneg l1 hs.1)
    have x1 : p.length / 2 * (1 - s) + leadX p t1 * s ≤ p.length := by nlinarith [hs.1, mul_le_mul_of_nonneg_right l2 hs.1]
    refine rise_within hp h3 h32 h2 _ _ x0 x1 (mul_nonneg m1 hs.1) (param_le hp h3 h32 h2 _ _ t1 ht1 h8 x0 x1 ?_ ?_)
    · nlinarith [hs.1, hs.2]
    · intro u hu hux
      rw [abs_le] at hd ⊢
      rcases le_total r t1 with h | h
      · have hx : p.length / 2 ≤ leadX p t1 := by rw [← hrx]; exact (lead_mono hp h3 h32 h2).fwd _ hr _ ht1 h
        have b1 := leadX_lt hp hr hu (by rw [hux, hrx]; nlinarith [hs.1])
        have b2 := leadX_lt hp hu ht1 (by rw [hux]; nlinarith [hs.2])
        constructor <;> linarith
      · have hx : leadX p t1 ≤ p.length / 2 := by rw [← hrx]; exact (lead_mono hp h3 h32 h2).fwd _ ht1 _ hr h
        have b1 := leadX_lt hp hu hr (by rw [hux, hrx]; nlinarith [hs.1])
        have b2 := leadX_lt hp ht1 hu (by rw [hux]; nlinarith [hs.2])
        constructor <;> linarith
  refine ⟨?_, ?_, ?_, ?_, ?_, ?_, ?_⟩
  · intro h hh t ht
    have e : lineAt (wingArgs bisect01 (lead p y2 y3) p).A0 (wingArgs bisect01 (lead p y2 y3) p).A1 t = ⟨0.5 * p.length * t, 0, 0⟩ := by
      simp [lineAt, wingArgs, A1]; ext <;> simp
    rw [e]
    have k0 : 0 ≤ 0.5 * p.length * t := by have := ht.1; positivity
    have k1 : 0.5 * p.length * t ≤ p.length := by nlinarith [ht.2]
    exact lift h _ hh k0 k1 le_rfl (by simp only; linarith) rfl (root _ k0 k1)
  · intro h hh t ht
    have e : lineAt (wingArgs bisect01 (lead p y2 y3) p).A1 (wingArgs bisect01 (lead p y2 y3) p).TT t = ⟨0.5 * p.length * (1 - t) + p.length * t, 0, 0⟩ := by
      simp [lineAt, wingArgs, A1, TT]; ext <;> simp
    rw [e]
    have k0 : 0 ≤ 0.5 * p.length * (1 - t) + p.length * t := by nlinarith [ht.1, ht.2]
    have k1 : 0.5 * p.length * (1 - t) + p.length * t ≤ p.length := by nlinarith [ht.2]
    exact lift h _ hh k0 k1 le_rfl (by simp only; linarith) rfl (root _ k0 k1)
  · intro h hh t ht
    have e : lineAt (wingArgs bisect01 (lead p y2 y3) p).A1 (leadPt p y2 y3 t1) t =
        ⟨p.length / 2 * (1 - t) + leadX p t1 * t, leadY p y2 y3 t1 * t, 0⟩ := by
      ext
      · simp only [lineAt, wingArgs, A1, leadPt, Vec.add_x, Vec.mul_x]; ring
      · simp [lineAt, wingArgs, A1, leadPt]
      · simp [lineAt, wingArgs, A1, leadPt]
    rw [e]
    have ht' := sub_nonneg.2 ht.2
    refine lift h _ hh (add_nonneg (mul_nonneg (by linarith) ht') (mul_nonneg l1 ht.1)) ?_ (mul_nonneg m1 ht.1) ?_ rfl (chord t ht)
    · simp only; nlinarith [ht.1, mul_le_mul_of_nonneg_right l2 ht.1]
    · simp only; nlinarith [ht.1, ht.2]
  · intro h hh t ht
    have e : lineAt (wingArgs bisect01 (lead p y2 y3) p).A0 (wingArgs bisect01 (lead p y2 y3) p).B0 t = ⟨0, p.width / 2 * t, 0⟩ := by
      simp [lineAt, wingArgs, B0]; ext <;> simp
    rw [e]
    have k0 : 0 ≤ p.width / 2 * t := by have := ht.1; positivity
    have k1 : p.width / 2 * t ≤ p.width / 2 := by nlinarith [ht.2]
    exact lift h _ hh le_rfl hL.le k0 k1 rfl (trail _ k0 k1)
  · intro h hh t ht
    obtain ⟨q1, q2⟩ := leadX_mem hp ht
    obtain ⟨q3, q4⟩ := leadY_mem hp h3 h32 h2 ht
    exact lift h _ hh q1 q2 q3 q4 rfl (rise_edge hp h3 h32 h2 t ht).1
  · intro t ht
    obtain ⟨q1, q2⟩ := leadX_mem hp ht
    obtain ⟨q3, q4⟩ := leadY_mem hp h3 h32 h2 ht
    simp only [leadPt]
    rw [abs_of_nonneg q1, abs_of_nonneg q3]
    unfold waveriderX waveriderY
    constructor <;> linarith
  · have fl : (wingArgs bisect01 (lead p y2 y3) p).flap_length = 0 := rfl
    have k0 := root 0 le_rfl hL.le
    have k1 := trail (p.width / 2) (by linarith) le_rfl
    rw [fl, abs_zero]
    rw [abs_le] at k0 k1
    rintro q (rfl | rfl)
    · simp only [wingArgs, topH, botH, abs_zero]
      unfold waveriderX waveriderZ
      refine ⟨by linarith, ?_⟩
      have : |0 + (-rise (lead p y2 y3) p 0 0 - p.LE_thickness / 2 + p.LE_thickness / 2) / 2| ≤ p.width / 2 := by
        rw [abs_le]; constructor <;> linarith
      linarith
    · simp only [wingArgs, B0, topH, botH, abs_zero]
      unfold waveriderX waveriderZ
      refine ⟨by linarith, ?_⟩
      have : |0 + (-rise (lead p y2 y3) p 0 (p.width / 2) - p.LE_thickness / 2 + p.LE_thickness / 2) / 2| ≤ p.width / 2 := by
        rw [abs_le]; constructor <;> linarith
      linarith

/-- The mesh of the wings. -/
theorem wings_mesh {ptan : ℝ → ℝ} (hT : FloatTan ptan) : ∃ w, Wing.init (rounded bisect01) (wingArgs bisect01 (lead p y2 y3) p) = .ok w ∧
    ∀ (n : ℕ) (_ : 1 ≤ n) (name : Option String) (H : Heap) (id : ℕ) (_ : H id = bentWing ptan w n name (some "y") true (curvatures p)),
      ∃ g c, generatePatches H id = (.ok (), g) ∧ pipeline 0 (g id) = (.ok (), c) ∧ ∃ M c', c.mesh = (.ok M, c') ∧
        GapFree (waveriderFactor p * 1e-12) M.tris := by
  have hs := wing_smooth hp h3 h32 h2 hT
  have hL := hp.length
  obtain ⟨w, i1, m1, r, hr, hrx, hd⟩ := wing_break_near (wingArgs bisect01 (lead p y2 y3) p) rfl (leadPt p y2 y3) hs.line
    (by simp only [leadPt, leadX]; exact Cubic.bez_continuous _ _ _ _)
    (by simp only [leadPt, leadX, Cubic.bez_zero, wingArgs, A1]; positivity)
    (by simp only [leadPt, leadX, Cubic.bez_one, wingArgs, A1]; linarith)
  refine ⟨w, i1, fun n hn name H id hid => ?_⟩
  have hx : leadX p r = p.length / 2 := by
    have : leadX p r = 0.5 * p.length := hrx
    rw [this]; ring
  have hb := hp.bend
  exact C114_open_wing (rounded bisect01) ptan _ _ w _ _ _ _ _ _ _ _ _ (curvatures p) i1 hs m1 rfl rfl rfl rfl (wing_box hp h3 h32 h2 m1 hr hx hd)
    (curvatures_bend hp) curvatures_level (by linarith) n hn name H id hid

omit hp h3 h32 h2 in
/-- The meshes of a closed wing that is added as is and of one that is replaced by its reflection. -/
theorem closed_pair (find : (ℝ → Res ℝ) → Res ℝ) (ptan : ℝ → ℝ) (D : ℝ → ℝ → Prop) (a : Wing.Args) (w : Wing.State) (L : ℝ → V)
    (ht hb : ℝ → ℝ → ℝ) (wd : ℝ → ℝ) (ε δ X Y Z κ : ℝ) (l : List Curvature) (hw : Wing.init find a = .ok w) (hs : SmoothWing ptan D a L ht hb wd ε)
    (h1 : w.t_B1 ∈ Set.Icc (0 : ℝ) 1) (hc : a.close_wing = true) (t01 : BendsBy δ ht a.A0 a.A1) (t1T : BendsBy δ ht a.A1 a.TT)
    (b01 : BendsBy δ hb a.A0 a.A1) (b1T : BendsBy δ hb a.A1 a.TT) (hX : WingBox a L ht hb wd w.t_B1 X Y Z) (hl : Bends l X Y Z κ)
    (hε : κ * (ε + δ) ≤ 1) (n : ℕ) (hn : 1 ≤ n) : ∃ m, ClosedUpTo (κ * (ε + δ)) m ∧ ∀ (name : Option String) (H : Heap) (id : ℕ),
    (H id = bentWing ptan w n name none true l →
      ∃ g c, generatePatches H id = (.ok (), g) ∧ pipeline 0 (g id) = (.ok (), c) ∧ ∃ M c', c.mesh = (.ok M, c') ∧ M.tris = m) ∧
    (H id = bentWing ptan w n name (some "y") false l →
      ∃ g c, generatePatches H id = (.ok (), g) ∧ pipeline 0 (g id) = (.ok (), c) ∧ ∃ M c', c.mesh = (.ok M, c') ∧
        M.tris = mapVerts (mirrorV 1) m) := by
  obtain ⟨ha, t2, hok⟩ := smoothWing_ok hw hs h1
  subst ha
  obtain ⟨ls, Gs, hst, hG, glue⟩ := wing_glued_closed hok n hn (wingBox_in hok hX) hc δ (fun t ht => ⟨t01 t ht, t1T t ht⟩) (fun t ht => ⟨b01 t ht, b1T t ht⟩)
  have z0 : (0 : ℝ) ∈ Set.Icc (0 : ℝ) 1 := ⟨le_rfl, zero_le_one⟩
  have hZ : 0 ≤ Z := (abs_nonneg _).trans (hX.rear _ (.inl rfl) 0 z0).2.2
  have hge := bends_ge hl hZ
  have h0 := hok.shape.gap_nonneg
  have hδ : 0 ≤ δ := (vdist_nonneg _ _).trans (t01 0 z0)
  have glue' := glue.map (δ := κ * (ε + δ)) (B' := fun _ => True) (K' := fun _ => False) (curveAll l)
    (fun u v hv hd => bends_near hl u v (ε + δ) hv hd hε) (fun _ _ => trivial) (fun v hv => hv)
  refine ⟨_, glue'.closed (by positivity), fun name H id => ⟨fun hid => ?_, fun hid => ?_⟩⟩
  · obtain ⟨g, g1, g2, -⟩ := bent_wing hn hst hG (bends_total hl) H id hid
    obtain ⟨c, M, c'', k1, k2, k3⟩ := g2 rfl
    exact ⟨g, c, g1, k1, M, c'', k2, k3⟩
  · obtain ⟨g, g1, -, g2⟩ := bent_wing hn hst hG (bends_total hl) H id hid
    obtain ⟨c, M, c'', k1, k2, k3⟩ := g2 rfl
    refine ⟨g, c, g1, k1, M, c'', k2, ?_⟩
    rw [k3, if_neg (by simp), List.nil_append]

/-- The leading edge of the flaps. -/
noncomputable def flapPt (p : Params) (y2 y3 t : ℝ) : V :=
  ⟨Cubic.bez (leadX p p.a0_t) (leadX p p.a0_t + p.w1x) (leadX p p.tt_t - p.w2x) (leadX p p.tt_t) t,
   Cubic.bez (leadY p y2 y3 p.a0_t + p.flap_height) (leadY p y2 y3 p.a0_t + p.flap_height + (p.w1y - p.zero_offset))
    (leadY p y2 y3 p.tt_t - (p.w2y - p.zero_offset)) (leadY p y2 y3 p.tt_t) t, 0⟩

/-- The meshes of the flaps. -/
theorem flaps_mesh {ptan : ℝ → ℝ} (hT : FloatTan ptan) : ∃ a w, flapArgs (lead p y2 y3) p = .ok a ∧ Wing.init (rounded bisect01) a = .ok w ∧
    ∀ (n : ℕ) (_ : 1 ≤ n), ∃ m, ClosedUpTo (waveriderFactor p * 1e-12) m ∧ ∀ (name : Option String) (H : Heap) (id : ℕ),
    (H id = bentWing ptan w n name none true (curvatures p) →
      ∃ g c, generatePatches H id = (.ok (), g) ∧ pipeline 0 (g id) = (.ok (), c) ∧ ∃ M c', c.mesh = (.ok M, c') ∧ M.tris = m) ∧
    (H id = bentWing ptan w n name (some "y") false (curvatures p) →
      ∃ g c, generatePatches H id = (.ok (), g) ∧ pipeline 0 (g id) = (.ok (), c) ∧ ∃ M c', c.mesh = (.ok M, c') ∧
        M.tris = mapVerts (mirrorV 1) m) := by
  have hw := hp.width
  have hL := hp.length
  have ht1 := hp.thick.1
  have ht2 := hp.thick.2
  have he := hp.edge
  obtain ⟨f0, f1, f2⟩ := hp.flap
  have a1 := abs_nonneg p.w1x
  have a2 := abs_nonneg p.w2x
  have a3 := abs_nonneg p.flap_height
  have a4 := abs_nonneg (p.w1y - p.zero_offset)
  have a5 := abs_nonneg (p.w2y - p.zero_offset)
  have m0 : p.a0_t ∈ Set.Icc (0 : ℝ) 1 := ⟨f0, f1.trans f2⟩
  have mT : p.tt_t ∈ Set.Icc (0 : ℝ) 1 := ⟨f0.trans f1, f2⟩
  have mM : p.a0_t + (p.tt_t - p.a0_t) / 2 ∈ Set.Icc (0 : ℝ) 1 := ⟨by linarith, by linarith⟩
  obtain ⟨x1, x2⟩ := leadX_mem hp m0
  obtain ⟨x3, x4⟩ := leadX_mem hp mT
  obtain ⟨x5, x6⟩ := leadX_mem hp mM
  obtain ⟨q1, q2⟩ := leadY_mem hp h3 h32 h2 m0
  obtain ⟨q3, q4⟩ := leadY_mem hp h3 h32 h2 mT
  obtain ⟨q5, q6⟩ := leadY_mem hp h3 h32 h2 mM
  have fw := (lead_mono hp h3 h32 h2).fwd
  set a : Wing.Args :=
    { A0 := leadPt p y2 y3 p.a0_t, A1 := leadPt p y2 y3 (p.a0_t + (p.tt_t - p.a0_t) / 2), TT := leadPt p y2 y3 p.tt_t,
      B0 := leadPt p y2 y3 p.a0_t + ⟨0, p.flap_height, 0⟩,
      line := Bezier [leadPt p y2 y3 p.a0_t + ⟨0, p.flap_height, 0⟩, leadPt p y2 y3 p.a0_t + ⟨0, p.flap_height, 0⟩ + ⟨p.w1x, p.w1y - p.zero_offset, 0⟩,
      leadPt p y2 y3 p.tt_t - ⟨p.w2x, p.w2y - p.zero_offset, 0⟩, leadPt p y2 y3 p.tt_t],
      top_tf := uniformThickness p.LE_thickness "top", bot_tf := uniformThickness p.LE_thickness "bot", flap_length := leadX p p.a0_t,
      flap_angle := p.flap_angle, LE_wf := some (lewf p), close_wing := true } with ha
  have ea : flapArgs (lead p y2 y3) p = .ok a := by
    unfold flapArgs
    rw [lead_call, ok_bind, lead_call, ok_bind, lead_call, ok_bind]
    rfl
  have line : ∀ t, a.line.call t = .ok (flapPt p y2 y3 t) := by
    intro t
    simp only [ha]
    rw [bezier4]
    simp only [flapPt, Cubic.bez, leadPt, Except.ok.injEq]
    ext <;> simp
  have hs : SmoothWing ptan (fun _ _ => True) a (flapPt p y2 y3) (fun _ _ => -(p.LE_thickness / 2)) (fun _ _ => p.LE_thickness / 2) (fun _ => p.le_width) 1e-12 := by
    refine ⟨hT.like, lower_bezier, X43.up_custom, rfl, .inl rfl, line, ?_, ?_, fun x y z _ => by simp [ha, uniformThickness]; try ring,
      fun x y z _ => by simp [ha, uniformThickness]; try ring, liesOver_univ _ _ _, .inl rfl, fun _ _ => rfl, ?_, ?_, ?_, ?_⟩
    · simp only [flapPt, Cubic.bez_zero, ha, leadPt]; ext <;> simp
    · simp only [flapPt, Cubic.bez_one, ha, leadPt]
    · intro t _; linarith
    · intro t _; linarith
    · intro t _
      exact hT.fits _ _ (by rw [abs_le]; constructor <;> linarith) he
    · intro t _
      exact hT.gap _ _ (by linarith) (by linarith) he
  obtain ⟨w, i1, m1⟩ := wing_break a rfl (flapPt p y2 y3) line
    (by simp only [flapPt, Cubic.bez_zero, ha]; exact fw _ m0 _ mM (by linarith))
    (by simp only [flapPt, Cubic.bez_one, ha]; exact fw _ mM _ mT (by linarith))
  have box : WingBox a (flapPt p y2 y3) (fun _ _ => -(p.LE_thickness / 2)) (fun _ _ => p.LE_thickness / 2) (fun _ => p.le_width) w.t_B1
      (waveriderX p) (waveriderY p) (waveriderZ p) := by
    have hb : |p.LE_thickness / 2| = p.LE_thickness / 2 := abs_of_nonneg (by linarith)
    refine wingBox_uniform _ _ _ _ _ _ _ _ m1 ?_ (fun t _ => by linarith) ?_ ?_
    · rintro q (rfl | rfl | rfl | rfl)
      · simp only [ha, leadPt, abs_zero, hb, abs_of_nonneg x1, abs_of_nonneg q1]
        unfold waveriderX waveriderY waveriderZ
        refine ⟨by linarith, by linarith, by linarith⟩
      · simp only [ha, leadPt, abs_zero, hb, abs_of_nonneg x5, abs_of_nonneg q5]
        unfold waveriderX waveriderY waveriderZ
        refine ⟨by linarith, by linarith, by linarith⟩
      · simp only [ha, leadPt, abs_zero, hb, abs_of_nonneg x3, abs_of_nonneg q3]
        unfold waveriderX waveriderY waveriderZ
        refine ⟨by linarith, by linarith, by linarith⟩
      · simp only [ha, leadPt, Vec.add_x, Vec.add_y, Vec.add_z, add_zero, abs_zero, hb, abs_of_nonneg x1]
        have := abs_add_le (leadY p y2 y3 p.a0_t) p.flap_height
        rw [abs_of_nonneg q1] at this
        unfold waveriderX waveriderY waveriderZ
        refine ⟨by linarith, by linarith, by linarith⟩
    · intro t ht
      have bx : |(flapPt p y2 y3 t).x| ≤ p.length + |p.w1x| + |p.w2x| := by
        refine Cubic.bez_abs ?_ ?_ ?_ ?_ ht
        · rw [abs_of_nonneg x1]; linarith
        · have := abs_add_le (leadX p p.a0_t) p.w1x
          rw [abs_of_nonneg x1] at this; linarith
        · have := abs_sub (leadX p p.tt_t) p.w2x
          rw [abs_of_nonneg x3] at this; linarith
        · rw [abs_of_nonneg x3]; linarith
      have by' : |(flapPt p y2 y3 t).y| ≤ p.width / 2 + |p.flap_height| + |p.w1y - p.zero_offset| + |p.w2y - p.zero_offset| := by
        have k := abs_add_le (leadY p y2 y3 p.a0_t) p.flap_height
        rw [abs_of_nonneg q1] at k
        refine Cubic.bez_abs ?_ ?_ ?_ ?_ ht
        · linarith
        · have := abs_add_le (leadY p y2 y3 p.a0_t + p.flap_height) (p.w1y - p.zero_offset)
          linarith
        · have := abs_sub (leadY p y2 y3 p.tt_t) (p.w2y - p.zero_offset)
          rw [abs_of_nonneg q3] at this; linarith
        · rw [abs_of_nonneg q3]; linarith
      have bz : |(flapPt p y2 y3 t).z| = 0 := by simp [flapPt]
      rw [bz, hb]
      unfold waveriderX waveriderY waveriderZ
      refine ⟨by linarith, by linarith, by linarith⟩
    · have fl : |a.flap_length| = leadX p p.a0_t := abs_of_nonneg x1
      rw [fl]
      rintro q (rfl | rfl)
      · simp only [ha, leadPt, abs_zero, abs_of_nonneg x1]
        unfold waveriderX waveriderZ
        constructor <;> linarith
      · simp only [ha, leadPt, Vec.add_x, Vec.add_z, add_zero, abs_zero, abs_of_nonneg x1]
        unfold waveriderX waveriderZ
        constructor <;> linarith
  have hb := hp.bend
  refine ⟨a, w, ea, i1, fun n hn => ?_⟩
  have key := closed_pair (rounded bisect01) ptan _ a w _ _ _ _ _ 0 _ _ _ _ (curvatures p) i1 hs m1 rfl (bends_uniform _ _ _) (bends_uniform _ _ _)
    (bends_uniform _ _ _) (bends_uniform _ _ _) box (curvatures_bend hp) (by linarith) n hn
  rw [add_zero] at key
  exact key

end

/-- The mesh of the fuselage. -/
theorem fuse_mesh (hp : WaveriderOk p) (n : ℕ) (hn : 1 ≤ n) (name : Option String) (H : Heap) (id : ℕ)
    (hid : H id = { (RevolvedComponent (fuseLine p) n name).addClusteringOptions (some cf) none with
      modifier := some underside, curvatures := some (curvatures p) }) :
    ∃ g c, generatePatches H id = (.ok (), g) ∧ pipeline 0 (g id) = (.ok (), c) ∧ ∃ M c', c.mesh = (.ok M, c') ∧ Closed M.tris := by
  refine worked_revolved (fuseLine p) _ (fun t _ _ => fuse_call p t) ?_ ?_ (some cf) none ?_ ?_ (some underside) ?_ (curvatures p)
    (bends_total (curvatures_bend hp)) n hn name H id hid
  · simp [Cubic.fuseY]
  · simp [Cubic.fuseY]
  · rintro w h
    cases h
    exact roberts_clusters (by norm_num) _ _
  · simp
  · rintro φ h x y z
    cases h
    unfold underside
    split_ifs
    · exact ⟨_, rfl⟩
    · exact ⟨_, rfl⟩

/-- The mesh of the fin. -/
theorem fin_mesh (hp : WaveriderOk p) {ptan : ℝ → ℝ} (hT : FloatTan ptan) (n : ℕ) (hn : 1 ≤ n) (name : Option String) (H : Heap) (id : ℕ)
    (hid : H id = bentFin (rounded bisect01) ptan finArgs n name (curvatures p)) :
    ∃ g c, generatePatches H id = (.ok (), g) ∧ pipeline 0 (g id) = (.ok (), c) ∧ ∃ M c', c.mesh = (.ok M, c') ∧
      ClosedUpTo (waveriderFactor p * 2e-7) M.tris := by
  have hw := hp.width
  have hL := hp.length
  have ht1 := hp.thick.1
  have he := hp.edge
  have a1 := abs_nonneg p.w1x
  have a2 := abs_nonneg p.w2x
  have a3 := abs_nonneg p.flap_height
  have a4 := abs_nonneg (p.w1y - p.zero_offset)
  have a5 := abs_nonneg (p.w2y - p.zero_offset)
  have hu : UniformFin ptan finArgs 0.01 ⟨0, 0, 0⟩ := by
    refine ⟨hT.like, by norm_num [finArgs], rfl, rfl, ?_, ?_, by norm_num, ?_, ?_, fun _ => rfl, ?_⟩
    · intro h; have := congrArg Vec.x h; norm_num [finArgs] at this
    · intro h; have := congrArg Vec.x h; norm_num [finArgs] at this
    · exact hT.fits _ _ (by rw [abs_le]; norm_num [finArgs]) (by norm_num)
    · exact fun t _ => ⟨0.01, le_rfl, rfl⟩
    · simp [OffsetBy, finArgs]
  have hgap : finGap ptan finArgs 0.01 6e-7 ≤ 2e-7 := by
    unfold finGap brokenLength
    have hg := hT.gap (finArgs.fin_thickness / 2) 0.01 (by norm_num [finArgs]) (by norm_num [finArgs]) (by norm_num)
    have h1 : vdist finArgs.p1 finArgs.p2 ≤ 0.16 := vdist_le_sq (by norm_num) (by norm_num [finArgs])
    have h2 : vdist finArgs.p2 finArgs.p3 ≤ 0.16 := vdist_le_sq (by norm_num) (by norm_num [finArgs])
    linarith
  have hB : FinBall finArgs ⟨0.15, 0.05, 0⟩ 0.4 0.01 := by
    refine ⟨fun t ht w hw => ?_, ?_, ?_⟩
    · simp only [finArgs] at hw
      cases hw
      exact le_rfl
    · rintro p (rfl | rfl | rfl | rfl) <;> exact vdist_le_sq (by norm_num [finArgs]) (by norm_num [finArgs])
    · intro h
      simp [finArgs] at h
  have hr : vdist ⟨0.15, 0.05, 0⟩ finArgs.pivot_point + vdist finArgs.pivot_point ⟨0, 0, 0⟩ ≤ 0.3 := by
    have h1 : vdist ⟨0.15, 0.05, 0⟩ finArgs.pivot_point ≤ 0.2 := vdist_le_sq (by norm_num) (by norm_num [finArgs])
    have h2 : vdist finArgs.pivot_point ⟨0, 0, 0⟩ ≤ 0.1 := vdist_le_sq (by norm_num) (by norm_num [finArgs])
    linarith
  obtain ⟨x1, x2, x3⟩ := finMove_coords finArgs ⟨0, 0, 0⟩ _ hr
  simp only [abs_zero, zero_add] at x1 x2 x3
  have hbends := curvatures_bend hp
  have hb := hp.bend
  have h1 := bends_ge hbends (by unfold waveriderZ; linarith)
  have hg0 : waveriderFactor p * finGap ptan finArgs 0.01 6e-7 ≤ waveriderFactor p * 2e-7 := mul_le_mul_of_nonneg_left hgap (by linarith)
  obtain ⟨g, c, g1, g2, M, c', g3, g4⟩ := C114_fin (rounded bisect01) ptan finArgs 0.01 6e-7 ⟨0, 0, 0⟩ roundedBisect_finds hu
    (by norm_num [BreakFound, finArgs]) ⟨0.15, 0.05, 0⟩ 0.4 0.01 _ _ _ _ hB (by unfold waveriderX; linarith) (by unfold waveriderY; linarith)
    (by unfold waveriderZ; linarith) (curvatures p) hbends (hg0.trans (by linarith)) n hn name H id hid
  exact ⟨g, c, g1, g2, M, c', g3, closedUpTo_mono hg0 g4⟩

end Waverider
end HV
