import Verif.Props.FinSize
import Verif.Props.D21
import Verif.Props.Refex

/-!
# C139: the dimensions of the fins of the D-21 and of the ReFEX
-/

namespace HV
open Spec

namespace Spec

/-- The vertices at which a fin of the given thickness stands over the points `p`, seen in the directions given by `f`. -/
def StandsOver (m : TriMesh ℝ) (f : V → V) (thickness : ℝ) (ps : List (ℝ × ℝ)) : Prop :=
  ∀ q ∈ ps, IsVertex (f ⟨q.1, q.2, thickness / 2⟩) m ∧ IsVertex (f ⟨q.1, q.2, -(thickness / 2)⟩) m

/-- The mesh lies in the box, seen in the directions given by `f`. -/
def BoxedBy (m : TriMesh ℝ) (f : V → V) (x0 x1 y0 y1 z : ℝ) : Prop :=
  ∀ v, IsVertex v m → ∃ u, v = f u ∧ x0 ≤ u.x ∧ u.x ≤ x1 ∧ y0 ≤ u.y ∧ u.y ≤ y1 ∧ |u.z| ≤ z

end Spec

/-- A fin within the limits of its corners. -/
theorem within_box {a : Fin.Args} {W M x0 x1 y0 y1 : ℝ} {u : V} (h : WithinFin a W M u)
    (hc : ∀ p ∈ finCorners a, x0 ≤ p.x ∧ p.x ≤ x1 ∧ y0 ≤ p.y ∧ p.y ≤ y1) :
    x0 - W ≤ u.x ∧ u.x ≤ x1 + W ∧ y0 - W ≤ u.y ∧ u.y ≤ y1 + W ∧ |u.z| ≤ M := by
  have k1 := h.2 (-1) 0 (-x0) (by norm_num) (fun p hp => by linarith [(hc p hp).1])
  have k2 := h.2 1 0 x1 (by norm_num) (fun p hp => by linarith [(hc p hp).2.1])
  have k3 := h.2 0 (-1) (-y0) (by norm_num) (fun p hp => by linarith [(hc p hp).2.2.1])
  have k4 := h.2 0 1 y1 (by norm_num) (fun p hp => by linarith [(hc p hp).2.2.2])
  exact ⟨by linarith, by linarith, by linarith, by linarith, h.1⟩

theorem finMove_plain (a : Fin.Args) (o v : V) (h : a.pivot_angle = 0) : finMove a o v = rotAbout .x a.fin_angle v + o := by
  unfold finMove
  rw [h]
  simp only [rotAbout, Real.cos_zero, Real.sin_zero]
  ext <;> simp

theorem fin_sizes {find : (ℝ → Res ℝ) → Res ℝ} {ptan : ℝ → ℝ} {a : Fin.Args} {wmin W η : ℝ} {o : V} (hη : FindsRoot η find)
    (h : UniformFin ptan a wmin o) (hf : FlatOutline a W) (hx : (a.p1.x - a.p2.x) * (a.p3.x - a.p2.x) ≤ 0)
    (hs : a.rudder_type = "sharp" → a.rudder_angle = 0) (f : V → V) (hfm : ∀ v, finMove a o v = f v) (x0 x1 y0 y1 g : ℝ)
    (hc : ∀ p ∈ finCorners a, x0 ≤ p.x ∧ p.x ≤ x1 ∧ y0 ≤ p.y ∧ p.y ≤ y1) (hg : poleGap ptan (a.fin_thickness / 2) wmin ≤ g) (n : ℕ) (hn : 1 ≤ n)
    (name : Option String) (H : Heap) (id : ℕ) (hid : H id = Fin.comp find ptan a n name) :
    ∃ h' M c', generatePatches H id = (.ok (), h') ∧ (h' id).mesh = (.ok M, c') ∧
      StandsOver M.tris f a.fin_thickness ([a.p0, a.p1, a.p2, a.p3].map fun p => (p.x, p.y)) ∧
      BoxedBy M.tris f (x0 - W) (x1 + W) (y0 - W) (y1 + W) (a.fin_thickness / 2 + g) ∧
      (∀ w, HasWidth a 0 w → IsVertex (f ⟨a.p1.x, a.p1.y + w, 0⟩) M.tris) ∧ (∀ w, HasWidth a 1 w → IsVertex (f ⟨a.p3.x + w, a.p3.y, 0⟩) M.tris) ∧
      (a.rudder_type = "sharp" → ∀ p ∈ [a.p0, a.p1], IsVertex (f ⟨p.x - a.rudder_length, p.y, 0⟩) M.tris) := by
  obtain ⟨h', M, c', k1, k2, k3, k4, k5, k6, k7⟩ := C139_fin find ptan a wmin W η o hη h hf hx n hn name H id hid
  have hh : finHalfHeight a = a.fin_thickness / 2 := by
    unfold finHalfHeight
    split_ifs with h1
    · rw [hs h1, Real.sin_zero, mul_zero, abs_zero]
      exact max_eq_left (by linarith [h.thick])
    · rfl
  have zs : ∀ p ∈ [a.p0, a.p1, a.p2, a.p3], p.z = 0 := by
    intro p hp
    simp only [List.mem_cons, List.not_mem_nil, or_false] at hp
    rcases hp with rfl | rfl | rfl | rfl
    · exact hf.z0
    · exact hf.z1
    · exact hf.z2
    · exact hf.z3
  refine ⟨h', M, c', k1, k2, ?_, ?_, ?_, ?_, ?_⟩
  · intro q hq
    obtain ⟨p, hp, rfl⟩ := List.mem_map.1 hq
    have := k4 p hp
    rw [hfm, hfm] at this
    have z := zs p hp
    have e1 : p + ⟨0, 0, a.fin_thickness / 2⟩ = ⟨p.x, p.y, a.fin_thickness / 2⟩ := by ext <;> simp [z]
    have e2 : p - ⟨0, 0, a.fin_thickness / 2⟩ = ⟨p.x, p.y, -(a.fin_thickness / 2)⟩ := by ext <;> simp [z]
    rw [e1, e2] at this
    exact this
  · intro v hv
    obtain ⟨u, rfl, hu⟩ := k3 v hv
    obtain ⟨b1, b2, b3, b4, b5⟩ := within_box hu hc
    rw [hh] at b5
    exact ⟨u, hfm u, b1, b2, b3, b4, by linarith⟩
  · intro w hw
    have := k6 w hw
    rw [hfm] at this
    have e : a.p1 + ⟨0, w, 0⟩ = ⟨a.p1.x, a.p1.y + w, 0⟩ := by ext <;> simp [hf.z1]
    rw [e] at this
    exact this
  · intro w hw
    have := k7 w hw
    rw [hfm] at this
    have e : a.p3 + ⟨w, 0, 0⟩ = ⟨a.p3.x + w, a.p3.y, 0⟩ := by ext <;> simp [hf.z3]
    rw [e] at this
    exact this
  · intro h1 p hp
    have := k5 h1 p hp
    rw [hfm, hs h1, Real.sin_zero, mul_zero] at this
    exact this


/-! ## The D-21 -/

/-- The tail of the D-21, which stands up (against `z`) from `0.95 R_b` above the axis. -/
def Spec.upright (lift : ℝ) (u : V) : V := ⟨u.x, u.z, -u.y - lift⟩

/-- To the right (`s = 1`) or, turned by half a turn, to the left (`s = -1`). -/
def Spec.sideways (s : ℝ) (u : V) : V := ⟨u.x, s * u.y, s * u.z⟩

theorem rot_down (u : V) : rotAbout .x (deg2rad (-90)) u = ⟨u.x, u.z, -u.y⟩ := by
  have e : deg2rad (-90) = -(Real.pi / 2) := by unfold deg2rad; ring
  rw [e]
  simp [rotAbout]

theorem rot_none (u : V) : rotAbout .x (deg2rad 0) u = ⟨u.x, u.y, u.z⟩ := by
  have e : deg2rad 0 = 0 := by unfold deg2rad; ring
  rw [e]
  simp [rotAbout]

theorem rot_half (u : V) : rotAbout .x (deg2rad 180) u = ⟨u.x, -u.y, -u.z⟩ := by
  have e : deg2rad 180 = Real.pi := by unfold deg2rad; ring
  rw [e]
  simp [rotAbout]

/-- C139: the tail of the D-21 has the height `0.15 W_w`, reaches from the wings to the end of the body at its foot, is 0.4 times as long at its tip, and
is `0.15 R_b` thick; the rounded edge adds at most `0.06`. -/
theorem C139_d21_tail (p : D21.Params) (hp : D21Ok p) {ptan : ℝ → ℝ} (hT : FloatTan ptan) (n : ℕ) (hn : 1 ≤ n) (name : Option String) (H : Heap)
    (id : ℕ) (hid : H id = Fin.comp (rounded bisect01) ptan (D21.tailArgs p) n name) :
    ∃ h' M c', generatePatches H id = (.ok (), h') ∧ (h' id).mesh = (.ok M, c') ∧
      StandsOver M.tris (upright (0.95 * p.R_b)) (0.15 * p.R_b) [(-p.L_b, 0), (-p.L_b, 0.15 * p.W_w), (-p.L_b + 0.4 * (p.L_b - p.L_w), 0.15 * p.W_w),
        (-p.L_w, 0)] ∧
      BoxedBy M.tris (upright (0.95 * p.R_b)) (-p.L_b - 0.06) (-p.L_w + 0.06) (0 - 0.06) (0.15 * p.W_w + 0.06) (0.15 * p.R_b / 2 + 1e-12) ∧
      IsVertex (upright (0.95 * p.R_b) ⟨-p.L_b, 0.15 * p.W_w + 0.01, 0⟩) M.tris := by
  obtain ⟨t1, t2⟩ := D21.thick_pos hp
  have hb := hp.body
  have hw := hp.span
  obtain ⟨h', M, c', k1, k2, k3, k4, k5, -⟩ := fin_sizes roundedBisect_finds (D21.tail_uniform hp hT) (W := 0.06)
    ⟨by simp [D21.tailArgs, D21.b2, D21.b1, D21.b0], by simp [D21.tailArgs, D21.b2, D21.b1, D21.b0], by simp [D21.tailArgs, D21.b2, D21.b1, D21.b0],
      by simp [D21.tailArgs, D21.b2, D21.b1, D21.b0], fun t ht w e => defaultWidth_le t ht w e⟩ (D21.tail_found hp).le
    (by simp [D21.tailArgs]) (upright (0.95 * p.R_b))
    (by
      intro v
      rw [finMove_plain _ _ _ rfl]
      have : (D21.tailArgs p).fin_angle = deg2rad (-90) := rfl
      rw [this, rot_down]
      ext <;> simp [upright, sub_eq_add_neg])
    (-p.L_b) (-p.L_w) 0 (0.15 * p.W_w) 1e-12
    (by
      intro q hq
      simp only [finCorners, D21.tailArgs, D21.b2, D21.b1, D21.b0] at hq
      simp at hq
      rcases hq with rfl | rfl | rfl | rfl <;> simp <;> (try constructor) <;> (try constructor) <;> linarith)
    (hT.gap _ _ (by simp only [D21.tailArgs]; linarith) (by simp only [D21.tailArgs]; linarith) (by norm_num)) n hn name H id hid
  refine ⟨h', M, c', k1, k2, ?_, k4, ?_⟩
  · have e : [(D21.tailArgs p).p0, (D21.tailArgs p).p1, (D21.tailArgs p).p2, (D21.tailArgs p).p3].map (fun p => (p.x, p.y)) =
        [(-p.L_b, 0), (-p.L_b, 0.15 * p.W_w), (-p.L_b + 0.4 * (p.L_b - p.L_w), 0.15 * p.W_w), (-p.L_w, 0)] := by
      simp [D21.tailArgs, D21.b2, D21.b1, D21.b0]
      ring
    rw [e] at k3
    exact k3
  · have := k5 0.01 (by
      show leadingEdgeWidth 0 = _
      rw [leadingEdgeWidth_eq]; norm_num)
    simpa [D21.tailArgs, D21.b2, D21.b1, D21.b0] using this

example (n : ℕ) (hn : 1 ≤ n) : ∃ h' M c',
    generatePatches (fun _ => Fin.comp (rounded bisect01) ieeeTan (D21.tailArgs d21Default) n none) 0 = (.ok (), h') ∧ (h' 0).mesh = (.ok M, c') ∧
      IsVertex ⟨-20, 0, -1.71⟩ M.tris ∧ ∀ v, IsVertex v M.tris → -1.76 - 1e-6 ≤ v.z := by
  obtain ⟨h', M, c', k1, k2, -, k4, k5⟩ := C139_d21_tail d21Default d21Default_ok.2 ieeeTan_float n hn none
    (fun _ => Fin.comp (rounded bisect01) ieeeTan (D21.tailArgs d21Default) n none) 0 rfl
  refine ⟨h', M, c', k1, k2, ?_, ?_⟩
  · convert k5 using 1
    ext <;> simp only [upright, d21Default] <;> norm_num
  · intro v hv
    obtain ⟨u, rfl, -, -, -, h, -⟩ := k4 v hv
    simp only [upright, d21Default] at *
    norm_num at *
    linarith

/-- C139: the trailing wings of the D-21 are rectangles that reach `0.45 W_w` to the side and from the end of the body over 1.3 times the part of it behind
the wings, and are `0.15 R_b` thick; the rounded edge adds at most `0.06`. -/
theorem C139_d21_trailing (p : D21.Params) (hp : D21Ok p) {ptan : ℝ → ℝ} (hT : FloatTan ptan) (angle s : ℝ)
    (hs : angle = 0 ∧ s = 1 ∨ angle = 180 ∧ s = -1) (n : ℕ) (hn : 1 ≤ n) (name : Option String) (H : Heap)
    (id : ℕ) (hid : H id = Fin.comp (rounded bisect01) ptan (D21.trailArgs p angle) n name) :
    ∃ h' M c', generatePatches H id = (.ok (), h') ∧ (h' id).mesh = (.ok M, c') ∧
      StandsOver M.tris (sideways s) (0.15 * p.R_b) [(-p.L_b, 0), (-p.L_b, 0.45 * p.W_w), (-p.L_b + 1.3 * (p.L_b - p.L_w), 0.45 * p.W_w),
        (-p.L_b + 1.3 * (p.L_b - p.L_w), 0)] ∧
      BoxedBy M.tris (sideways s) (-p.L_b - 0.06) (-p.L_b + 1.3 * (p.L_b - p.L_w) + 0.06) (0 - 0.06) (0.45 * p.W_w + 0.06)
        (0.15 * p.R_b / 2 + 1e-12) ∧
      IsVertex (sideways s ⟨-p.L_b, 0.45 * p.W_w + 0.01, 0⟩) M.tris ∧
      IsVertex (sideways s ⟨-p.L_b + 1.3 * (p.L_b - p.L_w) + 0.01, 0, 0⟩) M.tris := by
  obtain ⟨t1, t2⟩ := D21.thick_pos hp
  have hb := hp.body
  have hw := hp.span
  obtain ⟨h', M, c', k1, k2, k3, k4, k5, k6, -⟩ := fin_sizes roundedBisect_finds (D21.trail_uniform hp hT angle) (W := 0.06)
    ⟨by simp [D21.trailArgs, D21.b2, D21.b1, D21.b0], by simp [D21.trailArgs, D21.b2, D21.b1, D21.b0], by simp [D21.trailArgs, D21.b2, D21.b1, D21.b0],
      by simp [D21.trailArgs, D21.b2, D21.b1, D21.b0], fun t ht w e => defaultWidth_le t ht w e⟩
    (by simp [D21.trailArgs, D21.b2, D21.b1, D21.b0]) (by simp [D21.trailArgs]) (sideways s)
    (by
      intro v
      rw [finMove_plain _ _ _ rfl]
      have : (D21.trailArgs p angle).fin_angle = deg2rad angle := rfl
      rw [this]
      rcases hs with ⟨rfl, rfl⟩ | ⟨rfl, rfl⟩
      · rw [rot_none]; ext <;> simp [sideways]
      · rw [rot_half]; ext <;> simp [sideways])
    (-p.L_b) (-p.L_b + 1.3 * (p.L_b - p.L_w)) 0 (0.45 * p.W_w) 1e-12
    (by
      intro q hq
      simp only [finCorners, D21.trailArgs, D21.b2, D21.b1, D21.b0] at hq
      simp at hq
      rcases hq with rfl | rfl | rfl | rfl <;> simp <;> (try constructor) <;> (try constructor) <;> linarith)
    (hT.gap _ _ (by simp only [D21.trailArgs]; linarith) (by simp only [D21.trailArgs]; linarith) (by norm_num)) n hn name H id hid
  have ew : ∀ t : ℝ, t * (1 - t) = 0 → HasWidth (D21.trailArgs p angle) t 0.01 := by
    intro t ht
    show leadingEdgeWidth t = _
    rw [leadingEdgeWidth_eq, mul_assoc, ht, mul_zero, add_zero]
  refine ⟨h', M, c', k1, k2, ?_, k4, ?_, ?_⟩
  · have e : [(D21.trailArgs p angle).p0, (D21.trailArgs p angle).p1, (D21.trailArgs p angle).p2, (D21.trailArgs p angle).p3].map (fun p => (p.x, p.y)) =
        [(-p.L_b, 0), (-p.L_b, 0.45 * p.W_w), (-p.L_b + 1.3 * (p.L_b - p.L_w), 0.45 * p.W_w), (-p.L_b + 1.3 * (p.L_b - p.L_w), 0)] := by
      simp [D21.trailArgs, D21.b2, D21.b1, D21.b0]
    rw [e] at k3
    exact k3
  · have := k5 0.01 (ew 0 (by norm_num))
    simpa [D21.trailArgs, D21.b2, D21.b1, D21.b0] using this
  · have := k6 0.01 (ew 1 (by norm_num))
    simpa [D21.trailArgs, D21.b2, D21.b1, D21.b0] using this

example (n : ℕ) (hn : 1 ≤ n) : ∃ h' M c',
    generatePatches (fun _ => Fin.comp (rounded bisect01) ieeeTan (D21.trailArgs d21Default 180) n none) 0 = (.ok (), h') ∧ (h' 0).mesh = (.ok M, c') ∧
      IsVertex ⟨-20, -2.26, 0⟩ M.tris := by
  obtain ⟨h', M, c', k1, k2, -, -, k5, -⟩ := C139_d21_trailing d21Default d21Default_ok.2 ieeeTan_float 180 (-1) (.inr ⟨rfl, rfl⟩) n hn none
    (fun _ => Fin.comp (rounded bisect01) ieeeTan (D21.trailArgs d21Default 180) n none) 0 rfl
  refine ⟨h', M, c', k1, k2, ?_⟩
  convert k5 using 1
  ext <;> simp only [sideways, d21Default] <;> norm_num

/-! ## The ReFEX -/

namespace ReFEX

theorem fin_uniform {ptan : ℝ → ℝ} (hT : FloatTan ptan) (a : Fin.Args) (h0 : 0 < a.fin_thickness) (h1 : a.fin_thickness ≤ 200)
    (ht : a.top_tf = uniformThickness a.fin_thickness "top") (hb : a.bot_tf = uniformThickness a.fin_thickness "bot") (hw : a.LE_wf = leWidth)
    (hz : a.p1.z = 0) (ho : OffsetBy a ⟨0, 0, 0⟩) (hx : BreakFound a) : UniformFin ptan a 0.01 ⟨0, 0, 0⟩ := by
  refine ⟨hT.like, h0, ht, hb, ?_, ?_, by norm_num, ?_, ?_, fun _ => hz, ho⟩
  · intro hc; unfold BreakFound at hx; rw [hc, sub_self, zero_mul] at hx; exact lt_irrefl _ hx
  · intro hc; unfold BreakFound at hx; rw [← hc, sub_self, mul_zero] at hx; exact lt_irrefl _ hx
  · exact hT.fits _ _ (by rw [abs_of_pos (by linarith)]; linarith) (by norm_num)
  · intro t ht; rw [hw]; exact ⟨_, leWidth_ge ht, leWidth_eq t⟩

theorem leWidth_le (t w : ℝ) (h : leWidth t = .ok w) : w ≤ 0.03 := by
  rw [leWidth_eq] at h
  cases h
  nlinarith [sq_nonneg (t - 1 / 2)]

theorem leWidth_zero : leWidth 0 = .ok 0.01 := by rw [leWidth_eq]; norm_num

end ReFEX

/-- C139: the tail of the ReFEX stands `0.98 tail_height` up from `0.02 tail_height` below the surface of the body, is `1.2 tail_height` long at its foot
and 0.4 times as long at its tip and `tail_thickness` thick, and runs out in a sharp edge `tail_thickness` in front of the end of the body; the rounded edge
adds at most `0.03`. -/
theorem C139_refex_tail (p : ReFEX.Params) (shift : V) (hp : ReFEXOk p shift) {ptan : ℝ → ℝ} (hT : FloatTan ptan) (n : ℕ) (hn : 1 ≤ n)
    (name : Option String) (H : Heap) (id : ℕ) (hid : H id = Fin.comp (rounded bisect01) ptan (ReFEX.tailArgs p) n name) :
    ∃ h' M c', generatePatches H id = (.ok (), h') ∧ (h' id).mesh = (.ok M, c') ∧
      StandsOver M.tris (upright 0) p.tail_thickness [(-p.L_b + 2 * p.tail_thickness, p.h - 0.02 * p.tail_height),
        (-p.L_b + 2 * p.tail_thickness, p.h + 0.96 * p.tail_height), (-p.L_b + 2 * p.tail_thickness + 0.48 * p.tail_height, p.h + 0.94 * p.tail_height),
        (-p.L_b + 2 * p.tail_thickness + 1.2 * p.tail_height, p.h - 0.04 * p.tail_height)] ∧
      BoxedBy M.tris (upright 0) (-p.L_b + p.tail_thickness - 0.03) (-p.L_b + 2 * p.tail_thickness + 1.2 * p.tail_height + 0.03)
        (p.h - 0.04 * p.tail_height - 0.03) (p.h + 0.96 * p.tail_height + 0.03) (p.tail_thickness / 2 + 1e-12) ∧
      IsVertex (upright 0 ⟨-p.L_b + 2 * p.tail_thickness, p.h + 0.96 * p.tail_height + 0.01, 0⟩) M.tris ∧
      IsVertex (upright 0 ⟨-p.L_b + p.tail_thickness, p.h - 0.02 * p.tail_height, 0⟩) M.tris := by
  have h0 := hp.tail
  have h1 := hp.tailThick
  have h2 := hp.tailThin
  have hx : BreakFound (ReFEX.tailArgs p) := by
    simp only [BreakFound, ReFEX.tailArgs, ReFEX.t1, ReFEX.t2, ReFEX.t3, ReFEX.t0, ReFEX.bb0, ReFEX.f1, ReFEX.shift_in, ReFEX.tail_length, Vec.add_x,
      Vec.sub_x]
    nlinarith [mul_pos h0 h0]
  have e0 : (ReFEX.tailArgs p).p0 = ⟨-p.L_b + 2 * p.tail_thickness, p.h - 0.02 * p.tail_height, 0⟩ := by
    ext <;> simp [ReFEX.tailArgs, ReFEX.t0, ReFEX.bb0, ReFEX.f1, ReFEX.shift_in] <;> ring
  have e1 : (ReFEX.tailArgs p).p1 = ⟨-p.L_b + 2 * p.tail_thickness, p.h + 0.96 * p.tail_height, 0⟩ := by
    ext <;> simp [ReFEX.tailArgs, ReFEX.t1, ReFEX.t0, ReFEX.bb0, ReFEX.f1, ReFEX.shift_in] <;> ring
  have e2 : (ReFEX.tailArgs p).p2 = ⟨-p.L_b + 2 * p.tail_thickness + 0.48 * p.tail_height, p.h + 0.94 * p.tail_height, 0⟩ := by
    ext <;> simp [ReFEX.tailArgs, ReFEX.t2, ReFEX.t1, ReFEX.t0, ReFEX.bb0, ReFEX.f1, ReFEX.shift_in, ReFEX.tail_length] <;> ring
  have e3 : (ReFEX.tailArgs p).p3 = ⟨-p.L_b + 2 * p.tail_thickness + 1.2 * p.tail_height, p.h - 0.04 * p.tail_height, 0⟩ := by
    ext <;> simp [ReFEX.tailArgs, ReFEX.t3, ReFEX.t0, ReFEX.bb0, ReFEX.f1, ReFEX.shift_in, ReFEX.tail_length] <;> ring
  obtain ⟨h', M, c', k1, k2, k3, k4, k5, -, k7⟩ := fin_sizes roundedBisect_finds
    (ReFEX.fin_uniform hT (ReFEX.tailArgs p) h1 h2 rfl rfl rfl (by rw [e1]) (by simp only [OffsetBy, ReFEX.tailArgs]) hx) (W := 0.03)
    ⟨by rw [e0], by rw [e1], by rw [e2], by rw [e3], fun t _ w e => ReFEX.leWidth_le t w e⟩ hx.le (fun _ => rfl) (upright 0)
    (by
      intro v
      rw [finMove_plain _ _ _ rfl]
      have : (ReFEX.tailArgs p).fin_angle = deg2rad (-90) := rfl
      rw [this, rot_down]
      ext <;> simp [upright])
    (-p.L_b + p.tail_thickness) (-p.L_b + 2 * p.tail_thickness + 1.2 * p.tail_height) (p.h - 0.04 * p.tail_height) (p.h + 0.96 * p.tail_height) 1e-12
    (by
      intro q hq
      have hr : (ReFEX.tailArgs p).rudder_length = p.tail_thickness := rfl
      simp only [finCorners, e0, e1, e2, e3, hr] at hq
      simp [ReFEX.tailArgs] at hq
      rcases hq with rfl | rfl | rfl | rfl | rfl | rfl <;> simp <;> (try constructor) <;> (try constructor) <;> (try constructor) <;> linarith)
    (hT.gap _ _ (by simp only [ReFEX.tailArgs]; linarith) (by simp only [ReFEX.tailArgs]; linarith) (by norm_num)) n hn name H id hid
  refine ⟨h', M, c', k1, k2, ?_, k4, ?_, ?_⟩
  · rw [e0, e1, e2, e3] at k3
    exact k3
  · have := k5 0.01 ReFEX.leWidth_zero
    rw [e1] at this
    exact this
  · have := k7 rfl (ReFEX.tailArgs p).p0 (by simp)
    rw [e0] at this
    have hr : (ReFEX.tailArgs p).rudder_length = p.tail_thickness := rfl
    simp only [hr] at this
    convert this using 2
    ext <;> simp
    ring

example (n : ℕ) (hn : 1 ≤ n) : ∃ h' M c',
    generatePatches (fun _ => Fin.comp (rounded bisect01) ieeeTan (ReFEX.tailArgs refexDefault) n none) 0 = (.ok (), h') ∧ (h' 0).mesh = (.ok M, c') ∧
      ∀ v, IsVertex v M.tris → |v.y| ≤ refexDefault.tail_thickness / 2 + 1e-12 := by
  obtain ⟨h', M, c', k1, k2, -, k4, -⟩ := C139_refex_tail refexDefault _ refexDefault_ok.2 ieeeTan_float n hn none
    (fun _ => Fin.comp (rounded bisect01) ieeeTan (ReFEX.tailArgs refexDefault) n none) 0 rfl
  refine ⟨h', M, c', k1, k2, fun v hv => ?_⟩
  obtain ⟨u, rfl, -, -, -, -, h⟩ := k4 v hv
  exact h

/-- Turned by `angle` degrees about an axis along `y` at `x = c`. -/
noncomputable def Spec.pitched (angle c : ℝ) (u : V) : V :=
  ⟨c + (u.x - c) * Real.cos (angle * (Real.pi / 180)) + u.z * Real.sin (angle * (Real.pi / 180)), u.y,
    u.z * Real.cos (angle * (Real.pi / 180)) - (u.x - c) * Real.sin (angle * (Real.pi / 180))⟩

/-- C139: the canards of the ReFEX reach `1.3 h` out from the body (less 0.04 of that), are 1.3 times as long at the foot and 0.3 times as long at the tip
and `fin_thickness` thick, and are turned by the canard angle about their middle; the two angles are opposite before the second canard is turned to the other
side, so that both have the same pitch. -/
theorem C139_refex_canard (p : ReFEX.Params) (shift : V) (hp : ReFEXOk p shift) {ptan : ℝ → ℝ} (hT : FloatTan ptan) (i : ℕ) (s : ℝ)
    (hs : i = 0 ∧ s = 1 ∨ i = 1 ∧ s = -1) (n : ℕ) (hn : 1 ≤ n)
    (name : Option String) (H : Heap) (id : ℕ) (hid : H id = Fin.comp (rounded bisect01) ptan (ReFEX.canardArgs p shift i) n name) :
    ∃ h' M c', generatePatches H id = (.ok (), h') ∧ (h' id).mesh = (.ok M, c') ∧
      let f := fun u => sideways s (pitched (s * p.canard_angle) (shift.x - p.L_o - 0.845 * p.h) u)
      StandsOver M.tris f p.fin_thickness [(shift.x - p.L_o - 1.69 * p.h, shift.y + 0.974 * p.h),
        (shift.x - p.L_o - 1.69 * p.h, shift.y + 2.248 * p.h), (shift.x - p.L_o - 1.183 * p.h, shift.y + 2.222 * p.h),
        (shift.x - p.L_o, shift.y + 0.974 * p.h)] ∧
      BoxedBy M.tris f (shift.x - p.L_o - 1.69 * p.h - p.fin_thickness - 0.03) (shift.x - p.L_o + 0.03)
        (shift.y + 0.974 * p.h - 0.03) (shift.y + 2.248 * p.h + 0.03) (p.fin_thickness / 2 + 1e-12) ∧
      IsVertex (f ⟨shift.x - p.L_o - 1.69 * p.h, shift.y + 2.248 * p.h + 0.01, 0⟩) M.tris ∧
      IsVertex (f ⟨shift.x - p.L_o - 1.69 * p.h - p.fin_thickness, shift.y + 2.248 * p.h, 0⟩) M.tris := by
  have h0 : 0 < p.h := by linarith [hp.tip, hp.blunt]
  have h1 := hp.fin
  have h2 := hp.finThin
  have hx : BreakFound (ReFEX.canardArgs p shift i) := by
    simp only [BreakFound, ReFEX.canardArgs, ReFEX.p1, ReFEX.p2, ReFEX.p3, ReFEX.p0, ReFEX.f1, ReFEX.shift_in, ReFEX.fin_length, ReFEX.fin_height,
      Vec.add_x, Vec.sub_x]
    nlinarith [mul_pos h0 h0]
  have hz := hp.level
  have e0 : (ReFEX.canardArgs p shift i).p0 = ⟨shift.x - p.L_o - 1.69 * p.h, shift.y + 0.974 * p.h, 0⟩ := by
    ext <;> simp [ReFEX.canardArgs, ReFEX.p0, ReFEX.f1, ReFEX.shift_in, ReFEX.fin_length, ReFEX.fin_height, hz] <;> ring
  have e1 : (ReFEX.canardArgs p shift i).p1 = ⟨shift.x - p.L_o - 1.69 * p.h, shift.y + 2.248 * p.h, 0⟩ := by
    ext <;> simp [ReFEX.canardArgs, ReFEX.p1, ReFEX.p0, ReFEX.f1, ReFEX.shift_in, ReFEX.fin_length, ReFEX.fin_height, hz] <;> ring
  have e2 : (ReFEX.canardArgs p shift i).p2 = ⟨shift.x - p.L_o - 1.183 * p.h, shift.y + 2.222 * p.h, 0⟩ := by
    ext <;> simp [ReFEX.canardArgs, ReFEX.p2, ReFEX.p1, ReFEX.p0, ReFEX.f1, ReFEX.shift_in, ReFEX.fin_length, ReFEX.fin_height, hz] <;> ring
  have e3 : (ReFEX.canardArgs p shift i).p3 = ⟨shift.x - p.L_o, shift.y + 0.974 * p.h, 0⟩ := by
    ext <;> simp [ReFEX.canardArgs, ReFEX.p3, ReFEX.p0, ReFEX.f1, ReFEX.shift_in, ReFEX.fin_length, ReFEX.fin_height, hz] <;> ring
  have ep : (ReFEX.canardArgs p shift i).pivot_point = ⟨shift.x - p.L_o - 0.845 * p.h, shift.y + 0.974 * p.h, 0⟩ := by
    have k0 : ReFEX.p0 p shift = _ := e0
    have k3 : ReFEX.p3 p shift = _ := e3
    simp only [ReFEX.canardArgs, ReFEX.pivot, k0, k3]
    ext <;> simp
    ring
  have hr : (ReFEX.canardArgs p shift i).rudder_length = p.fin_thickness := rfl
  obtain ⟨h', M, c', k1, k2, k3, k4, k5, -, k7⟩ := fin_sizes roundedBisect_finds
    (ReFEX.fin_uniform hT (ReFEX.canardArgs p shift i) h1 (h2.trans (by norm_num)) rfl rfl rfl (by rw [e1]) (by simp only [OffsetBy, ReFEX.canardArgs]) hx)
    (W := 0.03) ⟨by rw [e0], by rw [e1], by rw [e2], by rw [e3], fun t _ w e => ReFEX.leWidth_le t w e⟩ hx.le (fun _ => rfl)
    (fun u => sideways s (pitched (s * p.canard_angle) (shift.x - p.L_o - 0.845 * p.h) u))
    (by
      intro v
      unfold finMove
      rw [ep]
      have ea : (ReFEX.canardArgs p shift i).fin_angle = deg2rad (((i : ℝ) / 2) * 360) := rfl
      have eb : (ReFEX.canardArgs p shift i).pivot_angle = deg2rad ((-1) ^ i * p.canard_angle) := rfl
      rw [ea, eb]
      rcases hs with ⟨rfl, rfl⟩ | ⟨rfl, rfl⟩
      · have : (((0 : ℕ) : ℝ) / 2 * 360) = 0 := by norm_num
        rw [this, rot_none, pow_zero]
        unfold deg2rad
        ext <;> simp [sideways, pitched, rotAbout] <;> ring
      · have : (((1 : ℕ) : ℝ) / 2 * 360) = 180 := by norm_num
        rw [this, rot_half, pow_one]
        unfold deg2rad
        ext <;> simp [sideways, pitched, rotAbout] <;> ring)
    (shift.x - p.L_o - 1.69 * p.h - p.fin_thickness) (shift.x - p.L_o) (shift.y + 0.974 * p.h) (shift.y + 2.248 * p.h) 1e-12
    (by
      intro q hq
      simp only [finCorners, e0, e1, e2, e3, hr] at hq
      simp [ReFEX.canardArgs] at hq
      rcases hq with rfl | rfl | rfl | rfl | rfl | rfl <;> simp <;> (try constructor) <;> (try constructor) <;> (try constructor) <;> linarith)
    (hT.gap _ _ (by simp only [ReFEX.canardArgs]; linarith) (by simp only [ReFEX.canardArgs]; linarith) (by norm_num)) n hn name H id hid
  refine ⟨h', M, c', k1, k2, ?_, k4, ?_, ?_⟩
  · rw [e0, e1, e2, e3] at k3
    exact k3
  · have := k5 0.01 ReFEX.leWidth_zero
    rw [e1] at this
    exact this
  · have := k7 rfl (ReFEX.canardArgs p shift i).p1 (by simp)
    rw [e1] at this
    exact this

example (n : ℕ) (hn : 1 ≤ n) : ∃ h' M c',
    generatePatches (fun _ => Fin.comp (rounded bisect01) ieeeTan (ReFEX.canardArgs refexDefault ReFEX.defaultShift 1) n none) 0 = (.ok (), h') ∧
      (h' 0).mesh = (.ok M, c') ∧ ∃ v, IsVertex v M.tris := by
  obtain ⟨h', M, c', k1, k2, -, -, k5, -⟩ := C139_refex_canard refexDefault _ refexDefault_ok.2 ieeeTan_float 1 (-1) (.inr ⟨rfl, rfl⟩) n hn none
    (fun _ => Fin.comp (rounded bisect01) ieeeTan (ReFEX.canardArgs refexDefault ReFEX.defaultShift 1) n none) 0 rfl
  exact ⟨h', M, c', k1, k2, _, k5⟩

end HV
