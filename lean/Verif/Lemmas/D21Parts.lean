import Verif.Lemmas.D21Wing
import Verif.Lemmas.RefexParts
import Verif.Props.FinRects

/-!
# The other parts of the D-21
-/

namespace HV
open Spec Veh

/-- A fin whose break is at the end of its leading edge generates. -/
theorem fin_end_mesh (find : (ℝ → Res ℝ) → Res ℝ) (hfind : TakesEnd find) {ptan : ℝ → ℝ} {a : Fin.Args} {wmin : ℝ} {o : V}
    (h : UniformFin ptan a wmin o) (e3 : a.p3.x = a.p2.x) (e1 : a.p1.x ≠ a.p2.x) (hf : a.rudder_type ≠ "sharp") (n : ℕ) (hn : 1 ≤ n)
    (name : Option String) (hp : Heap) (id : ℕ) (hid : hp id = Fin.comp find ptan a n name) :
    ∃ h' M c', generatePatches hp id = (.ok (), h') ∧ (h' id).mesh = (.ok M, c') := by
  obtain ⟨line, PL, hl, hcall, hb⟩ := polyline_broken a.p1 a.p2 a.p3 h.n12 h.n23
  have hfd : find (fun t => do let p ← line.call t; return p.x - a.p2.x) = .ok 1 := by
    refine hfind _ (a.p1.x - a.p2.x) ?_ (sub_ne_zero.2 e1) ?_
    · simp only [hcall, ok_bind, hb.at_zero, pure_eq]
    · simp only [hcall, ok_bind, hb.at_one, e3, sub_self, pure_eq]
  obtain ⟨le, hle, fle⟩ := leading_patches find h n hn line PL hcall 1 ⟨zero_le_one, le_rfl⟩ hfd
  obtain ⟨sk, hsk, fsk⟩ := fin_skins h n
  obtain ⟨bo, Pb, hbo, fbo, gbo⟩ := fin_bottom h n hn PL hb.at_one
  obtain ⟨te, Pt, hte, fte, gte⟩ := fin_flat h n hn PL hb.at_zero
  obtain ⟨h', M, c', k1, k2, k3⟩ := fin_assembled find h n hn name hp id hid line hl sk le bo te _ _ _ _ hsk hle hbo
    (by unfold Fin.trailingEdge; rw [if_neg hf]; exact hte) fsk fle fbo fte
  exact ⟨h', M, c', k1, k2⟩

namespace D21
variable {p : Params}

/-! ## The fuselage -/

/-- A ReFEX with the same body. -/
noncomputable def asReFEX (p : Params) : ReFEX.Params where
  generate_fuselage := 1
  generate_wings := 1
  generate_canards := 1
  generate_tail := 1
  h := p.R_b
  r_n := p.R_b / 2
  r_o := 2 * p.R_b
  L_o := 1
  L_b := p.L_b
  fin_thickness := 1
  wing_length := 1
  wing_span := 1
  tail_height := 1
  tail_thickness := 1
  canard_angle := 0

theorem fuse_mesh (hp : D21Ok p) : ∃ P, fuseLine p = .ok P ∧ ∀ (n : ℕ), 1 ≤ n → ∀ (name : Option String) (H : Heap) (id : ℕ),
    H id = RevolvedComponent P n name → ∃ g c, generatePatches H id = (.ok (), g) ∧ pipeline 0 (g id) = (.ok (), c) ∧
      ∃ M c', c.mesh = (.ok M, c') ∧ Closed M.tris ∧ (2 ≤ n → signedVolume M.tris < 0) := by
  have h1 := hp.radius
  have h2 := hp.wing
  have h3 := hp.body
  obtain ⟨P, e, hP⟩ := ReFEX.body_mesh (p := asReFEX p) (shift := ⟨0, 0, 0⟩)
    ⟨by simp only [asReFEX]; linarith, by simp only [asReFEX]; linarith, by simp only [asReFEX]; linarith, by simp only [asReFEX]; norm_num,
     by simp only [asReFEX]; linarith, by simp only [asReFEX]; norm_num, by simp only [asReFEX]; norm_num, by simp only [asReFEX]; norm_num,
     by simp only [asReFEX]; linarith, by simp only [asReFEX]; norm_num, by simp only [asReFEX]; norm_num, by simp only [asReFEX]; norm_num, rfl⟩
  refine ⟨P, ?_, hP⟩
  rw [← e, ReFEX.bodyLine_eq]
  have e1 : b1 p = ⟨-p.L_b, p.R_b, 0⟩ := by ext <;> simp [b1, b0]
  have e2 : b2 p = ⟨-p.L_b, 0, 0⟩ := by ext <;> simp [b2, b1, b0]
  unfold fuseLine
  rw [e1, e2]
  rfl

/-! ## The nose -/

theorem cone_call (p : Params) (r : ℝ) : (Bezier [tip p, midCp p, top p]).call r =
    .ok ⟨0.15 * p.L_b * (1 - r) ^ 2 - 0.1, p.R_b * r * (0.6 + 0.4 * r), 0⟩ := by
  rw [X43.bezier3]
  congr 1
  ext <;> simp [tip, midCp, top, shift] <;> ring

theorem nose_line (hp : D21Ok p) : ∃ P, noseLine p = .ok P ∧ (∀ t, P.call t = .ok (fnOf P t)) ∧
    fnOf P 0 = ⟨0.15 * p.L_b - 0.1, 0, 0⟩ ∧ fnOf P 1 = ⟨-0.6, 0, 0⟩ ∧ RunsBack P ∧ ∀ t, 0 < t → t < 1 → 0 < (fnOf P t).y := by
  have h1 := hp.radius
  have h2 := hp.wing
  have h3 := hp.body
  have hb : ∀ t, fnOf (Bezier [tip p, midCp p, top p]) t = ⟨0.15 * p.L_b * (1 - t) ^ 2 - 0.1, p.R_b * t * (0.6 + 0.4 * t), 0⟩ := by
    intro t; unfold fnOf; rw [cone_call]; rfl
  have ht : top p = ⟨-0.1, p.R_b, 0⟩ := by ext <;> simp [top, shift]
  have he : (⟨-0.5, 0, 0⟩ : V) + shift = ⟨-0.6, 0, 0⟩ := by ext <;> simp [shift]; norm_num
  have hg : ∀ s ∈ [Bezier [tip p, midCp p, top p], Line (top p) ((⟨-0.5, 0, 0⟩ : V) + shift)], GoodSeg s := by
    intro s hs
    simp only [List.mem_cons, List.not_mem_nil, or_false] at hs
    rcases hs with rfl | rfl
    · obtain ⟨l, k1, k2, -⟩ := C16_length _ _ (cone_call p) 20 (by norm_num)
      refine ⟨⟨l, k1, lt_of_lt_of_le ?_ k2⟩, fun t => ⟨_, cone_call p t⟩⟩
      rw [vdist_sqrt]
      apply Real.sqrt_pos.2
      have : 0 < p.R_b ^ 2 := by positivity
      simp only
      nlinarith [sq_nonneg (p.L_b)]
    · refine goodLine _ _ ?_
      rw [ht, he]
      intro hc
      have := congrArg Vec.x hc
      norm_num at this
  obtain ⟨P, k1, k2, k3, k4, -⟩ := goodPolyline _ (by simp) hg
  refine ⟨P, k1, k2.call, ?_, ?_, ?_, ?_⟩
  · rw [k3]; simp only [List.head_cons]; rw [hb]; ext <;> simp
  · rw [k4]; simp only [List.getLast_cons_cons, List.getLast_singleton]; rw [he, ht, fnOf_line]; ext <;> simp
  · refine polyline_runsBack _ (by simp) hg ?_ ?_ P k1
    · intro s hs
      simp only [List.mem_cons, List.not_mem_nil, or_false] at hs
      rcases hs with rfl | rfl
      · intro t ht u hu htu
        rw [hb, hb]
        simp only
        have : (1 - u) ^ 2 ≤ (1 - t) ^ 2 := by
          apply pow_le_pow_left₀ <;> linarith [hu.2]
        nlinarith
      · refine runsBack_line _ _ ?_
        rw [ht, he]; norm_num
    · intro i hi
      simp only [List.length_cons, List.length_nil] at hi
      obtain rfl : i = 0 := by omega
      simp only [List.getElem_cons_zero, List.getElem_cons_succ]
      rw [hb, ht, fnOf_line]; simp
  · intro t ht0 ht1
    refine polyline_inside _ (by simp) hg (fun v => 0 < v.y) ?_ P k1 t ht0 ht1
    intro i hi t h0 h1'
    simp only [List.length_cons, List.length_nil] at hi
    have ht' : t ≤ 1 := by rcases h1' with h | h <;> linarith [h]
    obtain rfl | rfl : i = 0 ∨ i = 1 := by omega
    · simp only [List.getElem_cons_zero]
      rw [hb]
      have : 0 < p.R_b := by linarith
      simp only
      positivity
    · rcases h1' with h | h
      · simp only [List.getElem_cons_zero, List.getElem_cons_succ]
        rw [ht, he, fnOf_line]
        simp only
        nlinarith
      · simp at h

theorem nose_mesh (hp : D21Ok p) : ∃ P, noseLine p = .ok P ∧ ∀ (n : ℕ), 1 ≤ n → ∀ (name : Option String) (H : Heap) (id : ℕ),
    H id = RevolvedComponent P n name → ∃ g c, generatePatches H id = (.ok (), g) ∧ pipeline 0 (g id) = (.ok (), c) ∧
      ∃ M c', c.mesh = (.ok M, c') ∧ Closed M.tris ∧ (2 ≤ n → signedVolume M.tris < 0) := by
  obtain ⟨P, k1, k2, k3, k4, k5, k6⟩ := nose_line hp
  refine ⟨P, k1, fun n hn name H id hid => ?_⟩
  obtain ⟨h', M, c', g1, g2, g3, g4⟩ := C97_volume P (fnOf P) (fun t _ _ => k2 t) (by rw [k3]; simp) (by rw [k4]; simp) n hn name H id hid
  refine ⟨h', h' id, g1, ReFEX.plain_pipeline g1 (by rw [hid]; simp [RevolvedComponent, Comp.children]) (by rw [hid]; rfl) (by rw [hid]; rfl)
    (by rw [hid]; rfl) (by rw [hid]; rfl), M, c', g2, g3, fun h2 => ?_⟩
  rw [g4]
  refine polygonalVolume_neg (fnOf P) k5 ?_ k6 n h2
  rw [k3, k4]
  simp only
  linarith [hp.body, hp.wing]

/-! ## The fins -/

theorem finTop_eq (p : Params) : finTop p = uniformThickness (wing_thickness p) "top" := by
  funext x y z
  simp [finTop, uniformThickness]

theorem finBot_eq (p : Params) : finBot p = uniformThickness (wing_thickness p) "bot" := by
  funext x y z
  simp [finBot, uniformThickness]

theorem thick_pos (hp : D21Ok p) : 0 < wing_thickness p ∧ wing_thickness p ≤ 200 := by
  have h1 := hp.radius
  have h2 := hp.radius'
  unfold wing_thickness
  constructor <;> linarith

/-- The length of the leading edge of the tail. -/
noncomputable def tailEdge (p : Params) : ℝ := brokenLength (tailArgs p).p1 (tailArgs p).p2 (tailArgs p).p3

theorem tail_found (hp : D21Ok p) : BreakFound (tailArgs p) := by
  have h3 : 0 < p.L_b - p.L_w := by linarith [hp.body]
  simp only [BreakFound, tailArgs, b2, b1, b0, Vec.add_x, Vec.sub_x]
  nlinarith [mul_pos h3 h3]

theorem tail_uniform (hp : D21Ok p) {ptan : ℝ → ℝ} (hT : FloatTan ptan) : UniformFin ptan (tailArgs p) 0.01 ⟨0, 0, -0.95 * p.R_b⟩ := by
  obtain ⟨t1, t2⟩ := thick_pos hp
  have hx := tail_found hp
  refine ⟨hT.like, t1, finTop_eq p, finBot_eq p, ?_, ?_, by norm_num, ?_, ?_, fun h => ?_, ?_⟩
  · intro hc; unfold BreakFound at hx; rw [hc, sub_self, zero_mul] at hx; exact lt_irrefl _ hx
  · intro hc; unfold BreakFound at hx; rw [← hc, sub_self, mul_zero] at hx; exact lt_irrefl _ hx
  · exact hT.fits _ _ (by simp only [tailArgs]; rw [abs_of_pos (by linarith)]; linarith) (by norm_num)
  · intro t ht
    obtain ⟨w, hw, e⟩ := defaultWidth_mem t ht
    exact ⟨w, by linarith, e⟩
  · simp [tailArgs, b2, b1, b0]
  · simp only [OffsetBy, tailArgs]; intros; trivial

theorem tail_mesh (hp : D21Ok p) {ptan : ℝ → ℝ} (hT : FloatTan ptan) (n : ℕ) (hn : 1 ≤ n) (name : Option String) (H : Heap) (id : ℕ)
    (hid : H id = Fin.comp (rounded bisect01) ptan (tailArgs p) n name) :
    ∃ g c, generatePatches H id = (.ok (), g) ∧ pipeline 0 (g id) = (.ok (), c) ∧
      ∃ M c', c.mesh = (.ok M, c') ∧ ClosedUpTo (6e-7 * tailEdge p + 1e-12) M.tris := by
  obtain ⟨t1, t2⟩ := thick_pos hp
  obtain ⟨h', M, c', g1, g2, g3⟩ := C105_fin_partial (rounded bisect01) ptan _ 0.01 6e-7 _ roundedBisect_finds (tail_uniform hp hT) (tail_found hp)
    n hn name H id hid
  refine ⟨h', h' id, g1, ReFEX.plain_pipeline g1 (by rw [hid]; simp [Fin.comp, Comp.children]) (by rw [hid]; rfl) (by rw [hid]; rfl)
    (by rw [hid]; rfl) (by rw [hid]; rfl), M, c', g2, closedUpTo_mono ?_ g3⟩
  have := hT.gap ((tailArgs p).fin_thickness / 2) 0.01 (by simp only [tailArgs]; linarith) (by simp only [tailArgs]; linarith) (by norm_num)
  unfold finGap tailEdge
  linarith

theorem trail_uniform (hp : D21Ok p) {ptan : ℝ → ℝ} (hT : FloatTan ptan) (angle : ℝ) :
    UniformFin ptan (trailArgs p angle) 0.01 ⟨0, 0, 0⟩ := by
  obtain ⟨t1, t2⟩ := thick_pos hp
  have h3 := hp.body
  have h4 := hp.span
  refine ⟨hT.like, t1, finTop_eq p, finBot_eq p, ?_, ?_, by norm_num, ?_, ?_, fun h => ?_, ?_⟩
  · intro hc; have := congrArg Vec.x hc; simp only [trailArgs, Vec.add_x, Vec.add_y] at this; linarith
  · intro hc; have := congrArg Vec.y hc; simp only [trailArgs, Vec.add_x, Vec.add_y] at this; linarith
  · exact hT.fits _ _ (by simp only [trailArgs]; rw [abs_of_pos (by linarith)]; linarith) (by norm_num)
  · intro t ht
    obtain ⟨w, hw, e⟩ := defaultWidth_mem t ht
    exact ⟨w, by linarith, e⟩
  · simp [trailArgs, b2, b1, b0]
  · simp only [OffsetBy, trailArgs]

theorem notSharp (p : Params) (angle : ℝ) : (trailArgs p angle).rudder_type ≠ "sharp" := by simp [trailArgs]

theorem trail_mesh (hp : D21Ok p) {ptan : ℝ → ℝ} (hT : FloatTan ptan) (angle : ℝ) (n : ℕ) (hn : 1 ≤ n) (name : Option String) (H : Heap) (id : ℕ)
    (hid : H id = Fin.comp (rounded bisect01) ptan (trailArgs p angle) n name) :
    ∃ g c, generatePatches H id = (.ok (), g) ∧ pipeline 0 (g id) = (.ok (), c) ∧ ∃ M c', c.mesh = (.ok M, c') ∧
      (2 ≤ n → ∀ ε : ℝ, 0 ≤ ε → 4 * ε < 0.45 * p.W_w / n → 2 * ε + 0.06 < 0.45 * p.W_w / n →
        2 * ε + 0.06 < (1.3 * (p.L_b - p.L_w) - 0.45 * p.W_w) / (2 * n) → 2 * ε < wing_thickness p → ¬ ClosedUpTo ε M.tris) := by
  have h3 := hp.body
  have h4 := hp.span
  obtain ⟨h', M, c', g1, g2⟩ := fin_end_mesh (rounded bisect01) roundedBisect_end (trail_uniform hp hT angle)
    (by simp [trailArgs]) (by simp only [trailArgs, Vec.add_x]; intro hc; linarith) (notSharp p angle) n hn name H id hid
  refine ⟨h', h' id, g1, ReFEX.plain_pipeline g1 (by rw [hid]; simp [Fin.comp, Comp.children]) (by rw [hid]; rfl) (by rw [hid]; rfl)
    (by rw [hid]; rfl) (by rw [hid]; rfl), M, c', g2, fun h2 ε hε k1 k2 k3 k4 => ?_⟩
  have hn0 : (0 : ℝ) < 2 * n := by positivity
  have hlong : 0.45 * p.W_w < 1.3 * (p.L_b - p.L_w) := by
    by_contra hc
    have := div_nonpos_of_nonpos_of_nonneg (a := 1.3 * (p.L_b - p.L_w) - 0.45 * p.W_w) (by linarith) hn0.le
    linarith
  obtain ⟨h'', M', c'', g1', g2', g3'⟩ := C105_rectangles_violated (rounded bisect01) roundedBisect_end ptan _ 0.01 _ (trail_uniform hp hT angle)
    (1.3 * (p.L_b - p.L_w)) (0.45 * p.W_w) 0.06
    ⟨rfl, rfl, rfl, by linarith, hlong, notSharp p angle, fun t ht d hd => defaultWidth_le t ht d hd⟩ n h2 ε hε k1 k2 k3 k4 name H id hid
  rw [g1] at g1'
  obtain rfl := (Prod.mk.inj g1').2
  rw [g2] at g2'
  obtain rfl := Except.ok.inj (Prod.mk.inj g2').1
  exact g3'

end D21
end HV
