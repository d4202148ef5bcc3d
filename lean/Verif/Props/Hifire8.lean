import Verif.Lemmas.Assembly
import Verif.Props.RevolvedComposite
import Verif.Props.FlatEdge
import Verif.Props.Finner
import Verif.Model.Hangar3

/-!
# Properties C109, C110, C111 for the HIFiRE 8
-/

namespace HV
open Spec Veh

namespace Spec

/-- Sensible dimensions: the nose cap, which is 0.15 wide at its tip, becomes narrower towards the tip. -/
structure HIFiRE8Ok (p : HIFiRE8.Params) : Prop where
  length : 0 < p.L
  base : 0 < p.R_base
  nose : 0.075 ≤ p.R_nose
  nozzle : 0 < p.nozzle_length

/-- The keyword arguments of the generator mean these dimensions. -/
structure HIFiRE8Args (kwargs : Dict String ℝ) (p : HIFiRE8.Params) : Prop where
  keys : kwargs.keys.Nodup
  L : given kwargs "L" 1.2 p.L
  R_base : given kwargs "R_base" 0.175 p.R_base
  R_nose : given kwargs "R_nose" 0.1 p.R_nose
  nozzle_length : given kwargs "nozzle_length" 0.1 p.nozzle_length

end Spec

namespace HIFiRE8
variable {p : Params}

/-- The slope of the fuselage. -/
noncomputable def sl (p : Params) : ℝ := Real.arctan ((p.R_base - p.R_nose) / p.L)

theorem slope_eq (hl : 0 < p.L) : slope p = .ok (sl p) := by
  unfold slope
  rw [pdiv_ok _ _ hl.ne', ok_bind]
  rfl

theorem radius_eq (p : Params) (x : ℝ) : radius p (sl p) x = p.R_base - x * ((p.R_base - p.R_nose) / p.L) := by
  unfold radius sl
  rw [Real.tan_arctan]

theorem radius_nose (hl : 0 < p.L) : radius p (sl p) p.L = p.R_nose := by
  rw [radius_eq, mul_div_cancel₀ _ hl.ne']
  ring

theorem leWidth_eq (r : ℝ) : leWidth r = .ok (0.01 * (1 - r) ^ 2 + 2 * 0.1 * r * (1 - r) + 0.01 * r ^ 2) := by
  unfold leWidth bezierY
  rw [X43.bezier3, ok_bind]; rfl

theorem leWidth_ge {r : ℝ} (h : r ∈ Set.Icc (0 : ℝ) 1) : 0.01 ≤ 0.01 * (1 - r) ^ 2 + 2 * 0.1 * r * (1 - r) + 0.01 * r ^ 2 := by
  nlinarith [h.1, h.2, mul_nonneg h.1 (sub_nonneg.2 h.2)]

/-! ## The fuselage -/

/-- The line of the fuselage from the nose to the nozzle. -/
noncomputable def fuse (p : Params) : List (V × V) :=
  [(⟨p.L, p.R_nose, 0⟩, ⟨0, p.R_base, 0⟩), (⟨0, p.R_base, 0⟩, ⟨-p.nozzle_length, p.R_base, 0⟩),
   (⟨-p.nozzle_length, p.R_base, 0⟩, ⟨-p.nozzle_length, 0, 0⟩)]

theorem fuseLine_eq (hl : 0 < p.L) : fuseLine p (sl p) = Polyline ((fuse p).map fun e => Line e.1 e.2) := by
  have h := radius_nose hl
  unfold radius at h
  unfold fuseLine fuse
  simp only [one_mul, h, zero_mul, sub_zero, List.map_cons, List.map_nil]

theorem baseLine_eq (hl : 0 < p.L) : baseLine p (sl p) = Line ⟨p.L, 0, 0⟩ ⟨p.L, p.R_nose, 0⟩ := by
  have h := radius_nose hl
  unfold radius at h
  unfold baseLine
  simp only [one_mul, h]

theorem fuse_line (hp : HIFiRE8Ok p) : ∃ P, fuseLine p (sl p) = .ok P ∧ (∀ t, P.call t = .ok (fnOf P t)) ∧
    fnOf P 0 = ⟨p.L, p.R_nose, 0⟩ ∧ fnOf P 1 = ⟨-p.nozzle_length, 0, 0⟩ ∧ RunsBack P ∧ ∀ t, 0 < t → t < 1 → 0 < (fnOf P t).y := by
  have h1 := hp.length
  have h2 := hp.base
  have h3 := hp.nose
  have h4 := hp.nozzle
  have hd : ∀ e ∈ fuse p, e.1 ≠ e.2 := by
    intro e he
    simp only [fuse, List.mem_cons, List.not_mem_nil, or_false] at he
    rcases he with rfl | rfl | rfl <;> intro hc
    · have := congrArg Vec.x hc; simp only at this; linarith
    · have := congrArg Vec.x hc; simp only at this; linarith
    · have := congrArg Vec.y hc; simp only at this; linarith
  have hg : ∀ s ∈ (fuse p).map fun e => Line e.1 e.2, GoodSeg s := by
    intro s hs
    obtain ⟨e, he, rfl⟩ := List.mem_map.1 hs
    exact goodLine _ _ (hd e he)
  obtain ⟨P, k1, k2, k3, k4, -⟩ := lines_edge (fuse p) (by simp [fuse]) hd (by
    intro i hi
    simp only [fuse, List.length_cons, List.length_nil] at hi
    obtain rfl | rfl : i = 0 ∨ i = 1 := by omega
    · rfl
    · rfl)
  refine ⟨P, by rw [fuseLine_eq hp.length]; exact k1, k2, k3, k4, ?_, ?_⟩
  · refine polyline_runsBack _ (by simp [fuse]) hg ?_ ?_ P k1
    · intro s hs
      obtain ⟨e, he, rfl⟩ := List.mem_map.1 hs
      refine runsBack_line _ _ ?_
      simp only [fuse, List.mem_cons, List.not_mem_nil, or_false] at he
      rcases he with rfl | rfl | rfl <;> simp only <;> linarith
    · intro i hi
      simp only [fuse, List.map_cons, List.map_nil, List.length_cons, List.length_nil] at hi
      obtain rfl | rfl : i = 0 ∨ i = 1 := by omega
      · simp [fuse, fnOf_line, lineAt]
      · simp [fuse, fnOf_line, lineAt]
  · intro t ht0 ht1
    refine polyline_inside _ (by simp [fuse]) hg (fun v => 0 < v.y) ?_ P k1 t ht0 ht1
    intro i hi t h0 h1'
    simp only [fuse, List.map_cons, List.map_nil, List.length_cons, List.length_nil] at hi
    have ht : t ≤ 1 := by rcases h1' with h | h <;> linarith [h]
    obtain rfl | rfl | rfl : i = 0 ∨ i = 1 ∨ i = 2 := by omega
    · simp only [fuse, List.map_cons, List.map_nil, List.getElem_cons_zero, fnOf_line, lineAt, Vec.add_y, Vec.mul_y]
      nlinarith
    · simp only [fuse, List.map_cons, List.map_nil, List.getElem_cons_zero, List.getElem_cons_succ, fnOf_line, lineAt, Vec.add_y, Vec.mul_y]
      nlinarith
    · rcases h1' with h | h
      · simp only [fuse, List.map_cons, List.map_nil, List.getElem_cons_zero, List.getElem_cons_succ, fnOf_line, lineAt, Vec.add_y, Vec.mul_y]
        nlinarith
      · simp [fuse] at h

/-- The fuselage as the generator leaves it. -/
def fuselageComp (ids : ℕ → ℕ) : Comp :=
  { componenttype := "composite", gen := .composite [ids 6, ids 7], stl_resolution := .int 8 }

theorem fuselage_heap (h : Heap) (ids : ℕ → ℕ) (hi : Function.Injective ids) (l0 l1 : PathObj) :
    ∃ h', Finner.addChildren (fuselageHeap h ids l0 l1) (ids 0) [ids 6, ids 7] = .ok h' ∧ h' (ids 0) = fuselageComp ids ∧
      h' (ids 6) = RevolvedComponent l0 ∧ h' (ids 7) = RevolvedComponent l1 := by
  unfold Finner.addChildren Finner.addChildren Finner.addChildren Composite.addComponent Composite.appendChild fuselageHeap
  have hty : ∀ L, (RevolvedComponent L).componenttype ∈ Composite.allowable := fun L => by simp [RevolvedComponent, Composite.allowable]
  have n06 : ids 0 ≠ ids 6 := hi.ne (by decide)
  have n07 : ids 0 ≠ ids 7 := hi.ne (by decide)
  have n67 : ids 6 ≠ ids 7 := hi.ne (by decide)
  simp only [upd_self, upd_ne _ _ _ _ n06, upd_ne _ _ _ _ n07, upd_ne _ _ _ _ n67, upd_ne _ _ _ _ n06.symm, upd_ne _ _ _ _ n07.symm,
    upd_ne _ _ _ _ n67.symm, hty, if_true]
  refine ⟨_, rfl, ?_, ?_, ?_⟩ <;>
    simp only [upd_self, upd_ne _ _ _ _ n06, upd_ne _ _ _ _ n07, upd_ne _ _ _ _ n67, upd_ne _ _ _ _ n06.symm, upd_ne _ _ _ _ n07.symm,
      upd_ne _ _ _ _ n67.symm] <;> rfl

/-- The fuselage generates; its mesh is closed and inside out. -/
theorem fuselage_mesh (hp : HIFiRE8Ok p) (h : Heap) (ids : ℕ → ℕ) (hi : Function.Injective ids) (P : PathObj) (hP : fuseLine p (sl p) = .ok P)
    (n : ℕ) (hn : 1 ≤ n) (name : Option String) (h0 : h (ids 0) = { fuselageComp ids with stl_resolution := .int n, name := name })
    (h6 : NewRevolved (h (ids 6)) P) (h7 : NewRevolved (h (ids 7)) (baseLine p (sl p))) :
    ∃ g c, generatePatches h (ids 0) = (.ok (), g) ∧ pipeline 0 (g (ids 0)) = (.ok (), c) ∧
      ∃ M c', c.mesh = (.ok M, c') ∧ Closed M.tris ∧ (2 ≤ n → signedVolume M.tris < 0) := by
  obtain ⟨P', k1, k2, k3, k4, k5, k6⟩ := fuse_line hp
  rw [hP] at k1
  obtain rfl := Except.ok.inj k1
  rw [baseLine_eq hp.length] at h7
  have hR : (0 : ℝ) < p.R_nose := by linarith [hp.nose]
  have hR' := hR.ne'
  obtain ⟨g, M, c, g1, g2, g3, g4⟩ := C104_any_order h (ids 0) [ids 6, ids 7] [P, Line ⟨p.L, 0, 0⟩ ⟨p.L, p.R_nose, 0⟩]
    [fnOf P, lineAt ⟨p.L, 0, 0⟩ ⟨p.L, p.R_nose, 0⟩] (by simp [hi.eq_iff]) (by simp [hi.eq_iff]) (by simp) (by rw [h0]; rfl)
    (.cons h6 (.cons h7 .nil)) (.cons (fun t _ _ => k2 t) (.cons (fun t _ _ => rfl) .nil)) n hn (by rw [h0]) (by rw [h0]; rfl) (by rw [h0]; rfl)
    (by rw [h0]; rfl) (by
      have e0 : lineAt (⟨p.L, 0, 0⟩ : V) ⟨p.L, p.R_nose, 0⟩ 0 = ⟨p.L, 0, 0⟩ := lineAt_zero _ _
      have e1 : lineAt (⟨p.L, 0, 0⟩ : V) ⟨p.L, p.R_nose, 0⟩ 1 = ⟨p.L, p.R_nose, 0⟩ := lineAt_one _ _
      simp [EndsMeet, e0, e1, k3, k4, hR', List.filter])
  obtain ⟨Pt, Rn, Sf, hopt⟩ := generatePatches_opts h (ids 0) (by rw [h0]; simp [Comp.children, fuselageComp, hi.eq_iff])
  rw [g1, h0] at hopt
  simp only at hopt
  refine ⟨g, g (ids 0), g1, pipeline_plain _ (by rw [hopt]; rfl) (by rw [hopt]; rfl) (by rw [hopt]; rfl) (by rw [hopt]; rfl), M, c, g2, g3, ?_⟩
  intro hn2
  rw [g4]
  unfold stackVolume
  have e : polygonalVolume (4 * n) n (fun i => (lineAt (⟨p.L, 0, 0⟩ : V) ⟨p.L, p.R_nose, 0⟩ ((i : ℝ) / n)).x)
      (fun i => ((lineAt (⟨p.L, 0, 0⟩ : V) ⟨p.L, p.R_nose, 0⟩ ((i : ℝ) / n)).y, (lineAt (⟨p.L, 0, 0⟩ : V) ⟨p.L, p.R_nose, 0⟩ ((i : ℝ) / n)).z)) = 0 := by
    unfold polygonalVolume
    have hx : ∀ t : ℝ, (lineAt (⟨p.L, 0, 0⟩ : V) ⟨p.L, p.R_nose, 0⟩ t).x = p.L := fun t => by simp only [lineAt, Vec.add_x, Vec.mul_x]; ring
    simp only [hx, sub_self, zero_mul, zero_div, Finset.sum_const_zero, mul_zero]
  simp only [List.map_cons, List.map_nil, List.sum_cons, List.sum_nil, add_zero, e]
  refine polygonalVolume_neg (fnOf P) k5 ?_ k6 n hn2
  rw [k3, k4]
  show -p.nozzle_length < p.L
  linarith [hp.length, hp.nozzle]

/-! ## The wing -/

theorem wing_smooth {ptan : ℝ → ℝ} (hT : FloatTan ptan) : ∃ a L wd, wingArgs = .ok a ∧
    SmoothWing ptan (fun _ _ => True) a L (fun _ _ => -0.02) (fun _ _ => 0.02) wd 1e-12 ∧
    a.t_B1 = none ∧ a.close_wing = false ∧ a.A0.y = 0 ∧ a.A1.y = 0 ∧ a.TT.y = 0 ∧ (L 0).x ≤ a.A1.x ∧ a.A1.x ≤ (L 1).x := by
  obtain ⟨P, h1, h2, h3, h4, -⟩ := lines_edge [((⟨0.2, 0.4, 0⟩ : V), (⟨0.2 + 0.1 * 1.3, 0.4, 0⟩ : V)),
      (⟨0.2 + 0.1 * 1.3, 0.4, 0⟩, ⟨0.2 + 0.5 * 1.3, 0.5 * 0.4, 0⟩), (⟨0.2 + 0.5 * 1.3, 0.5 * 0.4, 0⟩, ⟨0.2 + 1.3, 0.13 * 0.4, 0⟩),
      (⟨0.2 + 1.3, 0.13 * 0.4, 0⟩, ⟨0.2 + 1.3, 0, 0⟩)] (by simp)
    (by
      intro e he
      simp only [List.mem_cons, List.not_mem_nil, or_false] at he
      rcases he with rfl | rfl | rfl | rfl <;> intro hc
      · have := congrArg Vec.x hc; simp only at this; norm_num at this
      · have := congrArg Vec.x hc; simp only at this; norm_num at this
      · have := congrArg Vec.x hc; simp only at this; norm_num at this
      · have := congrArg Vec.y hc; simp only at this; norm_num at this)
    (by
      intro i hi
      simp only [List.length_cons, List.length_nil] at hi
      obtain rfl | rfl | rfl : i = 0 ∨ i = 1 ∨ i = 2 := by omega
      · rfl
      · rfl
      · rfl)
  simp only [List.map_cons, List.map_nil] at h1
  simp only [List.head_cons, List.getLast_cons, List.getLast_singleton, ne_eq, reduceCtorEq, not_false_eq_true, List.cons_ne_nil] at h3 h4
  refine ⟨{ A0 := ⟨0.2, 0, 0⟩, A1 := ⟨0.2 + 0.5 * 1.3, 0, 0⟩, TT := ⟨0.2 + 1.3, 0, 0⟩, B0 := ⟨0.2, 0.4, 0⟩, line := P,
            top_tf := uniformThickness 0.04 "top", bot_tf := uniformThickness 0.04 "bot", LE_wf := some leWidth, flap_length := 0.2 },
    fnOf P, fun r => 0.01 * (1 - r) ^ 2 + 2 * 0.1 * r * (1 - r) + 0.01 * r ^ 2,
    by unfold wingArgs; simp only; rw [h1, ok_bind]; rfl,
    ⟨hT.like, lower_bezier, X43.up_custom, rfl, .inl rfl, h2, h3, h4,
     fun x y z _ => by simp [uniformThickness]; norm_num, fun x y z _ => by simp [uniformThickness]; norm_num, liesOver_univ _ _ _, .inl rfl,
     fun t _ => leWidth_eq t, ?_, ?_, ?_, ?_⟩, rfl, rfl, rfl, rfl, rfl, ?_, ?_⟩
  · intro t ht; norm_num
  · intro t ht; linarith [leWidth_ge ht]
  · intro t ht
    exact hT.fits _ _ (by norm_num) (by linarith [leWidth_ge ht])
  · intro t ht
    exact hT.gap _ _ (by norm_num) (by norm_num) (by linarith [leWidth_ge ht])
  · rw [h3]; norm_num
  · rw [h4]; norm_num

/-! ## The fins -/

theorem fin_uniform {ptan : ℝ → ℝ} (hT : FloatTan ptan) (s k angle : ℝ) (hk : k = 1 ∨ k = 0.5) :
    UniformFin ptan (finArgs p s k angle) 0.01 ⟨0, 0, 0⟩ ∧ BreakFound (finArgs p s k angle) := by
  have e : (finArgs p s k angle).fin_thickness = 0.008 := by simp only [finArgs, fin_thickness, fin_length]; norm_num
  refine ⟨⟨hT.like, by rw [e]; norm_num, rfl, rfl, ?_, ?_, by norm_num, ?_, ?_, fun _ => ?_, ?_⟩, ?_⟩
  · intro hc
    have := congrArg Vec.x hc
    simp only [finArgs, p1, p2, fin_length, Vec.mul_x] at this
    rcases hk with rfl | rfl <;> norm_num at this
  · intro hc
    have := congrArg Vec.x hc
    simp only [finArgs, p2, p3, fin_length, Vec.mul_x] at this
    rcases hk with rfl | rfl <;> norm_num at this
  · rw [e]
    exact hT.fits _ _ (by rw [abs_of_pos] <;> norm_num) (by norm_num)
  · intro t ht
    exact ⟨_, leWidth_ge ht, leWidth_eq t⟩
  · simp [finArgs, p1]
  · simp only [OffsetBy, finArgs]
  · simp only [BreakFound, finArgs, p1, p2, p3, fin_length, Vec.mul_x]
    rcases hk with rfl | rfl <;> norm_num

/-- The length of the leading edge of a fin. -/
noncomputable def finEdge (p : Params) (k : ℝ) : ℝ := brokenLength (p1 p (sl p) * k) (p2 p (sl p) * k) (p3 p (sl p))

theorem fin_mesh {ptan : ℝ → ℝ} (hT : FloatTan ptan) (k angle : ℝ) (hk : k = 1 ∨ k = 0.5) (n : ℕ) (hn : 1 ≤ n)
    (name : Option String) (H : Heap) (id : ℕ) (hid : H id = Fin.comp (rounded bisect01) ptan (finArgs p (sl p) k angle) n name) :
    ∃ g c, generatePatches H id = (.ok (), g) ∧ pipeline 0 (g id) = (.ok (), c) ∧
      ∃ M c', c.mesh = (.ok M, c') ∧ GapFree (6e-7 * finEdge p k + 1e-12) M.tris := by
  obtain ⟨hu, hb⟩ := fin_uniform (p := p) hT (sl p) k angle hk
  obtain ⟨h', M, c', g1, g2, g3⟩ := C105_fin_partial (rounded bisect01) ptan _ 0.01 6e-7 _ roundedBisect_finds hu hb n hn name H id hid
  obtain ⟨P, R, S, hopt⟩ := generatePatches_opts H id (by rw [hid]; simp [Comp.children, Fin.comp])
  rw [g1, hid] at hopt
  simp only at hopt
  refine ⟨h', h' id, g1, pipeline_plain _ (by rw [hopt]; rfl) (by rw [hopt]; rfl) (by rw [hopt]; rfl) (by rw [hopt]; rfl), M, c', g2,
    (closedUpTo_mono ?_ g3).watertight⟩
  have e : (finArgs p (sl p) k angle).fin_thickness = 0.008 := by simp only [finArgs, fin_thickness, fin_length]; norm_num
  have := hT.gap ((finArgs p (sl p) k angle).fin_thickness / 2) 0.01 (by rw [e]; norm_num) (by rw [e]; norm_num) (by norm_num)
  unfold finGap
  show finEdge p k * 6e-7 + _ ≤ _
  linarith

/-! ## The nose -/

/-- Height of the nose. -/
noncomputable def noseH (p : Params) (x y : ℝ) : ℝ :=
  (1 - (1 / L_n) * (x - p.L)) * Real.sqrt (p.R_nose ^ 2 - y ^ 2) + (1 - (1 - (1 / L_n) * (x - p.L))) * t_n

theorem noseTf_eq (sgn x y z : ℝ) (h0 : 0 ≤ y) (h1 : y ≤ p.R_nose) : noseTf p p.R_nose sgn x y z = .ok ⟨0, 0, sgn * noseH p x y⟩ := by
  unfold noseTf noseH psqrt
  simp only
  rw [if_neg (by nlinarith), ok_bind]
  rfl

theorem noseH_pos {x y : ℝ} (h0 : p.L ≤ x) (h1 : x ≤ p.L + 0.5) (h2 : 0 ≤ y) (h3 : y < p.R_nose ∨ p.L < x) : 0 < noseH p x y := by
  unfold noseH L_n t_n
  have hs := Real.sqrt_nonneg (p.R_nose ^ 2 - y ^ 2)
  have e : (1 / 0.5 : ℝ) = 2 := by norm_num
  rw [e]
  rcases h0.lt_or_eq with h | rfl
  · have : 0 ≤ (1 - 2 * (x - p.L)) * Real.sqrt (p.R_nose ^ 2 - y ^ 2) := mul_nonneg (by linarith) hs
    linarith
  · rcases h3 with h | h
    · have : 0 < Real.sqrt (p.R_nose ^ 2 - y ^ 2) := Real.sqrt_pos.2 (by nlinarith)
      simpa using this
    · exact absurd h (lt_irrefl _)

/-- The leading edge of the nose. -/
noncomputable def noseEdge (p : Params) : List (V × V) :=
  [(⟨p.L, p.R_nose, 0⟩, ⟨p.L + 0.5 * 0.5, p.R_nose - 0.5 * (p.R_nose - 0.075), 0⟩),
   (⟨p.L + 0.5 * 0.5, p.R_nose - 0.5 * (p.R_nose - 0.075), 0⟩, ⟨p.L + 0.5, 0.075, 0⟩), (⟨p.L + 0.5, 0.075, 0⟩, ⟨p.L + 0.5, 0, 0⟩)]

theorem upper_FLAT : "FLAT".toUpper = "FLAT" := by
  rw [String.toUpper, ← String.toList_inj, String.toList_map]; decide

/-- The arguments of the nose. -/
noncomputable def noseOf (p : Params) (P : PathObj) : Wing.Args where
  A0 := ⟨p.L, 0, 0⟩
  A1 := ⟨p.L + 0.5 * 0.5, 0, 0⟩
  TT := ⟨p.L + 0.5, 0, 0⟩
  B0 := ⟨p.L, p.R_nose, 0⟩
  line := P
  top_tf := noseTf p p.R_nose (-1)
  bot_tf := noseTf p p.R_nose 1
  LE_wf := some leWidth
  LE_type := "FLAT"

theorem nose_flat (hp : HIFiRE8Ok p) : ∃ a L, noseArgs p (sl p) = .ok a ∧
    FlatWing (fun x y => (p.L ≤ x ∧ x ≤ p.L + 0.5 ∧ 0 ≤ y) ∧ y ≤ p.R_nose) a L (fun x y => -1 * noseH p x y) (fun x y => 1 * noseH p x y) 0 ∧
    a.t_B1 = none ∧ a.t_B2 = none ∧ (∀ t ∈ Set.Icc (0 : ℝ) 1, 0 ≤ (L t).y) ∧
    ∃ w, Wing.init (rounded bisect01) a = .ok w ∧ 0 ≤ w.t_B1 ∧ w.t_B1 < 1 ∧ 0 < (L w.t_B1).y ∧ 0 < noseH p (L w.t_B1).x (L w.t_B1).y ∧
      ∀ t, w.t_B1 < t → t ≤ 1 → ¬ Above (L w.t_B1) (L t) := by
  have hl := hp.length
  have hn := hp.nose
  have hd : ∀ e ∈ noseEdge p, e.1 ≠ e.2 := by
    intro e he
    simp only [noseEdge, List.mem_cons, List.not_mem_nil, or_false] at he
    rcases he with rfl | rfl | rfl <;> intro hc
    · have := congrArg Vec.x hc; simp only at this; linarith
    · have := congrArg Vec.x hc; simp only at this; linarith
    · have := congrArg Vec.y hc; simp only at this; linarith
  have hj : ∀ (i : ℕ) (hi : i + 1 < (noseEdge p).length), ((noseEdge p)[i]'(by omega)).2 = ((noseEdge p)[i + 1]).1 := by
    intro i hi
    simp only [noseEdge, List.length_cons, List.length_nil] at hi
    obtain rfl | rfl : i = 0 ∨ i = 1 := by omega
    · rfl
    · rfl
  have hne : noseEdge p ≠ [] := by simp [noseEdge]
  obtain ⟨P, h1, h2, h3, h4, h5, h6, h7⟩ := lines_edge (noseEdge p) hne hd hj
  obtain ⟨hc, hst⟩ := lines_strict (noseEdge p) hne hd hj P h1
  obtain ⟨P', q1, -, -, -, hact⟩ := goodPolyline ((noseEdge p).map fun e => Line e.1 e.2) (by simp [noseEdge]) (by
    intro s hs
    obtain ⟨e, he, rfl⟩ := List.mem_map.1 hs
    exact goodLine _ _ (hd e he))
  rw [h1] at q1
  obtain rfl := Except.ok.inj q1
  have hm : MonoEdge (fnOf P) := by
    refine ⟨h6 ?_, h7 ?_⟩ <;>
    · intro e he
      simp only [noseEdge, List.mem_cons, List.not_mem_nil, or_false] at he
      rcases he with rfl | rfl | rfl <;> simp only <;> linarith
  have hst' := hst (by
    intro e he
    simp only [noseEdge, List.mem_cons, List.not_mem_nil, or_false] at he
    rcases he with rfl | rfl | rfl <;> simp only <;> linarith)
  have h30 : fnOf P 0 = ⟨p.L, p.R_nose, 0⟩ := h3
  have h41 : fnOf P 1 = ⟨p.L + 0.5, 0, 0⟩ := h4
  have o01 : (1 : ℝ) ∈ Set.Icc (0 : ℝ) 1 := by simp
  have z01 : (0 : ℝ) ∈ Set.Icc (0 : ℝ) 1 := by simp
  have hy : ∀ t ∈ Set.Icc (0 : ℝ) 1, 0 ≤ (fnOf P t).y := fun t ht => by
    have := hm.inw t ht 1 o01 ht.2; rw [h41] at this; exact this
  set a : Wing.Args := (noseOf p P) with ha
  have hA : noseArgs p (sl p) = .ok a := by
    unfold noseArgs
    simp only [radius_nose hp.length]
    rw [pdiv_ok _ _ (by unfold L_n; norm_num), ok_bind]
    simp only [noseEdge, List.map_cons, List.map_nil] at h1
    have e1 : p.R_nose - (p.L + 0.5 * L_n - p.L) * Real.tan (Real.arctan ((p.R_nose - 0.5 * w_n) / L_n)) = p.R_nose - 0.5 * (p.R_nose - 0.075) := by
      rw [Real.tan_arctan]; unfold L_n w_n; norm_num; ring
    have e2 : (0.5 * w_n : ℝ) = 0.075 := by unfold w_n; norm_num
    rw [e1, e2]
    show (do let line ← Polyline [Line ⟨p.L, p.R_nose, 0⟩ ⟨p.L + 0.5 * 0.5, p.R_nose - 0.5 * (p.R_nose - 0.075), 0⟩, Line ⟨p.L + 0.5 * 0.5, p.R_nose - 0.5 * (p.R_nose - 0.075), 0⟩ ⟨p.L + 0.5, 0.075, 0⟩, Line ⟨p.L + 0.5, 0.075, 0⟩ ⟨p.L + 0.5, 0, 0⟩]; _) = _
    rw [h1, ok_bind]
    rfl
  obtain ⟨w, w1, w2, r, hr, hrx, hrd⟩ := wing_break_near a rfl (fnOf P) h2 hc (by rw [h30, ha]; simp only [noseOf]; linarith) (by rw [h41, ha]; simp only [noseOf]; linarith)
  have hr2 : 0.4 ≤ r ∧ r ≤ 1 / 2 := by
    obtain ⟨i, hi, u, hu, hu0, -, hue, hf⟩ := hact r hr
    rw [hf] at hrx
    simp only [noseEdge, List.map_cons, List.map_nil, List.length_cons, List.length_nil] at hi
    obtain rfl | rfl | rfl : i = 0 ∨ i = 1 ∨ i = 2 := by omega
    · have hu1 : u = 1 := by
        simp only [noseEdge, List.map_cons, List.map_nil, List.getElem_cons_zero, fnOf_line, lineAt, Vec.add_x, Vec.mul_x, ha, noseOf] at hrx
        linarith
      rw [hu1, Polyline.bp_zero, sub_zero, sub_zero, eq_comm] at hue
      have hre : r = bp lenOf ((noseEdge p).map fun e => Line e.1 e.2) (0 + 1) := (div_eq_one_iff_eq (by
        intro h0; rw [h0, div_zero] at hue; norm_num at hue)).1 hue
      have hlen : ∀ a b : V, lenOf (Line a b) = (b - a).abs := fun _ _ => rfl
      have d3 : ((⟨p.L + 0.5, 0, 0⟩ : V) - ⟨p.L + 0.5, 0.075, 0⟩).abs = 0.075 := by
        simp only [Vec.abs, Vec.sub_x, Vec.sub_y, Vec.sub_z]
        rw [show (p.L + 0.5 - (p.L + 0.5)) ^ 2 + (0 - 0.075) ^ 2 + (0 - 0 : ℝ) ^ 2 = 0.075 ^ 2 by ring, Real.sqrt_sq (by norm_num)]
      have d2 : ((⟨p.L + 0.5, 0.075, 0⟩ : V) - ⟨p.L + 0.5 * 0.5, p.R_nose - 0.5 * (p.R_nose - 0.075), 0⟩).abs =
          ((⟨p.L + 0.5 * 0.5, p.R_nose - 0.5 * (p.R_nose - 0.075), 0⟩ : V) - ⟨p.L, p.R_nose, 0⟩).abs := by
        simp only [Vec.abs, Vec.sub_x, Vec.sub_y, Vec.sub_z]
        congr 1; ring
      have d1 : 0.25 ≤ ((⟨p.L + 0.5 * 0.5, p.R_nose - 0.5 * (p.R_nose - 0.075), 0⟩ : V) - ⟨p.L, p.R_nose, 0⟩).abs := by
        simp only [Vec.abs, Vec.sub_x, Vec.sub_y, Vec.sub_z]
        refine Real.le_sqrt_of_sq_le ?_
        nlinarith [sq_nonneg (0.5 * (p.R_nose - 0.075))]
      rw [hre]
      simp only [bp, noseEdge, List.map_cons, List.map_nil, zero_add, List.take_succ_cons, List.take_zero, List.sum_cons, List.sum_nil, add_zero, hlen, d3, d2]
      set d := ((⟨p.L + 0.5 * 0.5, p.R_nose - 0.5 * (p.R_nose - 0.075), 0⟩ : V) - ⟨p.L, p.R_nose, 0⟩).abs
      constructor
      · rw [le_div_iff₀ (by linarith)]; linarith
      · rw [div_le_iff₀ (by linarith)]; linarith
    · exfalso
      have := hu0 (by norm_num)
      simp only [noseEdge, List.map_cons, List.map_nil, List.getElem_cons_zero, List.getElem_cons_succ, fnOf_line, lineAt, Vec.add_x, Vec.mul_x, ha, noseOf] at hrx
      nlinarith
    · exfalso
      simp only [noseEdge, List.map_cons, List.map_nil, List.getElem_cons_zero, List.getElem_cons_succ, fnOf_line, lineAt, Vec.add_x, Vec.mul_x, ha, noseOf] at hrx
      nlinarith
  have hlt : w.t_B1 < 1 := by have := (abs_le.1 hrd).2; norm_num at this; linarith
  have hxlt : ∀ t, w.t_B1 < t → t ≤ 1 → ¬ Above (fnOf P w.t_B1) (fnOf P t) := by
    rintro t ht ht1 ⟨k1, k2⟩
    have := hst' _ w2 t ⟨w2.1.trans ht.le, ht1⟩ ht
    rw [k1, k2] at this
    exact lt_irrefl _ this
  have hypos : 0 < (fnOf P w.t_B1).y := by
    refine lt_of_le_of_ne (hy _ w2) fun h0 => ?_
    have hs := hst' _ w2 1 o01 hlt
    obtain ⟨e, he, u, hu, hf⟩ := h5 _ w2
    rw [h41, ← h0, hf] at hs
    rw [hf] at h0
    simp only [noseEdge, List.mem_cons, List.not_mem_nil, or_false] at he
    rcases he with rfl | rfl | rfl <;> simp only [lineAt, Vec.add_x, Vec.mul_x, Vec.add_y, Vec.mul_y] at h0 hs
    · nlinarith [hu.1, hu.2]
    · nlinarith [hu.1, hu.2]
    · nlinarith [hu.1, hu.2]
  refine ⟨a, fnOf P, hA, ⟨lower_bezier, upper_FLAT, rfl, h2, h30, h41, fun x y z hD => noseTf_eq _ x y z hD.1.2.2 hD.2,
    fun x y z hD => noseTf_eq _ x y z hD.1.2.2 hD.2, ?_, rfl, rfl, rfl, rfl⟩, rfl, rfl, hy, w, w1, w2.1, hlt, hypos, ?_, hxlt⟩
  · refine (liesOver_box hm p.L (p.L + 0.5) (by rw [h30]) (by rw [h41]) ?_ ?_ le_rfl le_rfl (by rw [h41])).and
      (liesOver_low hm rfl rfl (by rw [h41]) p.R_nose (by rw [h30]))
    · rw [ha]; constructor <;> simp only [noseOf] <;> linarith
    · rw [ha]; constructor <;> simp only [noseOf] <;> linarith
  · have k0 := hm.fwd 0 z01 _ w2 w2.1
    have k1 := hm.fwd _ w2 1 o01 w2.2
    rw [h30] at k0
    rw [h41] at k1
    refine noseH_pos k0 k1 hypos.le ?_
    by_contra hcon
    push Not at hcon
    have k2 := hm.inw 0 z01 _ w2 w2.1
    rw [h30] at k2
    have hz : w.t_B1 = 0 := by
      by_contra hz
      have := hst' 0 z01 _ w2 (lt_of_le_of_ne w2.1 (Ne.symm hz))
      rw [h30] at this
      simp only at this
      linarith [hcon.1, hcon.2]
    have := (abs_le.1 hrd).1
    rw [hz] at this
    norm_num at this
    linarith [hr2.1]

/-- The nose, added with its reflection, generates; one half of it has edges without a partner away from the plane of symmetry. -/
theorem nose_mesh (hp : HIFiRE8Ok p) (ptan : ℝ → ℝ) : ∃ a w, noseArgs p (sl p) = .ok a ∧ Wing.init (rounded bisect01) a = .ok w ∧
    ∀ (n : ℕ) (_ : 1 ≤ n) (name : Option String) (H : Heap) (id : ℕ) (_ : H id = wingOf ptan w n name (some "y")),
      ∃ g c, generatePatches H id = (.ok (), g) ∧ pipeline 0 (g id) = (.ok (), c) ∧
        ∃ M c' F, c.mesh = (.ok M, c') ∧ M.tris = F ++ mapVerts (mirrorV 1) F ∧
          (∃ u v, edgeCount (edges F) u v ≠ edgeCount (edges F) v u ∧ 0 < u.y ∧ 0 < v.y) ∧ ¬ Closed (F ++ mirrorMesh F) := by
  obtain ⟨a, L, h1, h2, h3, h4, h5, w, h6, h7, h8, h9, h10, h11⟩ := nose_flat hp
  refine ⟨a, w, h1, h6, fun n hn name H id hid => ?_⟩
  obtain ⟨h', M, c', g1, g2, ⟨u, v, g3, g4, g5⟩, g6⟩ := C110_overlap_violated (rounded bisect01) ptan _ a w L _ _ 0 h6 h2 h4 h7 h8 h9.ne'
    (by linarith) h11 n hn none (fun _ => Wing.comp ptan w n none) 0 rfl
  obtain ⟨g, c, M', c'', b1, b2, b3, b4⟩ := reflected_wing ptan w n hn h' M c' g1 g2 H id name hid
  exact ⟨g, c, b1, b2, M', c'', M.tris, b3, b4, ⟨u, v, g3, by rw [g4.2]; exact h9, by rw [g5.2]; exact h9⟩,
    g6 rfl fun t ht ht1 => h5 t ⟨h7.trans ht, ht1⟩⟩

end HIFiRE8

/-! ## The vehicle -/

theorem hifire8_params (kwargs : Dict String ℝ) (p : HIFiRE8.Params) (ha : HIFiRE8Args kwargs p) :
    HIFiRE8.Params.of (Generator.init HIFiRE8.defaults kwargs) = .ok p := by
  unfold HIFiRE8.Params.of
  have k := fun (s : String) (d v : ℝ) (h : given kwargs s d v) (e : HIFiRE8.defaults.get? s = some d) =>
    given_get' (dflts := HIFiRE8.defaults) ha.keys h e
  rw [k _ _ _ ha.R_base rfl, ok_bind, k _ _ _ ha.R_nose rfl, ok_bind, k _ _ _ ha.L rfl, ok_bind, k _ _ _ ha.nozzle_length rfl, ok_bind]
  rfl

open HIFiRE8 in
theorem hifire8_instance (ptan : ℝ → ℝ) (h : Heap) (ids : ℕ → ℕ) (hi : Function.Injective ids) (kwargs : Dict String ℝ) (p : HIFiRE8.Params)
    (ha : HIFiRE8Args kwargs p) (hl : 0 < p.L) (P : PathObj) (a1 a2 : Wing.Args) (w1 w2 : Wing.State)
    (eP : fuseLine p (sl p) = .ok P) (e1 : wingArgs = .ok a1) (e2 : noseArgs p (sl p) = .ok a2)
    (i1 : Wing.init (rounded bisect01) a1 = .ok w1) (i2 : Wing.init (rounded bisect01) a2 = .ok w2) :
    ∃ st cs en, HIFiRE8.instanceOf bisect01 ptan h ids kwargs = .ok st ∧
      st.veh = { name := "HIFiRE-8", verbosity := 1, components := (List.range 6).map ids,
                 named := ["fuselage", "wing", "nose", "fin1", "fin2", "fin3"].zip ((List.range 6).map ids), counts := cs, enumerated := en } ∧
      (∃ nm, st.heap (ids 0) = { HIFiRE8.fuselageComp ids with stl_resolution := .int 8, name := nm }) ∧
      (∃ nm, st.heap (ids 1) = wingOf ptan w1 4 nm (some "y")) ∧ (∃ nm, st.heap (ids 2) = wingOf ptan w2 4 nm (some "y")) ∧
      (∃ nm, st.heap (ids 3) = Fin.comp (rounded bisect01) ptan (finArgs p (sl p) 1 (deg2rad (90 - 45))) 3 nm) ∧
      (∃ nm, st.heap (ids 4) = Fin.comp (rounded bisect01) ptan (finArgs p (sl p) 1 (deg2rad (90 - 45) + deg2rad 90)) 3 nm) ∧
      (∃ nm, st.heap (ids 5) = Fin.comp (rounded bisect01) ptan (finArgs p (sl p) 0.5 (deg2rad (-90))) 3 nm) ∧
      st.heap (ids 6) = RevolvedComponent P ∧ st.heap (ids 7) = RevolvedComponent (baseLine p (sl p)) := by
  unfold HIFiRE8.instanceOf HIFiRE8.createInstance
  obtain ⟨h', k0, k1, k2, k3⟩ := fuselage_heap h ids hi P (baseLine p (sl p))
  rw [hifire8_params kwargs p ha, ok_bind, slope_eq hl, ok_bind, eP, ok_bind, k0, ok_bind, e1, ok_bind, i1, ok_bind, e2, ok_bind, i2, ok_bind]
  simp only
  set H : Heap := ((((h'.upd (ids 1) (Wing.comp ptan w1 4)).upd (ids 2) (Wing.comp ptan w2 4)).upd (ids 3)
    (Fin.comp (rounded bisect01) ptan (finArgs p (sl p) 1 (deg2rad (90 - 45))) 3)).upd (ids 4)
    (Fin.comp (rounded bisect01) ptan (finArgs p (sl p) 1 (deg2rad (90 - 45) + deg2rad 90)) 3)).upd (ids 5)
    (Fin.comp (rounded bisect01) ptan (finArgs p (sl p) 0.5 (deg2rad (-90))) 3) with hH
  have f0 : H (ids 0) = HIFiRE8.fuselageComp ids := by simp [hH, Heap.upd, hi.eq_iff, k1]
  have f1 : H (ids 1) = Wing.comp ptan w1 4 := by simp only [hH, Heap.upd, hi.eq_iff]; rfl
  have f2 : H (ids 2) = Wing.comp ptan w2 4 := by simp only [hH, Heap.upd, hi.eq_iff]; rfl
  have f3 : H (ids 3) = Fin.comp (rounded bisect01) ptan (finArgs p (sl p) 1 (deg2rad (90 - 45))) 3 := by simp only [hH, Heap.upd, hi.eq_iff]; rfl
  have f4 : H (ids 4) = Fin.comp (rounded bisect01) ptan (finArgs p (sl p) 1 (deg2rad (90 - 45) + deg2rad 90)) 3 := by simp only [hH, Heap.upd, hi.eq_iff]; rfl
  have f5 : H (ids 5) = Fin.comp (rounded bisect01) ptan (finArgs p (sl p) 0.5 (deg2rad (-90))) 3 := by simp only [hH, Heap.upd, hi.eq_iff]; rfl
  have f6 : H (ids 6) = RevolvedComponent P := by simp only [hH, Heap.upd, hi.eq_iff]; exact k2
  have f7 : H (ids 7) = RevolvedComponent (baseLine p (sl p)) := by simp only [hH, Heap.upd, hi.eq_iff]; exact k3
  obtain ⟨st, b1, b2, b3, b4⟩ := addAll_spec ⟨H, ({} : Veh).configure (some "HIFiRE-8") 1⟩ (HIFiRE8.parts ids)
    (by simp [HIFiRE8.parts, hi.eq_iff])
    (by
      intro e he
      simp only [HIFiRE8.parts, List.mem_cons, List.not_mem_nil, or_false] at he
      rcases he with rfl | rfl | rfl | rfl | rfl | rfl
      · simp only [f0, HIFiRE8.fuselageComp, Veh.allowable]; decide
      · simp only [f1, Wing.comp, Veh.allowable]; decide
      · simp only [f2, Wing.comp, Veh.allowable]; decide
      · simp only [f3, Fin.comp, Veh.allowable]; decide
      · simp only [f4, Fin.comp, Veh.allowable]; decide
      · simp only [f5, Fin.comp, Veh.allowable]; decide)
  obtain ⟨cs, en, rec⟩ := recorded H (HIFiRE8.parts ids) ["fuselage", "wing", "nose", "fin1", "fin2", "fin3"] rfl (by decide)
    (({} : Veh).configure (some "HIFiRE-8") 1) (by simp [Veh.configure, Dict.keys])
  refine ⟨st, cs, en, b1, by rw [b2, rec]; rfl, ⟨(st.heap (ids 0)).name, ?_⟩, ⟨(st.heap (ids 1)).name, ?_⟩, ⟨(st.heap (ids 2)).name, ?_⟩,
    ⟨(st.heap (ids 3)).name, ?_⟩, ⟨(st.heap (ids 4)).name, ?_⟩, ⟨(st.heap (ids 5)).name, ?_⟩, ?_, ?_⟩
  · rw [b3 (ids 0, { name := some "fuselage" }) (by simp [HIFiRE8.parts])]
    simp only [f0]; rfl
  · rw [b3 (ids 1, { reflection_axis := some "y", name := some "wing" }) (by simp [HIFiRE8.parts])]
    simp only [f1]; rfl
  · rw [b3 (ids 2, { reflection_axis := some "y", name := some "nose" }) (by simp [HIFiRE8.parts])]
    simp only [f2]; rfl
  · rw [b3 (ids 3, { name := some "fin1" }) (by simp [HIFiRE8.parts])]
    simp only [f3]; rfl
  · rw [b3 (ids 4, { name := some "fin2" }) (by simp [HIFiRE8.parts])]
    simp only [f4]; rfl
  · rw [b3 (ids 5, { name := some "fin3" }) (by simp [HIFiRE8.parts])]
    simp only [f5]; rfl
  · rw [b4 (ids 6) (by simp [HIFiRE8.parts, hi.eq_iff])]; exact f6
  · rw [b4 (ids 7) (by simp [HIFiRE8.parts, hi.eq_iff])]; exact f7

/-- What is known of the components of a generated HIFiRE 8. -/
structure HIFiRE8.Meshes (p : HIFiRE8.Params) (ids : ℕ → ℕ) (st0 st' : VState) : Prop where
  fuselage : ∃ M c', (st'.heap (ids 0)).mesh = (.ok M, c') ∧ Closed M.tris ∧
    ∀ n : ℕ, (st0.heap (ids 0)).stl_resolution = .int n → 2 ≤ n → signedVolume M.tris < 0
  wing : ∃ M c' F, (st'.heap (ids 1)).mesh = (.ok M, c') ∧ GapFree 1e-12 M.tris ∧ M.tris = F ++ mapVerts (mirrorV 1) F
  nose : ∃ M c' F, (st'.heap (ids 2)).mesh = (.ok M, c') ∧ M.tris = F ++ mapVerts (mirrorV 1) F ∧
    (∃ u v, edgeCount (edges F) u v ≠ edgeCount (edges F) v u ∧ 0 < u.y ∧ 0 < v.y) ∧ ¬ Closed (F ++ mirrorMesh F)
  fin1 : ∃ M c', (st'.heap (ids 3)).mesh = (.ok M, c') ∧ GapFree (6e-7 * HIFiRE8.finEdge p 1 + 1e-12) M.tris
  fin2 : ∃ M c', (st'.heap (ids 4)).mesh = (.ok M, c') ∧ GapFree (6e-7 * HIFiRE8.finEdge p 1 + 1e-12) M.tris
  fin3 : ∃ M c', (st'.heap (ids 5)).mesh = (.ok M, c') ∧ GapFree (6e-7 * HIFiRE8.finEdge p 0.5 + 1e-12) M.tris

open HIFiRE8 in
theorem hifire8_meshes (ptan : ℝ → ℝ) (hT : FloatTan ptan) (h : Heap) (ids : ℕ → ℕ) (hi : Function.Injective ids) (kwargs : Dict String ℝ)
    (p : HIFiRE8.Params) (ha : HIFiRE8Args kwargs p) (hp : HIFiRE8Ok p) :
    ∃ st, HIFiRE8.instanceOf bisect01 ptan h ids kwargs = .ok st ∧ st.veh.components = (List.range 6).map ids ∧
      st.veh.named = ["fuselage", "wing", "nose", "fin1", "fin2", "fin3"].zip ((List.range 6).map ids) ∧
      (st.heap (ids 0)).stl_resolution = .int 8 ∧
      ∀ st0 lib depth, Rescaled st st0 → ∃ st', generate lib depth st0 = (.ok (), st') ∧ st'.veh = { st.veh with generated := true } ∧
        HIFiRE8.Meshes p ids st0 st' := by
  obtain ⟨P, q1, -⟩ := fuse_line hp
  obtain ⟨a1, L1, wd1, e1, s1, t1, c1, y10, y11, y1T, l1, l1'⟩ := wing_smooth hT
  obtain ⟨w1, i1, m1⟩ := wing_break a1 t1 L1 s1.line l1 l1'
  obtain ⟨a2, w2, e2, i2, hnose⟩ := nose_mesh hp ptan
  obtain ⟨st, cs, en, b1, b2, ⟨x0, f0⟩, ⟨x1, f1⟩, ⟨x2, f2⟩, ⟨x3, f3⟩, ⟨x4, f4⟩, ⟨x5, f5⟩, f6, f7⟩ :=
    hifire8_instance ptan h ids hi kwargs p ha hp.length P a1 a2 w1 w2 q1 e1 e2 i1 i2
  refine ⟨st, b1, by rw [b2], by rw [b2], by rw [f0], fun st0 lib depth hr => ?_⟩
  obtain ⟨n0, q0, r0⟩ : ∃ n : ℕ, 1 ≤ n ∧ st0.heap (ids 0) = { HIFiRE8.fuselageComp ids with stl_resolution := .int n, name := x0 } := by
    rcases hr.2 (ids 0) with h | ⟨m, hm, h⟩
    · exact ⟨8, by norm_num, by rw [h, f0]⟩
    · exact ⟨m, hm, by rw [h, f0]⟩
  obtain ⟨n1, q1', r1⟩ := hr.wing (by norm_num) f1
  obtain ⟨n2, q2, r2⟩ := hr.wing (by norm_num) f2
  have hfin : ∀ k a nm, st.heap k = Fin.comp (rounded bisect01) ptan a 3 nm → ∃ n : ℕ, 1 ≤ n ∧
      st0.heap k = Fin.comp (rounded bisect01) ptan a n nm := by
    intro k a nm hk
    rcases hr.2 k with h | ⟨m, hm, h⟩
    · exact ⟨3, by norm_num, h.trans hk⟩
    · exact ⟨m, hm, by rw [h, hk]; rfl⟩
  obtain ⟨n3, q3, r3⟩ := hfin _ _ _ f3
  obtain ⟨n4, q4, r4⟩ := hfin _ _ _ f4
  obtain ⟨n5, q5, r5⟩ := hfin _ _ _ f5
  have hrev : ∀ k L, st.heap k = RevolvedComponent L → NewRevolved (st0.heap k) L := by
    intro k L hk
    rcases hr.2 k with h | ⟨m, hm, h⟩
    · rw [h, hk]; exact ⟨rfl, rfl⟩
    · rw [h, hk]; exact ⟨rfl, rfl⟩
  have hv : st0.veh = st.veh := hr.1
  have hcs : st0.veh.components = [ids 0, ids 1, ids 2, ids 3, ids 4, ids 5] := by rw [hv, b2]; rfl
  obtain ⟨g0, d0, g01, g02, M0, c0', g03, g04, g05⟩ := HIFiRE8.fuselage_mesh hp st0.heap ids hi P q1 n0 q0 x0 r0 (hrev _ _ f6) (hrev _ _ f7)
  obtain ⟨g1, d1, g11, g12, M1, c1', F1, g13⟩ := half_doubled i1 s1 m1 c1 y10 y11 y1T n1 q1' st0.heap (ids 1) _ r1
  obtain ⟨g2, d2, g21, g22, M2, c2', F2, g23⟩ := hnose n2 q2 _ st0.heap (ids 2) r2
  obtain ⟨g3, d3, g31, g32, M3, c3', g33, g34⟩ := HIFiRE8.fin_mesh hT 1 _ (.inl rfl) n3 q3 _ st0.heap (ids 3) r3
  obtain ⟨g4, d4, g41, g42, M4, c4', g43, g44⟩ := HIFiRE8.fin_mesh hT 1 _ (.inl rfl) n4 q4 _ st0.heap (ids 4) r4
  obtain ⟨g5, d5, g51, g52, M5, c5', g53, g54⟩ := HIFiRE8.fin_mesh hT 0.5 _ (.inr rfl) n5 q5 _ st0.heap (ids 5) r5
  have ch0 : (st0.heap (ids 0)).children = [ids 6, ids 7] := by rw [r0]; rfl
  have ch : ∀ i, 1 ≤ i → i < 6 → (st0.heap (ids i)).children = [] := by
    intro i h1 h6
    interval_cases i
    · rw [r1]; rfl
    · rw [r2]; rfl
    · rw [r3]; rfl
    · rw [r4]; rfl
    · rw [r5]; rfl
  have hmem : ∀ k ∈ st0.veh.components, k = ids 0 ∨ (st0.heap k).children = [] ∧ ∃ i < 6, k = ids i := by
    intro k hk
    rw [hcs] at hk
    simp only [List.mem_cons, List.not_mem_nil, or_false] at hk
    rcases hk with rfl | rfl | rfl | rfl | rfl | rfl
    · exact .inl rfl
    · exact .inr ⟨ch 1 (by norm_num) (by norm_num), 1, by norm_num, rfl⟩
    · exact .inr ⟨ch 2 (by norm_num) (by norm_num), 2, by norm_num, rfl⟩
    · exact .inr ⟨ch 3 (by norm_num) (by norm_num), 3, by norm_num, rfl⟩
    · exact .inr ⟨ch 4 (by norm_num) (by norm_num), 4, by norm_num, rfl⟩
    · exact .inr ⟨ch 5 (by norm_num) (by norm_num), 5, by norm_num, rfl⟩
  obtain ⟨st', h1, h2, h3⟩ := generate_parts lib depth st0 (by rw [hv, b2]) (by rw [hv, b2]) (by rw [hv, b2])
    (by
      refine ⟨by rw [hcs]; simp [hi.eq_iff], ?_, ?_⟩
      · intro k hk k' hk'
        rcases hmem k' hk' with rfl | ⟨hc, -⟩
        · rw [ch0]
          rcases hmem k hk with rfl | ⟨-, i, hi6, rfl⟩
          · simp [hi.eq_iff]
          · simp only [List.mem_cons, hi.eq_iff, List.not_mem_nil, or_false]; omega
        · rw [hc]; simp
      · intro k hk k' hk' hne
        rcases hmem k hk with rfl | ⟨hc, -⟩
        · rcases hmem k' hk' with rfl | ⟨hc', -⟩
          · exact absurd rfl hne
          · rw [hc']; simp
        · rw [hc]; simp)
    (fun k c => (k = ids 0 → c = d0) ∧ (k = ids 1 → c = d1) ∧ (k = ids 2 → c = d2) ∧ (k = ids 3 → c = d3) ∧ (k = ids 4 → c = d4) ∧
      (k = ids 5 → c = d5))
    (by
      intro k hk
      rw [hcs] at hk
      simp only [List.mem_cons, List.not_mem_nil, or_false] at hk
      rcases hk with rfl | rfl | rfl | rfl | rfl | rfl
      · exact ⟨g0, d0, g01, g02, by simp [hi.eq_iff]⟩
      · exact ⟨g1, d1, g11, g12, by simp [hi.eq_iff]⟩
      · exact ⟨g2, d2, g21, g22, by simp [hi.eq_iff]⟩
      · exact ⟨g3, d3, g31, g32, by simp [hi.eq_iff]⟩
      · exact ⟨g4, d4, g41, g42, by simp [hi.eq_iff]⟩
      · exact ⟨g5, d5, g51, g52, by simp [hi.eq_iff]⟩)
  rw [hcs] at h3
  refine ⟨st', h1, by rw [h2, hv], ?_⟩
  constructor
  · rw [(h3 (ids 0) (by simp)).1 rfl]
    refine ⟨M0, c0', g03, g04, fun n hn h2n => g05 ?_⟩
    rw [r0] at hn
    have : n0 = n := by simpa using hn
    omega
  · rw [(h3 (ids 1) (by simp)).2.1 rfl]; exact ⟨M1, c1', F1, g13⟩
  · rw [(h3 (ids 2) (by simp)).2.2.1 rfl]; exact ⟨M2, c2', F2, g23⟩
  · rw [(h3 (ids 3) (by simp)).2.2.2.1 rfl]; exact ⟨M3, c3', g33, g34⟩
  · rw [(h3 (ids 4) (by simp)).2.2.2.2.1 rfl]; exact ⟨M4, c4', g43, g44⟩
  · rw [(h3 (ids 5) (by simp)).2.2.2.2.2 rfl]; exact ⟨M5, c5', g53, g54⟩

/-- C109 for the HIFiRE 8, in part: for every positive length, base radius and nozzle length and nose radius of at least half the width of the
nose the generator returns a vehicle of the six named parts; at every mesh resolution it generates, the fuselage has a closed mesh, wing and
fins have meshes without gaps.  Missing: the nose, which is never without gaps (`C110_hifire8_violated`). -/
theorem C109_hifire8_partial (ptan : ℝ → ℝ) (hT : FloatTan ptan) (h : Heap) (ids : ℕ → ℕ) (hi : Function.Injective ids) (kwargs : Dict String ℝ)
    (p : HIFiRE8.Params) (ha : HIFiRE8Args kwargs p) (hp : HIFiRE8Ok p) :
    ∃ st, HIFiRE8.instanceOf bisect01 ptan h ids kwargs = .ok st ∧
      st.veh.named = [("fuselage", ids 0), ("wing", ids 1), ("nose", ids 2), ("fin1", ids 3), ("fin2", ids 4), ("fin3", ids 5)] ∧
      ∀ st0 lib depth, Rescaled st st0 → ∃ st', generate lib depth st0 = (.ok (), st') ∧
        (∃ M c', (st'.heap (ids 0)).mesh = (.ok M, c') ∧ Closed M.tris) ∧
        (∃ M c', (st'.heap (ids 1)).mesh = (.ok M, c') ∧ GapFree 1e-12 M.tris) ∧
        (∀ i, 3 ≤ i → i < 5 → ∃ M c', (st'.heap (ids i)).mesh = (.ok M, c') ∧ GapFree (6e-7 * HIFiRE8.finEdge p 1 + 1e-12) M.tris) ∧
        (∃ M c', (st'.heap (ids 5)).mesh = (.ok M, c') ∧ GapFree (6e-7 * HIFiRE8.finEdge p 0.5 + 1e-12) M.tris) := by
  obtain ⟨st, b1, b2, b3, -, b4⟩ := hifire8_meshes ptan hT h ids hi kwargs p ha hp
  refine ⟨st, b1, by rw [b3]; rfl, fun st0 lib depth hr => ?_⟩
  obtain ⟨st', g1, -, g2⟩ := b4 st0 lib depth hr
  obtain ⟨M, c', m1, m2, -⟩ := g2.fuselage
  obtain ⟨M1, c1, F1, w1, w2, -⟩ := g2.wing
  refine ⟨st', g1, ⟨M, c', m1, m2⟩, ⟨M1, c1, w1, w2⟩, ?_, g2.fin3⟩
  intro i h3 h5
  interval_cases i
  · exact g2.fin1
  · exact g2.fin2

/-- C110 is violated by the HIFiRE 8: whatever its (sensible) dimensions and mesh resolutions, each half of the nose has an edge without a
partner away from the plane of symmetry, and the two halves do not bound a solid. -/
theorem C110_hifire8_violated (ptan : ℝ → ℝ) (hT : FloatTan ptan) (h : Heap) (ids : ℕ → ℕ) (hi : Function.Injective ids) (kwargs : Dict String ℝ)
    (p : HIFiRE8.Params) (ha : HIFiRE8Args kwargs p) (hp : HIFiRE8Ok p) :
    ∃ st, HIFiRE8.instanceOf bisect01 ptan h ids kwargs = .ok st ∧ Dict.get st.veh.named "nose" = .ok (ids 2) ∧
      ∀ st0 lib depth, Rescaled st st0 → ∃ st' M c' F, generate lib depth st0 = (.ok (), st') ∧ (st'.heap (ids 2)).mesh = (.ok M, c') ∧
        M.tris = F ++ mapVerts (mirrorV 1) F ∧
        (∃ u v, edgeCount (edges F) u v ≠ edgeCount (edges F) v u ∧ 0 < u.y ∧ 0 < v.y) ∧ ¬ Closed (F ++ mirrorMesh F) := by
  obtain ⟨st, b1, b2, b3, -, b4⟩ := hifire8_meshes ptan hT h ids hi kwargs p ha hp
  refine ⟨st, b1, by rw [b3]; rfl, fun st0 lib depth hr => ?_⟩
  obtain ⟨st', g1, -, g2⟩ := b4 st0 lib depth hr
  obtain ⟨M, c', F, k⟩ := g2.nose
  exact ⟨st', M, c', F, g1, k⟩

/-- The HIFiRE 8 without arguments. -/
noncomputable def hifire8Default : HIFiRE8.Params := ⟨1.2, 0.175, 0.1, 0.1⟩

theorem hifire8Default_ok : HIFiRE8Args [] hifire8Default ∧ HIFiRE8Ok hifire8Default := by
  constructor
  · constructor <;> first | exact List.nodup_nil | exact .inr ⟨by simp, rfl⟩
  · constructor <;> simp only [hifire8Default] <;> norm_num

example (h : Heap) (lib : Lib) (depth : ℕ) : ∃ st st', HIFiRE8.instanceOf bisect01 ieeeTan h id [] = .ok st ∧
    generate lib depth st = (.ok (), st') ∧ ∃ M c', (st'.heap 0).mesh = (.ok M, c') ∧ Closed M.tris := by
  obtain ⟨st, h1, -, h2⟩ := C109_hifire8_partial ieeeTan ieeeTan_float h id Function.injective_id [] _ hifire8Default_ok.1 hifire8Default_ok.2
  obtain ⟨st', g1, g2, -⟩ := h2 st lib depth ⟨rfl, fun k => .inl rfl⟩
  exact ⟨st, st', h1, g1, g2⟩

example (h : Heap) (lib : Lib) (depth : ℕ) : ∃ st st' M c' F, HIFiRE8.instanceOf bisect01 ieeeTan h id [] = .ok st ∧
    generate lib depth st = (.ok (), st') ∧ (st'.heap 2).mesh = (.ok M, c') ∧ M.tris = F ++ mapVerts (mirrorV 1) F ∧ ¬ Closed (F ++ mirrorMesh F) := by
  obtain ⟨st, h1, -, h2⟩ := C110_hifire8_violated ieeeTan ieeeTan_float h id Function.injective_id [] _ hifire8Default_ok.1 hifire8Default_ok.2
  obtain ⟨st', M, c', F, g1, g2, g3, -, g4⟩ := h2 st lib depth ⟨rfl, fun k => .inl rfl⟩
  exact ⟨st, st', M, c', F, h1, g1, g2, g3, g4⟩

end HV
