import Verif.Props.Hifire8
import Verif.Lemmas.MeshVertex
import Verif.Props.Symmetric

/-!
# C171: the nose cap of a HIFiRE 8 with a slender front

The nose cap of `hifire8.py` ends in an edge of fixed width 0.15 m, while its height follows a circle of radius `R_nose`
(`hifire8.py:234-262`).  When `R_nose` is smaller than 0.075 m, the cap widens beyond the circle, and the height is the square root of a
negative number.
-/

namespace HV
open Spec Veh Polyline

namespace Spec

/-- Dimensions of a HIFiRE 8 whose front is more slender than the tip of its nose cap. -/
structure HIFiRE8Slender (p : HIFiRE8.Params) : Prop where
  length : 0 < p.L
  base : 0 < p.R_base
  nose : 0 < p.R_nose
  slender : p.R_nose < 0.075
  nozzle : 0 < p.nozzle_length

end Spec

namespace HIFiRE8
variable {p : Params}

/-- Outside the circle the height of the nose is not a number. -/
theorem noseTf_nan (sgn x y z : ℝ) (h0 : 0 < p.R_nose) (h1 : p.R_nose < y) : noseTf p p.R_nose sgn x y z = .error .nan := by
  unfold noseTf psqrt
  simp only
  rw [if_pos (by nlinarith)]
  rfl

/-- The line of the fuselage exists for a slender front too. -/
theorem fuse_slender (hp : HIFiRE8Slender p) : ∃ P, fuseLine p (sl p) = .ok P := by
  have h1 := hp.length
  have h2 := hp.base
  have h4 := hp.nozzle
  obtain ⟨P, k1, -⟩ := lines_edge (fuse p) (by simp [fuse]) (by
    intro e he
    simp only [fuse, List.mem_cons, List.not_mem_nil, or_false] at he
    rcases he with rfl | rfl | rfl <;> intro hc
    · have := congrArg Vec.x hc; simp only at this; linarith
    · have := congrArg Vec.x hc; simp only at this; linarith
    · have := congrArg Vec.y hc; simp only at this; linarith) (by
    intro i hi
    simp only [fuse, List.length_cons, List.length_nil] at hi
    obtain rfl | rfl : i = 0 ∨ i = 1 := by omega
    · rfl
    · rfl)
  exact ⟨P, by rw [fuseLine_eq h1]; exact k1⟩

/-- The leading edge of a slender nose is, where the two parts of the cap meet, outside the circle. -/
theorem nose_slender (hp : HIFiRE8Slender p) : ∃ (a : Wing.Args) (L : ℝ → V) (w : Wing.State), noseArgs p (sl p) = .ok a ∧ a.bot_tf = noseTf p p.R_nose 1 ∧
    (∀ t, a.line.call t = .ok (L t)) ∧ Wing.init (rounded bisect01) a = .ok w ∧ p.R_nose < (L w.t_B1).y := by
  have hl := hp.length
  have hn := hp.nose
  have hs := hp.slender
  have hd : ∀ e ∈ noseEdge p, e.1 ≠ e.2 := by
    intro e he
    simp only [noseEdge, List.mem_cons, List.not_mem_nil, or_false] at he
    rcases he with rfl | rfl | rfl <;> intro hc
    · have := congrArg Vec.x hc; simp only at this; linarith
    · have := congrArg Vec.x hc; simp only at this; linarith
    · have := congrArg Vec.y hc; simp only at this; linarith
  have hj : ∀ (i : ℕ) (hi : i + 1 < (noseEdge p).length), ((noseEdge p)[i]'(by omega)).2 = ((noseEdge p)[i + 1]).1 := by
    intro i hi
    simp only [noseEdge, List.length_cons, List.length_nil] at hi
    obtain rfl | rfl : i = 0 ∨ i = 1 := by omega
    · rfl
    · rfl
  have hne : noseEdge p ≠ [] := by simp [noseEdge]
  obtain ⟨P, h1, h2, h3, h4, -, h6, -⟩ := lines_edge (noseEdge p) hne hd hj
  obtain ⟨hc, -⟩ := lines_strict (noseEdge p) hne hd hj P h1
  obtain ⟨P', q1, -, -, -, hact⟩ := goodPolyline ((noseEdge p).map fun e => Line e.1 e.2) (by simp [noseEdge]) (by
    intro s hs
    obtain ⟨e, he, rfl⟩ := List.mem_map.1 hs
    exact goodLine _ _ (hd e he))
  rw [h1] at q1
  obtain rfl := Except.ok.inj q1
  have h30 : fnOf P 0 = ⟨p.L, p.R_nose, 0⟩ := h3
  have h41 : fnOf P 1 = ⟨p.L + 0.5, 0, 0⟩ := h4
  set a : Wing.Args := (noseOf p P) with ha
  have hA : noseArgs p (sl p) = .ok a := by
    unfold noseArgs
    simp only [radius_nose hl]
    rw [pdiv_ok _ _ (by unfold L_n; norm_num), ok_bind]
    simp only [noseEdge, List.map_cons, List.map_nil] at h1
    have e1 : p.R_nose - (p.L + 0.5 * L_n - p.L) * Real.tan (Real.arctan ((p.R_nose - 0.5 * w_n) / L_n)) = p.R_nose - 0.5 * (p.R_nose - 0.075) := by
      rw [Real.tan_arctan]; unfold L_n w_n; norm_num; ring
    have e2 : (0.5 * w_n : ℝ) = 0.075 := by unfold w_n; norm_num
    rw [e1, e2]
    show (do let line ← Polyline [Line ⟨p.L, p.R_nose, 0⟩ ⟨p.L + 0.5 * 0.5, p.R_nose - 0.5 * (p.R_nose - 0.075), 0⟩, Line ⟨p.L + 0.5 * 0.5, p.R_nose - 0.5 * (p.R_nose - 0.075), 0⟩ ⟨p.L + 0.5, 0.075, 0⟩, Line ⟨p.L + 0.5, 0.075, 0⟩ ⟨p.L + 0.5, 0, 0⟩]; _) = _
    rw [h1, ok_bind]
    rfl
  obtain ⟨w, w1, w2, r, hr, hrx, hrd⟩ := wing_break_near a rfl (fnOf P) h2 hc (by rw [h30, ha]; simp only [noseOf]; linarith) (by rw [h41, ha]; simp only [noseOf]; linarith)
  have hlen : ∀ a b : V, lenOf (Line a b) = (b - a).abs := fun _ _ => rfl
  have d3 : ((⟨p.L + 0.5, 0, 0⟩ : V) - ⟨p.L + 0.5, 0.075, 0⟩).abs = 0.075 := by
    simp only [Vec.abs, Vec.sub_x, Vec.sub_y, Vec.sub_z]
    rw [show (p.L + 0.5 - (p.L + 0.5)) ^ 2 + (0 - 0.075) ^ 2 + (0 - 0 : ℝ) ^ 2 = 0.075 ^ 2 by ring, Real.sqrt_sq (by norm_num)]
  have d2 : ((⟨p.L + 0.5, 0.075, 0⟩ : V) - ⟨p.L + 0.5 * 0.5, p.R_nose - 0.5 * (p.R_nose - 0.075), 0⟩).abs =
      ((⟨p.L + 0.5 * 0.5, p.R_nose - 0.5 * (p.R_nose - 0.075), 0⟩ : V) - ⟨p.L, p.R_nose, 0⟩).abs := by
    simp only [Vec.abs, Vec.sub_x, Vec.sub_y, Vec.sub_z]
    congr 1; ring
  have d1 : 0.25 ≤ ((⟨p.L + 0.5 * 0.5, p.R_nose - 0.5 * (p.R_nose - 0.075), 0⟩ : V) - ⟨p.L, p.R_nose, 0⟩).abs := by
    simp only [Vec.abs, Vec.sub_x, Vec.sub_y, Vec.sub_z]
    refine Real.le_sqrt_of_sq_le ?_
    nlinarith [sq_nonneg (0.5 * (p.R_nose - 0.075))]
  set d := ((⟨p.L + 0.5 * 0.5, p.R_nose - 0.5 * (p.R_nose - 0.075), 0⟩ : V) - ⟨p.L, p.R_nose, 0⟩).abs with hd'
  have b1 : bp lenOf ((noseEdge p).map fun e => Line e.1 e.2) 1 = d / (d + (d + 0.075)) := by
    simp only [bp, noseEdge, List.map_cons, List.map_nil, List.take_succ_cons, List.take_zero, List.sum_cons, List.sum_nil, add_zero, hlen, d3, d2, ← hd']
  have b2 : bp lenOf ((noseEdge p).map fun e => Line e.1 e.2) 2 = (d + d) / (d + (d + 0.075)) := by
    simp only [bp, noseEdge, List.map_cons, List.map_nil, List.take_succ_cons, List.take_zero, List.sum_cons, List.sum_nil, add_zero, hlen, d3, d2, ← hd']
  have b3 : bp lenOf ((noseEdge p).map fun e => Line e.1 e.2) 3 = 1 := by
    simp only [bp, noseEdge, List.map_cons, List.map_nil, List.take_succ_cons, List.take_zero, List.sum_cons, List.sum_nil, add_zero, hlen, d3, d2, ← hd']
    exact div_self (by linarith)
  have c1 : 0.4 ≤ d / (d + (d + 0.075)) ∧ d / (d + (d + 0.075)) ≤ 1 / 2 := by
    constructor
    · rw [le_div_iff₀ (by linarith)]; linarith
    · rw [div_le_iff₀ (by linarith)]; linarith
  have c2 : 0.8 ≤ (d + d) / (d + (d + 0.075)) ∧ (d + d) / (d + (d + 0.075)) < 1 := by
    constructor
    · rw [le_div_iff₀ (by linarith)]; linarith
    · rw [div_lt_iff₀ (by linarith)]; linarith
  have hr2 : r = d / (d + (d + 0.075)) := by
    obtain ⟨i, hi, u, hu, hu0, -, hue, hf⟩ := hact r hr
    rw [hf] at hrx
    simp only [noseEdge, List.map_cons, List.map_nil, List.length_cons, List.length_nil] at hi
    obtain rfl | rfl | rfl : i = 0 ∨ i = 1 ∨ i = 2 := by omega
    · have hu1 : u = 1 := by
        simp only [noseEdge, List.map_cons, List.map_nil, List.getElem_cons_zero, fnOf_line, lineAt, Vec.add_x, Vec.mul_x, ha, noseOf] at hrx
        linarith
      rw [hu1, Polyline.bp_zero, sub_zero, sub_zero, zero_add, b1, eq_comm] at hue
      exact (div_eq_one_iff_eq (by linarith [c1.1])).1 hue
    · exfalso
      have := hu0 (by norm_num)
      simp only [noseEdge, List.map_cons, List.map_nil, List.getElem_cons_zero, List.getElem_cons_succ, fnOf_line, lineAt, Vec.add_x, Vec.mul_x, ha, noseOf] at hrx
      nlinarith
    · exfalso
      simp only [noseEdge, List.map_cons, List.map_nil, List.getElem_cons_zero, List.getElem_cons_succ, fnOf_line, lineAt, Vec.add_x, Vec.mul_x, ha, noseOf] at hrx
      nlinarith
  rw [hr2] at hrd
  obtain ⟨g1, g2⟩ := abs_le.1 hrd
  norm_num at g1 g2
  refine ⟨a, fnOf P, w, hA, rfl, h2, w1, ?_⟩
  obtain ⟨i, hi, u, hu, hu0, -, hue, hf⟩ := hact _ w2
  rw [hf]
  simp only [noseEdge, List.map_cons, List.map_nil, List.length_cons, List.length_nil] at hi
  obtain rfl | rfl | rfl : i = 0 ∨ i = 1 ∨ i = 2 := by omega
  · rw [Polyline.bp_zero, sub_zero, sub_zero, zero_add, b1] at hue
    have : 0 < u := by rw [hue]; exact div_pos (by linarith [c1.1]) (by linarith [c1.1])
    simp only [noseEdge, List.map_cons, List.map_nil, List.getElem_cons_zero, fnOf_line, lineAt, Vec.add_y, Vec.mul_y]
    nlinarith
  · simp only [noseEdge, List.map_cons, List.map_nil, List.getElem_cons_zero, List.getElem_cons_succ, fnOf_line, lineAt, Vec.add_y, Vec.mul_y]
    nlinarith [hu.1, hu.2]
  · exfalso
    have := hu0 (by norm_num)
    rw [show 2 + 1 = 3 from rfl, b2, b3] at hue
    rw [hue] at this
    have h9 : w.t_B1 - (d + d) / (d + (d + 0.075)) < 0 := by linarith [c1.2, c2.1]
    have := div_neg_of_neg_of_pos h9 (sub_pos.2 c2.2)
    linarith

/-- Such a cap cannot be meshed, whatever the resolution. -/
theorem nose_fails (ptan : ℝ → ℝ) (hn : 0 < p.R_nose) (w : Wing.State) (a : Wing.Args) (L : ℝ → V) (hb : a.bot_tf = noseTf p p.R_nose 1)
    (hl : ∀ t, a.line.call t = .ok (L t)) (hi : Wing.init (rounded bisect01) a = .ok w) (hy : p.R_nose < (L w.t_B1).y)
    (n : ℕ) (h1 : 1 ≤ n) (name : Option String) (H : Heap) (id : ℕ) (hid : H id = wingOf ptan w n name (some "y")) (g : Heap) (c : Comp)
    (hg : generatePatches H id = (.ok (), g)) (hc : pipeline 0 (g id) = (.ok (), c)) (M : StlMesh) (c' : Comp) : c.mesh ≠ (.ok M, c') := by
  intro hm
  have hwa : w.args = a := (Wing.init_ok hi).1
  obtain ⟨p0, p1, f0, f1, hpl, hv⟩ := reflected_wing_vertex ptan w n h1 H id name hid g c hg hc M c' hm
  obtain ⟨B1, t2, hB1, -, hp0, -⟩ := Wing.planform_ok hpl
  rw [hwa] at hB1 hp0
  obtain ⟨v, v1, -⟩ := hv ("bot_patch_0", OffsetPatchFunction p0 w.args.bot_tf) (by simp) n le_rfl n le_rfl
  obtain ⟨q, o, k1, k2, -⟩ := offsetPatch_ok.1 v1
  obtain ⟨cp, hcp, hcp'⟩ := bind_ok.1 hp0
  have hn0 : (n : ℝ) ≠ 0 := by positivity
  rw [← pure_ok.1 hcp', div_self hn0] at k1
  have hB : L w.t_B1 = B1 := Except.ok.inj ((hl _).symm.trans hB1)
  obtain ⟨-, hE, -⟩ := C22_edges_general _ _ _ _ _ cp hcp 1 _ _ _ _ rfl (hl _) rfl rfl
  rw [hE] at k1
  have hq : q.y = (L w.t_B1).y := by
    rw [← Except.ok.inj k1, hB]; simp [lineAt]
  rw [hwa, hb, noseTf_nan _ _ _ _ hn (by rw [hq]; exact hy)] at k2
  cases k2

end HIFiRE8

namespace Spec

/-- The vehicle can be generated, and every component of it then has a mesh. -/
def AllMeshed (lib : Lib) (depth : ℕ) (st : VState) : Prop :=
  ∃ st', generate lib depth st = (.ok (), st') ∧ ∀ k ∈ st.veh.components, ∃ M c', (st'.heap k).mesh = (.ok M, c')

end Spec

/-- C171, the part that holds: the HIFiRE 8 can be generated and meshed, at every resolution, if the front has a radius of at least 0.075 m.
Missing: smaller radii, see `C171_violated`. -/
theorem C171_partial (ptan : ℝ → ℝ) (hT : FloatTan ptan) (h : Heap) (ids : ℕ → ℕ) (hi : Function.Injective ids) (kwargs : Dict String ℝ)
    (p : HIFiRE8.Params) (ha : HIFiRE8Args kwargs p) (hp : HIFiRE8Ok p) :
    ∃ st, HIFiRE8.instanceOf bisect01 ptan h ids kwargs = .ok st ∧ st.veh.components.length = 6 ∧
      ∀ st0 lib depth, Rescaled st st0 → AllMeshed lib depth st0 := by
  obtain ⟨st, b1, b2, -, -, b4⟩ := hifire8_meshes ptan hT h ids hi kwargs p ha hp
  refine ⟨st, b1, by rw [b2]; rfl, fun st0 lib depth hr => ?_⟩
  obtain ⟨st', g1, -, g2⟩ := b4 st0 lib depth hr
  refine ⟨st', g1, fun k hk => ?_⟩
  rw [hr.1, b2] at hk
  obtain ⟨i, hi6, rfl⟩ := List.mem_map.1 hk
  have hi6 := List.mem_range.1 hi6
  interval_cases i
  · obtain ⟨M, c', m, -⟩ := g2.fuselage; exact ⟨M, c', m⟩
  · obtain ⟨M, c', -, m, -⟩ := g2.wing; exact ⟨M, c', m⟩
  · obtain ⟨M, c', -, m, -⟩ := g2.nose; exact ⟨M, c', m⟩
  · obtain ⟨M, c', m, -⟩ := g2.fin1; exact ⟨M, c', m⟩
  · obtain ⟨M, c', m, -⟩ := g2.fin2; exact ⟨M, c', m⟩
  · obtain ⟨M, c', m, -⟩ := g2.fin3; exact ⟨M, c', m⟩

/-- C171 is violated: if the radius of the front is less than 0.075 m, an instance can be created, but its nose has no mesh, at no
resolution. -/
theorem C171_violated (ptan : ℝ → ℝ) (hT : FloatTan ptan) (h : Heap) (ids : ℕ → ℕ) (hi : Function.Injective ids) (kwargs : Dict String ℝ)
    (p : HIFiRE8.Params) (ha : HIFiRE8Args kwargs p) (hp : HIFiRE8Slender p) :
    ∃ st, HIFiRE8.instanceOf bisect01 ptan h ids kwargs = .ok st ∧ Dict.get st.veh.named "nose" = .ok (ids 2) ∧
      ∀ st0 lib depth, Rescaled st st0 → (¬ ∃ st' M c', generate lib depth st0 = (.ok (), st') ∧ (st'.heap (ids 2)).mesh = (.ok M, c')) ∧
        ¬ AllMeshed lib depth st0 := by
  obtain ⟨P, q1⟩ := HIFiRE8.fuse_slender hp
  obtain ⟨a1, L1, wd1, e1, s1, t1, c1, y10, y11, y1T, l1, l1'⟩ := HIFiRE8.wing_smooth hT
  obtain ⟨w1, i1, m1⟩ := wing_break a1 t1 L1 s1.line l1 l1'
  obtain ⟨a2, L2, w2, e2, k1, k2, i2, k3⟩ := HIFiRE8.nose_slender hp
  obtain ⟨st, cs, en, b1, b2, ⟨x0, f0⟩, ⟨x1, f1⟩, ⟨x2, f2⟩, ⟨x3, f3⟩, ⟨x4, f4⟩, ⟨x5, f5⟩, f6, f7⟩ :=
    hifire8_instance ptan h ids hi kwargs p ha hp.length P a1 a2 w1 w2 q1 e1 e2 i1 i2
  refine ⟨st, b1, by rw [b2]; rfl, fun st0 lib depth hr => ?_⟩
  have key : ¬ ∃ st' M c', generate lib depth st0 = (.ok (), st') ∧ (st'.heap (ids 2)).mesh = (.ok M, c') := by
    rintro ⟨st', M, c', g1, g2⟩
    have hv : st0.veh = st.veh := hr.1
    have hcs : st0.veh.components = [ids 0, ids 1, ids 2, ids 3, ids 4, ids 5] := by rw [hv, b2]; rfl
    have hch : ∀ k, (st0.heap k).children = (st.heap k).children := by
      intro k
      rcases hr.2 k with h | ⟨m, -, h⟩ <;> rw [h]
      rfl
    have ch0 : (st0.heap (ids 0)).children = [ids 6, ids 7] := by rw [hch, f0]; rfl
    have hmem : ∀ k ∈ st0.veh.components, k = ids 0 ∨ (st0.heap k).children = [] ∧ ∃ i < 6, k = ids i := by
      intro k hk
      rw [hcs] at hk
      simp only [List.mem_cons, List.not_mem_nil, or_false] at hk
      rcases hk with rfl | rfl | rfl | rfl | rfl | rfl
      · exact .inl rfl
      · exact .inr ⟨by rw [hch, f1]; rfl, 1, by norm_num, rfl⟩
      · exact .inr ⟨by rw [hch, f2]; rfl, 2, by norm_num, rfl⟩
      · exact .inr ⟨by rw [hch, f3]; rfl, 3, by norm_num, rfl⟩
      · exact .inr ⟨by rw [hch, f4]; rfl, 4, by norm_num, rfl⟩
      · exact .inr ⟨by rw [hch, f5]; rfl, 5, by norm_num, rfl⟩
    obtain ⟨g, n1, n2⟩ := generate_plain_component lib depth st0 st' (by rw [hv, b2]) (by rw [hv, b2]) (by rw [hv, b2]) (by
      refine ⟨by rw [hcs]; simp [hi.eq_iff], ?_, ?_⟩
      · intro k hk k' hk'
        rcases hmem k' hk' with rfl | ⟨hc, -⟩
        · rw [ch0]
          rcases hmem k hk with rfl | ⟨-, i, hi6, rfl⟩
          · simp [hi.eq_iff]
          · simp only [List.mem_cons, hi.eq_iff, List.not_mem_nil, or_false]; omega
        · rw [hc]; simp
      · intro k hk k' hk' hne
        rcases hmem k hk with rfl | ⟨hc, -⟩
        · rcases hmem k' hk' with rfl | ⟨hc', -⟩
          · exact absurd rfl hne
          · rw [hc']; simp
        · rw [hc]; simp) g1 (ids 2) (by rw [hcs]; simp)
    obtain ⟨n, hn, r2⟩ := hr.wing (by norm_num) f2
    exact HIFiRE8.nose_fails ptan hp.nose w2 a2 L2 k1 k2 i2 k3 n hn _ st0.heap (ids 2) r2 g _ n1 n2 M c' g2
  refine ⟨key, ?_⟩
  rintro ⟨st', g1, g2⟩
  obtain ⟨M, c', m⟩ := g2 (ids 2) (by rw [hr.1, b2]; simp [List.range_succ])
  exact key ⟨st', M, c', g1, m⟩

/-- A HIFiRE 8 whose front has a radius of 5 cm. -/
noncomputable def hifire8Slender : HIFiRE8.Params := ⟨1.2, 0.175, 0.05, 0.1⟩

/-- `ParametricHIFiRE8(R_nose=0.05)` gives a vehicle without a mesh of its nose. -/
example : HIFiRE8Args [("R_nose", 0.05)] hifire8Slender ∧ HIFiRE8Slender hifire8Slender := by
  refine ⟨⟨by decide, ?_, ?_, ?_, ?_⟩, ⟨?_, ?_, ?_, ?_, ?_⟩⟩ <;> norm_num [given, Dict.get?, hifire8Slender] <;> decide

/-- The HIFiRE 8 without arguments meets the hypotheses of `C171_partial`. -/
example : HIFiRE8Args [] hifire8Default ∧ HIFiRE8Ok hifire8Default := hifire8Default_ok

end HV
