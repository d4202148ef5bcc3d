import Verif.Props.Size
import Verif.Props.Declared
import Verif.Props.Hifire8Size
import Verif.Props.SizeRevolved
import Verif.Props.D21Size

/-!
# C172: the parameters of the wedge, of the Finner, of the HIFiRE 8, of the Falcon 9 and most of those of the D-21 are used

Vehicles with different parameters have different meshes, at every resolution (HIFiRE 8 and Falcon 9: at every fine resolution).
-/

namespace HV
open Spec Veh

/-- A mesh has one extent along a direction. -/
theorem Spec.Spans.unique {f : V → ℝ} {lo hi lo' hi' : ℝ} {m : TriMesh ℝ} (h : Spans f lo hi m) (h' : Spans f lo' hi' m) :
    lo = lo' ∧ hi = hi' := by
  obtain ⟨a, ⟨v, v1, v2⟩, u, u1, u2⟩ := h
  obtain ⟨a', ⟨v', v1', v2'⟩, u', u1', u2'⟩ := h'
  constructor
  · have := (a v' v1').1
    have := (a' v v1).1
    linarith
  · have := (a u' u1').2
    have := (a' u u1).2
    linarith

/-- C172 for the wedge: each of the three declared parameters is used.  Two wedges have the same mesh only if they have the same parameters. -/
theorem C172_wedge_used (h : Heap) (id : ℕ) (kw kw' : Dict String ℝ) (hk : kw.keys.Nodup) (hk' : kw'.keys.Nodup) (w c t w' c' t' : ℝ)
    (k1 : given kw "wingspan" 1 w) (k2 : given kw "chord" 1 c) (k3 : given kw "thickness" 0.1 t) (k4 : given kw' "wingspan" 1 w')
    (k5 : given kw' "chord" 1 c') (k6 : given kw' "thickness" 0.1 t') (hp : 0 ≤ w ∧ 0 ≤ c ∧ 0 ≤ t) (hp' : 0 ≤ w' ∧ 0 ≤ c' ∧ 0 ≤ t')
    (lib : Lib) (depth : ℕ) :
    ∃ st st', Wedge.instanceOf h id kw = .ok st ∧ Wedge.instanceOf h id kw' = .ok st' ∧ ∀ n : ℕ, 1 ≤ n → ∃ g g' M M' d d',
      generate lib depth (withResolution st id n) = (.ok (), g) ∧ generate lib depth (withResolution st' id n) = (.ok (), g') ∧
      (g.heap id).mesh = (.ok M, d) ∧ (g'.heap id).mesh = (.ok M', d') ∧ (M.tris = M'.tris → w = w' ∧ c = c' ∧ t = t') := by
  obtain ⟨st, a1, a2⟩ := C136_wedge h id kw hk w c t k1 k2 k3 hp.1 hp.2.1 hp.2.2 lib depth
  obtain ⟨st', b1, b2⟩ := C136_wedge h id kw' hk' w' c' t' k4 k5 k6 hp'.1 hp'.2.1 hp'.2.2 lib depth
  refine ⟨st, st', a1, b1, fun n hn => ?_⟩
  obtain ⟨g, M, d, g1, g2, x, y, z⟩ := a2 n hn
  obtain ⟨g', M', d', g1', g2', x', y', z'⟩ := b2 n hn
  refine ⟨g, g', M, M', d, d', g1, g1', g2, g2', fun e => ?_⟩
  rw [e] at x y z
  have := (x.unique x').2
  have := (y.unique y').2
  have := (z.unique z').2
  exact ⟨by linarith, by linarith, by linarith⟩

/-- C172 for the Finner: each of the six declared parameters is used.  Two rockets have the same meshes of fuselage and first fin only if they
have the same parameters. -/
theorem C172_finner_used (h : Heap) (ids : ℕ → ℕ) (hi : Function.Injective ids) (kw kw' : Dict String ℝ) (p p' : Finner.Params)
    (ha : FinnerArgs kw p) (ha' : FinnerArgs kw' p')
    (hd : 0 < p.diameter ∧ 0 ≤ p.nose_length ∧ p.nose_length ≤ p.total_length)
    (hf : 0 ≤ p.fin_height ∧ 0 ≤ p.fin_length ∧ 0 ≤ p.max_fin_thickness)
    (hd' : 0 < p'.diameter ∧ 0 ≤ p'.nose_length ∧ p'.nose_length ≤ p'.total_length)
    (hf' : 0 ≤ p'.fin_height ∧ 0 ≤ p'.fin_length ∧ 0 ≤ p'.max_fin_thickness) (lib : Lib) (depth : ℕ) :
    ∃ st st', Finner.instanceOf h ids kw = .ok st ∧ Finner.instanceOf h ids kw' = .ok st' ∧ ∀ n : ℕ, 1 ≤ n → ∃ g g' M M' F F' d d' e e',
      generate lib depth (withResolution st (ids 0) n) = (.ok (), g) ∧ generate lib depth (withResolution st' (ids 0) n) = (.ok (), g') ∧
      (g.heap (ids 0)).mesh = (.ok M, d) ∧ (g'.heap (ids 0)).mesh = (.ok M', d') ∧
      (g.heap (ids 4)).mesh = (.ok F, e) ∧ (g'.heap (ids 4)).mesh = (.ok F', e') ∧ (M.tris = M'.tris → F.tris = F'.tris → p = p') := by
  obtain ⟨st, a1, a2⟩ := C136_finner h ids hi kw p ha hd.1.le hd.2.1 hd.2.2 hf lib depth
  obtain ⟨st', b1, b2⟩ := C136_finner h ids hi kw' p' ha' hd'.1.le hd'.2.1 hd'.2.2 hf' lib depth
  refine ⟨st, st', a1, b1, fun n hn => ?_⟩
  obtain ⟨g, g1, ⟨M, d, m1, x, y, -, c1, c2⟩, q⟩ := a2 n hn
  obtain ⟨g', g1', ⟨M', d', m1', x', y', -, c1', c2'⟩, q'⟩ := b2 n hn
  obtain ⟨F, e, f1, f2, f3, f4⟩ := q 0 (by norm_num)
  obtain ⟨F', e', f1', f2', f3', f4'⟩ := q' 0 (by norm_num)
  refine ⟨g, g', M, M', F, F', d, d', e, e', g1, g1', m1, m1', f1, f1', fun eM eF => ?_⟩
  rw [eM] at x y c1 c2
  rw [eF] at f2 f3 f4
  have hL := (x.unique x').2
  have hD : p.diameter = p'.diameter := by have := (y.unique y').2; linarith
  have r : ∀ a : ℝ, 0 < a → Real.sqrt ((a / 2) ^ 2 + 0 ^ 2) = a / 2 := fun a ha => by
    rw [show (a / 2) ^ 2 + (0 : ℝ) ^ 2 = (a / 2) ^ 2 by ring, Real.sqrt_sq (by linarith)]
  have hN : p.nose_length = p'.nose_length := by
    have k1 := (c1' _ c2).2
    have k2 := (c1 _ c2').2
    simp only at k1 k2
    rw [r _ hd.1, hD] at k1
    rw [r _ hd'.1, hD] at k2
    have hpos : 0 < p'.diameter / 2 := by linarith [hd'.1]
    have l1 := le_of_mul_le_mul_left k1 hpos
    have l2 := le_of_mul_le_mul_left k2 hpos
    linarith
  have hl := (f2.unique f2').1
  have hh := (f3.unique f3').2
  have ht := (f4.unique f4').2
  have e1 : p.fin_length = p'.fin_length := by linarith
  have e2 : p.fin_height = p'.fin_height := by linarith
  have e3 : p.max_fin_thickness = p'.max_fin_thickness := by linarith
  cases p
  cases p'
  simp only at hL hD hN e1 e2 e3
  subst hL hD hN e1 e2 e3
  rfl

/-- C172 for the HIFiRE 8: each of the four declared parameters is used.  From some resolution of the fuselage on, two vehicles have the same
meshes of fuselage and nose only if they have the same parameters. -/
theorem C172_hifire8_used (ptan : ℝ → ℝ) (hT : FloatTan ptan) (h : Heap) (ids : ℕ → ℕ) (hi : Function.Injective ids) (kw kw' : Dict String ℝ)
    (p p' : HIFiRE8.Params) (ha : HIFiRE8Args kw p) (ha' : HIFiRE8Args kw' p') (hp : HIFiRE8Ok p) (hp' : HIFiRE8Ok p')
    (hb : p.R_nose ≤ p.R_base) (hb' : p'.R_nose ≤ p'.R_base) (hL : 0.4 ≤ p.L) (hL' : 0.4 ≤ p'.L) (lib : Lib) (depth : ℕ) :
    ∃ st st' N, HIFiRE8.instanceOf bisect01 ptan h ids kw = .ok st ∧ HIFiRE8.instanceOf bisect01 ptan h ids kw' = .ok st' ∧
      ∀ n : ℕ, N ≤ n → 1 ≤ n → ∃ g g' M M' F F' d d' e e',
        generate lib depth (withResolution st (ids 0) n) = (.ok (), g) ∧ generate lib depth (withResolution st' (ids 0) n) = (.ok (), g') ∧
        (g.heap (ids 0)).mesh = (.ok M, d) ∧ (g'.heap (ids 0)).mesh = (.ok M', d') ∧
        (g.heap (ids 2)).mesh = (.ok F, e) ∧ (g'.heap (ids 2)).mesh = (.ok F', e') ∧ (M.tris = M'.tris → F.tris = F'.tris → p = p') := by
  obtain ⟨st, N, a1, -, a2⟩ := C148_hifire8_partial ptan hT h ids hi kw p ha hp hb hL
  obtain ⟨st', N', b1, -, b2⟩ := C148_hifire8_partial ptan hT h ids hi kw' p' ha' hp' hb' hL'
  refine ⟨st, st', max N N', a1, b1, fun n hn h1 => ?_⟩
  have resc : ∀ s : VState, Rescaled s (withResolution s (ids 0) n) := by
    refine fun s => ⟨rfl, fun k => ?_⟩
    by_cases hk : k = ids 0
    · subst hk
      exact .inr ⟨n, h1, by simp [withResolution, upd_self]⟩
    · exact .inl (by simp [withResolution, Heap.upd, hk])
  have res : ∀ s : VState, ((withResolution s (ids 0) n).heap (ids 0)).stl_resolution = .int n := fun s => by simp [withResolution, upd_self]
  obtain ⟨g, g1, ⟨M, d, m1, m2, m3⟩, -, ⟨F, e, f1, f2⟩, -⟩ := a2 _ lib depth (resc st)
  obtain ⟨g', g1', ⟨M', d', m1', m2', m3'⟩, -, ⟨F', e', f1', f2'⟩, -⟩ := b2 _ lib depth (resc st')
  refine ⟨g, g', M, M', F, F', d, d', e, e', g1, g1', m1, m1', f1, f1', fun eM eF => ?_⟩
  have y := (m3 n (res st) ((le_max_left _ _).trans hn)).1
  have y' := (m3' n (res st') ((le_max_right _ _).trans hn)).1
  have x := m2.length
  rw [eM] at x y
  have z := f2.width
  rw [eF] at z
  have e1 : p.nozzle_length = p'.nozzle_length := by have := (x.unique m2'.length).1; linarith
  have e2 := (x.unique m2'.length).2
  have e3 := (y.unique y').2
  have e4 := (z.unique f2'.width).2
  cases p
  cases p'
  simp only at e1 e2 e3 e4
  subst e1 e2 e3 e4
  rfl

/-- The position of the tip of the fairing, as an equation of the radii of nose and ogive. -/
theorem fairing_tip {h r_n r_o : ℝ} (h0 : r_n < h) (h1 : h < r_o) :
    0 < Real.sqrt ((r_o - r_n) ^ 2 - (r_o - h) ^ 2) ∧
      (Real.sqrt ((r_o - r_n) ^ 2 - (r_o - h) ^ 2) + r_n) ^ 2 + h ^ 2 - 2 * r_n * (Real.sqrt ((r_o - r_n) ^ 2 - (r_o - h) ^ 2) + r_n) =
        2 * r_o * (h - r_n) := by
  have e : (r_o - r_n) ^ 2 - (r_o - h) ^ 2 = (h - r_n) * (2 * r_o - r_n - h) := by ring
  have hp : 0 < (r_o - r_n) ^ 2 - (r_o - h) ^ 2 := by rw [e]; exact mul_pos (by linarith) (by linarith)
  refine ⟨Real.sqrt_pos.2 hp, ?_⟩
  have hs := Real.sq_sqrt hp.le
  nlinarith

/-- For one radius and one tip of the fairing, the radii of nose and ogive determine each other. -/
theorem radii_linked {h r_n r_o r_n' r_o' : ℝ} (h0 : r_n < h) (h1 : h < r_o) (h0' : r_n' < h) (h1' : h < r_o')
    (eT : Real.sqrt ((r_o - r_n) ^ 2 - (r_o - h) ^ 2) + r_n = Real.sqrt ((r_o' - r_n') ^ 2 - (r_o' - h) ^ 2) + r_n') :
    r_n = r_n' ↔ r_o = r_o' := by
  have q1 := (fairing_tip h0 h1).2
  have q2 := (fairing_tip h0' h1').2
  rw [← eT] at q2
  generalize Real.sqrt ((r_o - r_n) ^ 2 - (r_o - h) ^ 2) + r_n = T at q1 q2
  constructor
  · rintro rfl
    have : (h - r_n) * (r_o - r_o') = 0 := by linarith
    rcases mul_eq_zero.1 this with h9 | h9
    · linarith
    · linarith
  · rintro rfl
    have hT : T ≠ r_o := by
      rintro rfl
      have : (T - h) ^ 2 = 0 := by linarith
      have := pow_eq_zero_iff (two_ne_zero) |>.1 this
      linarith
    have : (T - r_o) * (r_n - r_n') = 0 := by linarith
    rcases mul_eq_zero.1 this with h9 | h9
    · exact absurd (by linarith) hT
    · linarith

/-- C172 for the Falcon 9: each of the six declared parameters is used.  From some resolution on, two rockets have the same meshes only if they
agree in the dimensions of the body and in length and radius of the fairing, and if, of the radii of nose and ogive, they agree in both or in
neither. -/
theorem C172_falcon9_used (hp : Heap) (id1 id2 : ℕ) (hid : id1 ≠ id2) (kw kw' : Dict String ℝ) (D L_b h r_n r_o f_L D' L_b' h' r_n' r_o' f_L' : ℝ)
    (ha : FalconArgs kw D L_b h r_n r_o f_L) (ha' : FalconArgs kw' D' L_b' h' r_n' r_o' f_L') (hd : FalconDims D L_b h r_n r_o f_L)
    (hd' : FalconDims D' L_b' h' r_n' r_o' f_L') (hw : D ≤ 2 * h) (hw' : D' ≤ 2 * h') (lib : Lib) (depth : ℕ) :
    ∃ st st' N, Falcon9.instanceOf hp id1 id2 kw = .ok st ∧ Falcon9.instanceOf hp id1 id2 kw' = .ok st' ∧
      ∀ n1 n2 : ℕ, N ≤ n1 → 1 ≤ n1 → 1 ≤ n2 → Even n2 → ∃ g g' M M' F F' d d' e e',
        generate lib depth (withResolution (withResolution st id1 n1) id2 n2) = (.ok (), g) ∧
        generate lib depth (withResolution (withResolution st' id1 n1) id2 n2) = (.ok (), g') ∧
        (g.heap id1).mesh = (.ok M, d) ∧ (g'.heap id1).mesh = (.ok M', d') ∧ (g.heap id2).mesh = (.ok F, e) ∧ (g'.heap id2).mesh = (.ok F', e') ∧
        (M.tris = M'.tris → F.tris = F'.tris → (D = D' ∧ L_b = L_b' ∧ f_L = f_L' ∧ h = h') ∧ (r_n = r_n' ↔ r_o = r_o')) := by
  obtain ⟨st, N, a1, a2⟩ := C137_falcon9 hp id1 id2 hid kw D L_b h r_n r_o f_L ha hd
  obtain ⟨st', N', b1, b2⟩ := C137_falcon9 hp id1 id2 hid kw' D' L_b' h' r_n' r_o' f_L' ha' hd'
  refine ⟨st, st', max N N', a1, b1, fun n1 n2 hn h1 h2 hev => ?_⟩
  obtain ⟨g, M, F, d, e, g1, m1, f1, x1, y1, x2, -, y2⟩ := a2 n1 n2 h1 h2 lib depth
  obtain ⟨g', M', F', d', e', g1', m1', f1', x1', y1', x2', -, y2'⟩ := b2 n1 n2 h1 h2 lib depth
  refine ⟨g, g', M, M', F, F', d, d', e, e', g1, g1', m1, m1', f1, f1', fun eM eF => ?_⟩
  have z1 := ((y1 hw).2 ((le_max_left _ _).trans hn)).1
  have z1' := ((y1' hw').2 ((le_max_right _ _).trans hn)).1
  have z2 := (y2 (.inl hev)).1
  have z2' := (y2' (.inl hev)).1
  rw [eM] at x1 z1
  rw [eF] at x2 z2
  have eh := (z1.unique z1').2
  have eD : D = D' := by have := (z2.unique z2').2; linarith
  have ef : f_L = f_L' := by have := (x2.unique x2').2; linarith
  have eL : L_b = L_b' := by have := (x2.unique x2').1; linarith
  have eT := (x1.unique x1').2
  refine ⟨⟨eD, eL, ef, eh⟩, ?_⟩
  rw [← eh] at eT
  exact radii_linked hd.nose.2 hd.ogive (eh ▸ hd'.nose.2) (eh ▸ hd'.ogive) eT

/-- A longer wingspan gives another mesh. -/
example (h : Heap) (id depth : ℕ) : ∃ st st', Wedge.instanceOf h id [] = .ok st ∧ Wedge.instanceOf h id [("wingspan", 2)] = .ok st' ∧
    ∃ g g' M M' d d', generate numpyStl depth (withResolution st id 3) = (.ok (), g) ∧
      generate numpyStl depth (withResolution st' id 3) = (.ok (), g') ∧ (g.heap id).mesh = (.ok M, d) ∧ (g'.heap id).mesh = (.ok M', d') ∧
      M.tris ≠ M'.tris := by
  obtain ⟨st, st', h1, h2, h3⟩ := C172_wedge_used h id [] [("wingspan", 2)] (by decide) (by decide) 1 1 0.1 2 1 0.1
    (.inr ⟨by simp, rfl⟩) (.inr ⟨by simp, rfl⟩) (.inr ⟨by simp, rfl⟩) (.inl (by simp)) (.inr ⟨by simp, rfl⟩) (.inr ⟨by simp, rfl⟩)
    (by norm_num) (by norm_num) numpyStl depth
  obtain ⟨g, g', M, M', d, d', k1, k2, k3, k4, k5⟩ := h3 3 (by norm_num)
  refine ⟨st, st', h1, h2, g, g', M, M', d, d', k1, k2, k3, k4, fun e => ?_⟩
  have := (k5 e).1
  norm_num at this

/-- The HIFiRE 8 without arguments meets the hypotheses of `C172_hifire8_used`. -/
example : HIFiRE8Args [] hifire8Default ∧ HIFiRE8Ok hifire8Default ∧ hifire8Default.R_nose ≤ hifire8Default.R_base ∧ 0.4 ≤ hifire8Default.L :=
  ⟨hifire8Default_ok.1, hifire8Default_ok.2, by simp only [hifire8Default]; norm_num, by simp only [hifire8Default]; norm_num⟩

/-- The Finner without arguments and one with a longer nose meet the hypotheses of `C172_finner_used`. -/
example : FinnerArgs [] ⟨1, 10, 2.84, 1, 1, 0.08⟩ ∧ FinnerArgs [("nose_length", 3)] ⟨1, 10, 3, 1, 1, 0.08⟩ := by
  constructor <;> constructor <;> first | decide | (refine .inr ⟨?_, rfl⟩; simp; done) | (refine .inl ?_; simp; done)

/-- The Falcon 9 without arguments meets the hypotheses of `C172_falcon9_used`. -/
example : FalconArgs [] 3.75 60 (5 / 2) 0.75 7 6 ∧ FalconDims 3.75 60 (5 / 2) 0.75 7 6 ∧ (3.75 : ℝ) ≤ 2 * (5 / 2) := by
  refine ⟨?_, ⟨by norm_num, by norm_num, by norm_num, by norm_num⟩, by norm_num⟩
  constructor <;> first | decide | (refine .inr ⟨?_, rfl⟩; simp; done)

/-- C172 for four of the five parameters of the D-21, in part: two vehicles have the same meshes only if they agree in radius and length of the
body, and in width and length of the wing up to the width of the rounded edges (missing: smaller differences of the wing, and the angle of the
flaps). -/
theorem C172_d21_used_partial (ptan : ℝ → ℝ) (hT : FloatTan ptan) (h : Heap) (ids : ℕ → ℕ) (hi : Function.Injective ids) (nw nt : ℕ)
    (hnw : 1 ≤ nw) (hnt : 1 ≤ nt) (kw kw' : Dict String ℝ) (p p' : D21.Params) (ha : D21Args kw p) (ha' : D21Args kw' p') (hp : D21Ok p)
    (hp' : D21Ok p') (hc : D21Coarse p nw) (hc' : D21Coarse p' nw) (lib : Lib) (depth : ℕ) :
    ∃ (st st' g g' : VState) (M M' : ℕ → StlMesh), D21.instanceOf bisect01 ptan h ids nw nt kw = .ok st ∧ D21.instanceOf bisect01 ptan h ids nw nt kw' = .ok st' ∧
      generate lib depth st = (.ok (), g) ∧ generate lib depth st' = (.ok (), g') ∧
      (∀ i < 6, ∃ c, (g.heap (ids i)).mesh = (.ok (M i), c)) ∧ (∀ i < 6, ∃ c, (g'.heap (ids i)).mesh = (.ok (M' i), c)) ∧
      ((∀ i < 6, (M i).tris = (M' i).tris) →
        p.R_b = p'.R_b ∧ p.L_b = p'.L_b ∧ |p.W_w - p'.W_w| ≤ 0.05 ∧ |p.L_w - p'.L_w| ≤ 0.06) := by
  obtain ⟨st, g, a1, a2, -, M, a3, a4⟩ := C142_d21 ptan hT h ids hi nw nt hnw hnt kw p ha hp hc lib depth
  obtain ⟨st', g', b1, b2, -, M', b3, b4⟩ := C142_d21 ptan hT h ids hi nw nt hnw hnt kw' p' ha' hp' hc' lib depth
  refine ⟨st, st', g, g', M, M', a1, b1, a2, b2, a3, b3, fun e => ?_⟩
  have e0 := e 0 (by norm_num)
  have e2 := e 2 (by norm_num)
  have e3 := e 3 (by norm_num)
  have q : ∀ {P P' : D21.Params} {N N' : ℕ → TriMesh ℝ}, N 0 = N' 0 → N 2 = N' 2 → N 3 = N' 3 → D21Sized P N → D21Sized P' N' →
      P.R_b = P'.R_b ∧ P.L_b = P'.L_b ∧ P.W_w ≤ P'.W_w + 0.05 ∧ P'.L_w ≤ P.L_w + 0.06 := by
    intro P P' N N' k0 k2 k3 s s'
    refine ⟨((k0 ▸ s.fuselage_width).unique s'.fuselage_width).2, by have := ((k0 ▸ s.fuselage_length).unique s'.fuselage_length).1; linarith, ?_, ?_⟩
    · obtain ⟨-, z, hz⟩ := s.wing_tips 1 (.inl rfl)
      rw [k2] at hz
      have := (abs_le.1 (s'.wing_box _ hz).2.2).2
      simp only at this
      linarith
    · have hv := (s.tail (-P.L_w, 0) (by simp)).1
      rw [k3] at hv
      obtain ⟨u, hu, -, h1, -⟩ := s'.tail_box _ hv
      have : u.x = -P.L_w := by
        have := congrArg (·.x) hu
        simpa [upright] using this.symm
      linarith
  obtain ⟨r1, r2, r3, r4⟩ := q e0 e2 e3 a4 b4
  obtain ⟨-, -, r5, r6⟩ := q e0.symm e2.symm e3.symm b4 a4
  exact ⟨r1, r2, abs_le.2 ⟨by linarith, by linarith⟩, abs_le.2 ⟨by linarith, by linarith⟩⟩

/-- The D-21 without arguments meets the hypotheses of `C172_d21_used_partial`. -/
example : D21Args [] d21Default ∧ D21Ok d21Default ∧ D21Coarse d21Default 3 :=
  ⟨d21Default_ok.1, d21Default_ok.2, d21Default_coarse 3 (by norm_num)⟩

end HV
