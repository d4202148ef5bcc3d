import Verif.Props.PhysicalRevolved
import Verif.Props.SizeRevolved
import Verif.Props.SymmetricFalcon

/-!
# C166: the mass properties of the Falcon 9
-/

namespace HV
open Spec Veh

/-- The outline of the fairing lies in the plane `z = 0`. -/
theorem fairing_flat (D L_b h r_n r_o f_L : ℝ) (hd : FalconDims D L_b h r_n r_o f_L) (P : PathObj)
    (hP : Falcon9.fairingLine D h r_n r_o f_L = .ok P) : ∀ t ∈ Set.Icc (0 : ℝ) 1, (fnOf P t).z = 0 := by
  obtain ⟨⟨hD, hL⟩, hf, ⟨hn, hnh⟩, hho⟩ := hd
  have hh : 0 < h := hn.trans hnh
  obtain ⟨q, κ, hq, hq2, hκ2, hseg⟩ := fairing_segments D h r_n r_o f_L hn hnh hho
  have g4 : GoodSeg (Line ⟨-f_L, h, 0⟩ ⟨-f_L - 0.1 * f_L, D / 2, 0⟩) := goodLine _ _ (by intro e; have := congrArg Vec.x e; simp at this; linarith)
  have g5 : GoodSeg (Line ⟨-f_L - 0.1 * f_L, D / 2, 0⟩ ⟨-f_L - 0.3 * f_L, 0, 0⟩) := goodLine _ _ (by intro e; have := congrArg Vec.y e; simp at this; linarith)
  have hgood5 : ∀ s ∈ [Line ⟨-f_L, h, 0⟩ ⟨-f_L - 0.1 * f_L, D / 2, 0⟩, Line ⟨-f_L - 0.1 * f_L, D / 2, 0⟩ ⟨-f_L - 0.3 * f_L, 0, 0⟩], GoodSeg s := by
    intro s hs
    simp only [List.mem_cons, List.not_mem_nil, or_false] at hs
    rcases hs with rfl | rfl <;> assumption
  obtain ⟨B, hB, gB, -, B1, aB⟩ := goodPolyline _ (by simp) hgood5
  have hP' := hP
  rw [hseg, hB] at hP'
  change Polyline _ = _ at hP'
  have inB : ∀ t ∈ Set.Icc (0 : ℝ) 1, (-1.3 * f_L ≤ (fnOf B t).x ∧ (fnOf B t).x ≤ 0) ∧ (0 ≤ (fnOf B t).y ∧ (fnOf B t).y ≤ max h (D / 2)) ∧
      (fnOf B t).z = 0 := by
    intro t ht
    obtain ⟨i, hi, u, ⟨hu0, hu1⟩, -, -, -, e⟩ := aB t ht
    rw [e]
    have m1 := le_max_left h (D / 2)
    have m2 := le_max_right h (D / 2)
    have k1 := mul_nonneg hf.le hu0
    have k2 := mul_nonneg hf.le (sub_nonneg.2 hu1)
    have k3 := mul_nonneg hD.le hu0
    have k4 := mul_nonneg hD.le (sub_nonneg.2 hu1)
    have k5 := mul_nonneg hh.le hu0
    have k6 := mul_nonneg hh.le (sub_nonneg.2 hu1)
    have k7 := mul_le_mul_of_nonneg_right m1 (sub_nonneg.2 hu1)
    have k8 := mul_le_mul_of_nonneg_right m2 hu0
    have k9 := mul_nonneg (hh.le.trans m1) hu0
    have k10 := mul_le_mul_of_nonneg_right m2 (sub_nonneg.2 hu1)
    have hi' : i < 2 := hi
    interval_cases i
    · simp only [List.getElem_cons_zero, fnOf_line]
      refine ⟨⟨?_, ?_⟩, ⟨?_, ?_⟩, ?_⟩ <;> linarith
    · simp only [List.getElem_cons_succ, List.getElem_cons_zero, fnOf_line]
      refine ⟨⟨?_, ?_⟩, ⟨?_, ?_⟩, ?_⟩ <;> linarith
  obtain ⟨-, -, -, p4, -⟩ := nose_profile h r_n r_o f_L q κ hn hnh hho hf hq hq2 hκ2 B gB (-1.3 * f_L) (max h (D / 2))
    (le_max_left _ _) (by linarith) inB P hP'
  exact fun t ht => (p4 t ht).2.2

/-- A line that is drawn backwards is an outline of the other orientation. -/
theorem outline_back {P : PathObj} {x0 x1 : ℝ} (hP : BackLine P x0 x1) (hx : x0 ≠ x1) (n : ℕ) (hn : 2 ≤ n) : Outline (-1) [fnOf P] n := by
  have hn0 : (0 : ℝ) < n := by exact_mod_cast (by omega : 0 < n)
  refine ⟨.inr rfl, fun f hf t t' h0 h h1 => ?_, ?_⟩
  · rw [List.mem_singleton.1 hf]
    have := hP.back t ⟨h0, h.trans h1⟩ t' ⟨h0.trans h, h1⟩ h
    linarith
  · refine ⟨fnOf P, by simp, ?_⟩
    have : ∃ i < n, (fnOf P ((i : ℝ) / n)).x ≠ (fnOf P (((i + 1 : ℕ) : ℝ) / n)).x := by
      by_contra hcon
      push Not at hcon
      have all : ∀ i : ℕ, i ≤ n → (fnOf P ((i : ℝ) / n)).x = x0 := by
        intro i
        induction i with
        | zero => intro _; rw [Nat.cast_zero, zero_div, hP.first]
        | succ i ih => intro hi; rw [← hcon i hi]; exact ih (by omega)
      have := all n le_rfl
      rw [div_self hn0.ne', hP.last] at this
      exact hx this.symm
    obtain ⟨i, hi, hne⟩ := this
    refine ⟨i, hi, hne, ?_⟩
    rcases Nat.eq_zero_or_pos i with rfl | h0
    · right
      refine (hP.above _ (by positivity) ?_).ne'
      rw [div_lt_one hn0]
      exact_mod_cast (by omega : 0 + 1 < n)
    · left
      refine (hP.above _ (by positivity) ?_).ne'
      rw [div_lt_one hn0]
      exact_mod_cast hi

/-- The properties that the library reports for the two bodies of the Falcon 9. -/
theorem falcon_possible (hp : Heap) (id1 id2 : ℕ) (hid : id1 ≠ id2) (kwargs : Dict String ℝ) (D L_b h r_n r_o f_L : ℝ)
    (ha : FalconArgs kwargs D L_b h r_n r_o f_L) (hd : FalconDims D L_b h r_n r_o f_L) (lib : Lib) (hl : NumpyStlInertia lib) (depth : ℕ) :
    ∃ st, Falcon9.instanceOf hp id1 id2 kwargs = .ok st ∧ ∀ n1 n2 : ℕ, 2 ≤ n1 → 2 ≤ n2 →
      ∃ st', generate lib depth (withResolution (withResolution st id1 n1) id2 n2) = (.ok (), st') ∧
        st'.veh = { falconVeh id1 id2 with generated := true } ∧
        ∀ k ∈ [id1, id2], ∃ M c, (st'.heap k).mesh = (.ok M, c) ∧ ∀ ρ, 0 < ρ → ∀ q, lib.massProps M ρ = .ok q →
          Possible M.tris ⟨-q.volume, -q.mass, q.cog, fun i j => -q.moi i j⟩ := by
  obtain ⟨P, hP, bP⟩ := fairing_backLine D L_b h r_n r_o f_L hd
  obtain ⟨Q, hQ, bQ, fQ⟩ := body_backLine D L_b h f_L hd.body.1 hd.body.2
  obtain ⟨st, h1, h2, h3, h4⟩ := falcon_instance hp id1 id2 hid kwargs ha.keys D L_b h r_n r_o f_L ha.D ha.L_b ha.h' ha.nose ha.ogive
    ha.fairing P Q hP hQ
  refine ⟨st, h1, fun n1 n2 hn1 hn2 => ?_⟩
  obtain ⟨st', M1, M2, c1, c2, s1, s2, s3, -⟩ :=
    falcon_generate st id1 id2 hid h2 P Q 100 50 h3 h4 _ _ _ _ bP bQ n1 n2 (by omega) (by omega) lib depth
  set w := withResolution (withResolution st id1 n1) id2 n2 with hw
  have w1 : w.heap id1 = RevolvedComponent P n1 := by
    show ((st.heap.upd id1 _).upd id2 _) id1 = _
    rw [upd_ne _ _ _ _ hid, upd_self, h3]; rfl
  have w2 : w.heap id2 = RevolvedComponent Q n2 := by
    show ((st.heap.upd id1 _).upd id2 { (st.heap.upd id1 _) id2 with stl_resolution := .int n2 }) id2 = _
    rw [upd_self, upd_ne _ _ _ _ hid.symm, h4]; rfl
  have wv : w.veh = falconVeh id1 id2 := h2
  have hcs : w.veh.components = [id1, id2] := by rw [wv]; rfl
  have hun : Unshared w.heap w.veh.components := by
    rw [hcs]
    refine unshared_leaves _ _ (by simp [hid]) ?_
    intro k hk
    simp only [List.mem_cons, List.not_mem_nil, or_false] at hk
    rcases hk with rfl | rfl
    · unfold Comp.children; rw [w1]; rfl
    · unfold Comp.children; rw [w2]; rfl
  have hv : st'.veh = { falconVeh id1 id2 with generated := true } := by
    obtain ⟨-, h2, -, -, e3, -⟩ := generate_steps lib depth w st' s1
    simp only [genAnalyse, wv, falconVeh] at e3
    rw [← (Prod.mk.inj e3).2]
    rfl
  have key : ∀ (k : ℕ) (L : PathObj) (n : ℕ) (z0 z1 : ℝ), 2 ≤ n → k ∈ w.veh.components → BackLine L z0 z1 → z0 ≠ z1 →
      (∀ t ∈ Set.Icc (0 : ℝ) 1, (fnOf L t).z = 0) → w.heap k = RevolvedComponent L n → ∃ M c, (st'.heap k).mesh = (.ok M, c) ∧
        ∀ ρ, 0 < ρ → ∀ q, lib.massProps M ρ = .ok q → Possible M.tris ⟨-q.volume, -q.mass, q.cog, fun i j => -q.moi i j⟩ := by
    intro k L n z0 z1 hn hk hL hz hflat hc
    obtain ⟨M, c, m1, m2⟩ := revolved_in_vehicle lib depth w st' (by rw [wv]; rfl) (by rw [wv]; rfl) (by rw [wv]; rfl) hun s1 k
      hk L (fnOf L) (fun t _ _ => hL.good.call t) n (by omega) hc
    refine ⟨M, c, m1, fun ρ hρ q hq => ?_⟩
    have he : EndsMeet [fnOf L] := by simp [EndsMeet, hL.first, hL.last]
    have := body_possible lib hl [fnOf L] (by simpa using fun t a b => hflat t ⟨a, b⟩) he n (by omega) (-1) (outline_back hL hz n hn) ρ hρ M
      (by rw [m2]; simp [allGrids]) q hq
    simpa only [neg_one_mul] using this
  refine ⟨st', s1, hv, fun k hk => ?_⟩
  simp only [List.mem_cons, List.not_mem_nil, or_false] at hk
  rcases hk with rfl | rfl
  · refine key _ P n1 _ _ hn1 (by rw [hcs]; simp) bP ?_ (fairing_flat D L_b h r_n r_o f_L hd P hP) w1
    have := Real.sqrt_nonneg ((r_o - r_n) ^ 2 - (r_o - h) ^ 2)
    have := hd.fairing
    have := hd.nose.1
    intro e
    linarith
  · refine key _ Q n2 _ _ hn2 (by rw [hcs]; simp) bQ ?_ (fun t ht => (fQ t ht).2.2) w2
    have := hd.body.2
    intro e
    linarith

theorem Spec.IsInertia.diag {I : Fin 3 → Fin 3 → ℝ} (h : IsInertia I) (i : Fin 3) : 0 < I i i := by
  have := (h.2 (Pi.single i 1) (by intro e; have := congrFun e i; simp at this)).1
  unfold form at this
  fin_cases i <;> simpa [Fin.sum_univ_three, Pi.single_apply] using this

theorem falcon_components (lib : Lib) (depth : ℕ) (st st' : VState) (dens : Dict String ℝ) (a : Analysis) (id1 id2 : ℕ)
    (hv : st.veh = { falconVeh id1 id2 with generated := true }) (hd : ∀ e ∈ st.veh.named, ∃ ρ, dens.get? e.1 = some ρ ∧ 0 < ρ)
    (hm : ∀ k ∈ [id1, id2], ∃ M c, (st.heap k).mesh = (.ok M, c) ∧ ∀ ρ, 0 < ρ → ∀ q, lib.massProps M ρ = .ok q →
      Possible M.tris ⟨-q.volume, -q.mass, q.cog, fun i j => -q.moi i j⟩) (h : analyse lib (depth + 1) st dens = (.ok a, st')) :
    ∀ q ∈ a.components, ∃ e ∈ st.veh.named, ∃ M c, (st.heap e.2).mesh = (.ok M, c) ∧
      Possible M.tris ⟨-q.2.props.volume, -q.2.props.mass, q.2.props.cog, fun i j => -q.2.props.moi i j⟩ := by
  intro q hq
  obtain ⟨e, he, -, M, d, ρ, m1, m2, m3, -⟩ := forall₂_assessed (C76_sums lib depth st st' dens a (by rw [hv]) h).components q hq
  refine ⟨e, he, M, d, m1, ?_⟩
  obtain ⟨ρ', r1, r2⟩ := hd e he
  rw [m2] at r1
  obtain rfl := Option.some.inj r1
  obtain ⟨M', c, n1, n2⟩ := hm e.2 (by
    rw [hv] at he
    simp only [falconVeh, List.mem_cons, List.not_mem_nil, or_false] at he ⊢
    rcases he with rfl | rfl <;> simp)
  rw [m1] at n1
  obtain rfl := Except.ok.inj (Prod.mk.inj n1).1
  exact n2 ρ r2 _ m3

/-- C166 for the Falcon 9, in part: for all sensible dimensions, resolutions from 2 and positive densities, the centre of gravity reported for each of
the two bodies is inside of the hull of its mesh, and minus the volume, the mass and the tensor of inertia are those of a possible body.  Missing: the
sign, see `C166_falcon9_violated`. -/
theorem C166_falcon9_partial (hp : Heap) (id1 id2 : ℕ) (hid : id1 ≠ id2) (kwargs : Dict String ℝ) (D L_b h r_n r_o f_L : ℝ)
    (ha : FalconArgs kwargs D L_b h r_n r_o f_L) (hd : FalconDims D L_b h r_n r_o f_L) (lib : Lib) (hl : NumpyStlInertia lib) (depth : ℕ)
    (dens : Dict String ℝ) (hdens : ∀ name ∈ ["revolved_1", "revolved_2"], ∃ ρ, dens.get? name = some ρ ∧ 0 < ρ) :
    ∃ st, Falcon9.instanceOf hp id1 id2 kwargs = .ok st ∧ ∀ n1 n2 : ℕ, 2 ≤ n1 → 2 ≤ n2 →
      ∃ st', generate lib depth (withResolution (withResolution st id1 n1) id2 n2) = (.ok (), st') ∧
      ∀ a st'', analyse lib (depth + 1) st' dens = (.ok a, st'') → ∀ q ∈ a.components, ∃ e ∈ [("revolved_1", id1), ("revolved_2", id2)], ∃ M c,
        (st'.heap e.2).mesh = (.ok M, c) ∧ Possible M.tris ⟨-q.2.props.volume, -q.2.props.mass, q.2.props.cog, fun i j => -q.2.props.moi i j⟩ := by
  obtain ⟨st, h1, h2⟩ := falcon_possible hp id1 id2 hid kwargs D L_b h r_n r_o f_L ha hd lib hl depth
  refine ⟨st, h1, fun n1 n2 hn1 hn2 => ?_⟩
  obtain ⟨st', s1, s2, s3⟩ := h2 n1 n2 hn1 hn2
  refine ⟨st', s1, fun a st'' hA q hq => ?_⟩
  have := falcon_components lib depth st' st'' dens a id1 id2 s2 (by
    rw [s2]
    intro e he
    refine hdens e.1 ?_
    simp only [falconVeh, List.mem_cons, List.not_mem_nil, or_false] at he ⊢
    rcases he with rfl | rfl <;> simp) s3 hA q hq
  rwa [s2] at this

/-- C166 is violated by the Falcon 9: for all sensible dimensions, resolutions from 2 and positive densities, the volume, the mass and all moments
of inertia that are reported are negative, for both bodies and for the vehicle. -/
theorem C166_falcon9_violated (hp : Heap) (id1 id2 : ℕ) (hid : id1 ≠ id2) (kwargs : Dict String ℝ) (D L_b h r_n r_o f_L : ℝ)
    (ha : FalconArgs kwargs D L_b h r_n r_o f_L) (hd : FalconDims D L_b h r_n r_o f_L) (lib : Lib) (hl : NumpyStlInertia lib) (depth : ℕ)
    (dens : Dict String ℝ) (hdens : ∀ name ∈ ["revolved_1", "revolved_2"], ∃ ρ, dens.get? name = some ρ ∧ 0 < ρ) :
    ∃ st, Falcon9.instanceOf hp id1 id2 kwargs = .ok st ∧ ∀ n1 n2 : ℕ, 2 ≤ n1 → 2 ≤ n2 →
      ∃ st', generate lib depth (withResolution (withResolution st id1 n1) id2 n2) = (.ok (), st') ∧
      ((∀ M ρ, ∃ q, lib.massProps M ρ = .ok q) → ∃ a st'', analyse lib (depth + 1) st' dens = (.ok a, st'')) ∧
      ∀ a st'', analyse lib (depth + 1) st' dens = (.ok a, st'') → a.volume < 0 ∧ a.mass < 0 ∧
        (∀ q ∈ a.components, q.2.props.volume < 0 ∧ q.2.props.mass < 0 ∧ ∀ i, q.2.props.moi i i < 0) ∧
        ∃ I, a.moi = some I ∧ ∀ i, I i i < 0 := by
  obtain ⟨st, h1, h2⟩ := falcon_possible hp id1 id2 hid kwargs D L_b h r_n r_o f_L ha hd lib hl depth
  refine ⟨st, h1, fun n1 n2 hn1 hn2 => ?_⟩
  obtain ⟨st', s1, s2, s3⟩ := h2 n1 n2 hn1 hn2
  have hnames : ∀ e ∈ st'.veh.named, (∃ ρ, dens.get? e.1 = some ρ ∧ 0 < ρ) ∧ e.2 ∈ [id1, id2] := by
    rw [s2]
    intro e he
    simp only [falconVeh, List.mem_cons, List.not_mem_nil, or_false] at he
    rcases he with rfl | rfl
    · exact ⟨hdens _ (by simp), by simp⟩
    · exact ⟨hdens _ (by simp), by simp⟩
  refine ⟨st', s1, fun hlib => ?_, fun a st'' hA => ?_⟩
  · refine analyse_succeeds lib hlib st' dens depth (by rw [s2]) (by rw [s2]; simp [falconVeh]) (fun e he => ?_) (fun e he => ?_)
    · obtain ⟨M, c, m, -⟩ := s3 e.2 (hnames e he).2
      exact ⟨M, c, m⟩
    · obtain ⟨ρ, r, -⟩ := (hnames e he).1
      exact ⟨ρ, r⟩
  have parts : ∀ q ∈ a.components, q.2.props.volume < 0 ∧ q.2.props.mass < 0 ∧ ∀ i, q.2.props.moi i i < 0 := by
    intro q hq
    obtain ⟨e, -, M, c, -, hP⟩ := falcon_components lib depth st' st'' dens a id1 id2 s2 (fun e he => (hnames e he).1) s3 hA q hq
    exact ⟨neg_pos.1 hP.volume, neg_pos.1 hP.mass, fun i => neg_pos.1 (hP.moi.diag i)⟩
  have hT := C76_sums lib depth st' st'' dens a (by rw [s2]) hA
  obtain ⟨q0, hq0⟩ : ∃ q, q ∈ a.components := by
    have := hT.components.length_eq
    rw [s2] at this
    rcases hc : a.components with _ | ⟨q, l⟩
    · rw [hc] at this; simp [falconVeh] at this
    · exact ⟨q, by simp⟩
  have neg : ∀ f : String × CompProps → ℝ, (∀ q ∈ a.components, f q < 0) → (a.components.map f).sum < 0 := by
    intro f hf
    have := sum_pos_of a.components (fun q => -f q) (fun q hq => (neg_pos.2 (hf q hq)).le) q0 hq0 (neg_pos.2 (hf q0 hq0))
    have e : (a.components.map fun q => -f q).sum = -(a.components.map f).sum := by
      generalize a.components = l
      induction l with
      | nil => simp
      | cons q l ih => simp only [List.map_cons, List.sum_cons, ih]; ring
    rw [e] at this
    linarith
  have hmass : a.mass < 0 := by rw [hT.mass]; exact neg _ fun q hq => (parts q hq).2.1
  refine ⟨by rw [hT.volume]; exact neg _ fun q hq => (parts q hq).1, hmass, parts, ?_⟩
  obtain ⟨g, I, -, e2, e3⟩ := moi_returned lib depth st' st'' dens a (by rw [s2]) hA hmass.ne
  refine ⟨I, e2, fun i => ?_⟩
  rw [e3]
  refine neg _ fun q hq => ?_
  have p1 := (parts q hq).2.2 i
  have p2 := mul_nonneg (neg_nonneg.2 (parts q hq).2.1.le) (sq_nonneg (coord (q.2.props.cog - g) i))
  linarith

/-- The default dimensions and two densities meet the hypotheses. -/
example : FalconArgs [] 3.75 60 (5 / 2) 0.75 7 6 ∧ FalconDims 3.75 60 (5 / 2) 0.75 7 6 ∧ NumpyStlInertia numpyStlFull ∧
    ∀ name ∈ ["revolved_1", "revolved_2"], ∃ ρ : ℝ, Dict.get? [("revolved_1", (500 : ℝ)), ("revolved_2", 900)] name = some ρ ∧ 0 < ρ := by
  refine ⟨⟨by simp [Dict.keys], .inr ⟨by simp, rfl⟩, .inr ⟨by simp, rfl⟩, .inr ⟨by simp, rfl⟩, .inr ⟨by simp, rfl⟩, .inr ⟨by simp, rfl⟩,
    .inr ⟨by simp, rfl⟩⟩, ⟨⟨by norm_num, by norm_num⟩, by norm_num, ⟨by norm_num, by norm_num⟩, by norm_num⟩, numpyStlFull_ok, ?_⟩
  simp only [List.mem_cons, List.not_mem_nil, or_false]
  rintro name (rfl | rfl)
  · exact ⟨500, by simp [Dict.get?], by norm_num⟩
  · exact ⟨900, by simp [Dict.get?], by norm_num⟩

end HV
