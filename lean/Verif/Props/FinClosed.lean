import Verif.Lemmas.FinParts

/-!
# C105: fins are watertight up to a small gap
-/

namespace HV
open Spec

/-! ## Elliptical Coons patches -/

/-- A Coons patch as a panel between discrete curves that agree with its edges, except at the corners where the edges do not meet
exactly. -/
theorem coons_panel (k : ℕ) (hk : 1 ≤ k) (n e s w : PathObj) (N E S W : ℝ → V) (hn : ∀ t, n.call t = .ok (N t))
    (he : ∀ t, e.call t = .ok (E t)) (hs : ∀ t, s.call t = .ok (S t)) (hw : ∀ t, w.call t = .ok (W t))
    (k00 : CornerClose (S 0) (W 0)) (k10 : CornerClose (S 1) (E 0)) (k01 : CornerClose (N 0) (W 1)) (k11 : CornerClose (N 1) (E 1))
    (δ : ℝ) (d00 : vdist (S 0) (W 0) ≤ δ) (d10 : vdist (S 1) (E 0) ≤ δ) (d01 : vdist (N 0) (W 1) ≤ δ) (d11 : vdist (N 1) (E 1) ≤ δ)
    (Sd Nd Wd Ed : ℕ → V) (sw : Sd 0 = Wd 0) (se : Sd k = Ed 0) (nw : Nd 0 = Wd k) (ne : Nd k = Ed k)
    (gW : ∀ j ≤ k, vdist (W ((j : ℝ) / k)) (Wd j) ≤ δ) (gE : ∀ j ≤ k, vdist (E ((j : ℝ) / k)) (Ed j) ≤ δ)
    (gS : ∀ i, 0 < i → i < k → Sd i = S ((i : ℝ) / k)) (gN : ∀ i, 0 < i → i < k → Nd i = N ((i : ℝ) / k)) :
    ∃ (F : Surf) (G : ℝ → ℝ → V), CoonsPatch n e s w = .ok F ∧ (∀ u v, F u v = .ok (G u v)) ∧
      (⟨fun i j => G ((i : ℝ) / k) ((j : ℝ) / k), Sd, Nd, Wd, Ed⟩ : Panel).Good k δ := by
  obtain ⟨F, G, h1, h2, h3, h4, h5⟩ := coons_near n e s w N E S W hn he hs hw k00 k10 k01 k11 δ d00 d10 d01 d11
  have hk0 : (0 : ℝ) < k := by exact_mod_cast hk
  refine ⟨F, G, h1, h2, ⟨sw, se, nw, ne, ?_, ?_, ?_, ?_⟩⟩
  · intro i hi
    simp only [Nat.cast_zero, zero_div]
    rcases Nat.eq_zero_or_pos i with rfl | h0
    · have := gW 0 (by omega)
      simpa [h3, sw] using this
    · rcases hi.lt_or_eq with hlt | rfl
      · rw [gS i h0 hlt]
        exact (h5 _ ⟨by positivity, (div_le_one hk0).2 (by exact_mod_cast hi)⟩).1
      · have := gE 0 (by omega)
        simpa [div_self hk0.ne', h4, se] using this
  · intro i hi
    simp only [div_self hk0.ne']
    rcases Nat.eq_zero_or_pos i with rfl | h0
    · have := gW k le_rfl
      simpa [h3, nw, div_self hk0.ne'] using this
    · rcases hi.lt_or_eq with hlt | rfl
      · rw [gN i h0 hlt]
        exact (h5 _ ⟨by positivity, (div_le_one hk0).2 (by exact_mod_cast hi)⟩).2
      · have := gE i le_rfl
        simpa [div_self hk0.ne', h4, ne] using this
  · intro j hj
    simp only [Nat.cast_zero, zero_div, h3]
    exact gW j hj
  · intro j hj
    simp only [div_self hk0.ne', h4]
    exact gE j hj

theorem swing_right (v : V) (h : v.x = 0) : swing (Real.pi / 2) v = v := by
  ext <;> simp [swing, h]

theorem swing_zero (v : V) : swing 0 v = ⟨v.y, 0, v.z⟩ := by
  ext <;> simp [swing]

/-! ## Placement -/

theorem rot_isometry (a : Ax) (θ : ℝ) (u v : V) : vdist (rotAbout a θ u) (rotAbout a θ v) = vdist u v := by
  apply vdist_eq_of_sq
  have hcs := Real.sin_sq_add_cos_sq θ
  rw [vdist_sq, vdist_sq]
  cases a <;> simp only [rotAbout]
  · linear_combination ((u.y - v.y) ^ 2 + (u.z - v.z) ^ 2) * hcs
  · linear_combination ((u.x - v.x) ^ 2 + (u.z - v.z) ^ 2) * hcs
  · linear_combination ((u.x - v.x) ^ 2 + (u.y - v.y) ^ 2) * hcs

theorem vdist_sub_right (u v w : V) : vdist (u - w) (v - w) = vdist u v := by
  apply vdist_eq_of_sq
  rw [vdist_sq, vdist_sq]
  simp

/-- The placement of a fin whose offset is constant. -/
noncomputable def finMove (a : Fin.Args) (o v : V) : V :=
  rotAbout .x a.fin_angle (rotAbout .y a.pivot_angle (v - a.pivot_point) + a.pivot_point - ⟨0, 0, 0⟩) + ⟨0, 0, 0⟩ + o

theorem finMove_isometry (a : Fin.Args) (o u v : V) : vdist (finMove a o u) (finMove a o v) = vdist u v := by
  unfold finMove
  rw [vdist_add_right, vdist_add_right, rot_isometry, vdist_sub_right, vdist_add_right, rot_isometry, vdist_sub_right]

/-- The offset of the fin is constant. -/
def Spec.OffsetBy (a : Fin.Args) (o : V) : Prop := match a.offset_func with
  | none => o = ⟨0, 0, 0⟩
  | some f => ∀ x y z, f x y z = .ok o

theorem place_move (a : Fin.Args) (o : V) (ho : OffsetBy a o) (S : Surf) (r s : ℝ) (p : V) (hp : S r s = .ok p) :
    Fin.place a S r s = .ok (finMove a o p) := by
  have h1 := RotatedPatch_eq S a.pivot_angle "y" .y a.pivot_point ((namesAxis_iff _ 1).1 (.inl rfl)) r s p hp
  have h2 := RotatedPatch_eq _ a.fin_angle "x" .x ⟨0, 0, 0⟩ ((namesAxis_iff _ 0).1 (.inl rfl)) r s _ h1
  unfold Fin.place
  unfold OffsetBy at ho
  cases hf : a.offset_func with
  | none =>
    rw [hf] at ho
    simp only at ho ⊢
    rw [h2, ho]
    simp only [finMove, Except.ok.injEq]
    ext <;> simp
  | some f =>
    rw [hf] at ho
    simp only at ho ⊢
    rw [offsetPatch_ok]
    exact ⟨_, o, h2, ho _ _ _, rfl⟩

/-! ## The statement -/

namespace Spec

/-- The root finder returns, for a continuous function whose values at 0 and 1 do not have the same sign, a point of the interval
within `η` of a root. -/
def FindsRoot (η : ℝ) (find : (ℝ → Res ℝ) → Res ℝ) : Prop :=
  ∀ (f : ℝ → Res ℝ) (g : ℝ → ℝ), (∀ t ∈ Set.Icc (0 : ℝ) 1, f t = .ok (g t)) → ContinuousOn g (Set.Icc 0 1) → g 0 * g 1 ≤ 0 →
    ∃ t ∈ Set.Icc (0 : ℝ) 1, find f = .ok t ∧ ∃ r ∈ Set.Icc (0 : ℝ) 1, g r = 0 ∧ |t - r| ≤ η

/-- A fin of uniform thickness. -/
structure UniformFin (ptan : ℝ → ℝ) (a : Fin.Args) (wmin : ℝ) (o : V) : Prop where
  like : TanLike ptan
  thick : 0 < a.fin_thickness
  top : a.top_tf = uniformThickness a.fin_thickness "top"
  bot : a.bot_tf = uniformThickness a.fin_thickness "bot"
  n12 : a.p1 ≠ a.p2
  n23 : a.p2 ≠ a.p3
  wpos : 0 < wmin
  fits : PoleFits ptan (a.fin_thickness / 2) wmin
  width : ∀ t ∈ Set.Icc (0 : ℝ) 1, ∃ w, wmin ≤ w ∧ a.LE_wf t = .ok w
  sharp : a.rudder_type = "sharp" → a.p1.z = 0
  offset : OffsetBy a o

/-- The corner `p2` is the only point of the leading edge with its `x`: it is the point the root finder is meant to find. -/
def BreakFound (a : Fin.Args) : Prop := (a.p1.x - a.p2.x) * (a.p3.x - a.p2.x) < 0

/-- The gap: error of the break along the leading edge, and distance of the elliptical edges from the skins. -/
noncomputable def finGap (ptan : ℝ → ℝ) (a : Fin.Args) (wmin η : ℝ) : ℝ :=
  brokenLength a.p1 a.p2 a.p3 * η + poleGap ptan (a.fin_thickness / 2) wmin

end Spec

section
variable {ptan : ℝ → ℝ} {a : Fin.Args} {wmin : ℝ} {o : V}

theorem Spec.UniformFin.rim (h : UniformFin ptan a wmin o) : RimOk ptan (a.fin_thickness / 2) wmin a.LE_wf :=
  ⟨h.like, by have := h.thick; positivity, h.wpos, h.fits, h.width⟩

theorem Spec.UniformFin.tt (h : UniformFin ptan a wmin o) (x y z : ℝ) : a.top_tf x y z = .ok ⟨0, 0, -(a.fin_thickness / 2)⟩ := by
  rw [h.top]; simp [uniformThickness]; ring

theorem Spec.UniformFin.tb (h : UniformFin ptan a wmin o) (x y z : ℝ) : a.bot_tf x y z = .ok ⟨0, 0, a.fin_thickness / 2⟩ := by
  rw [h.bot]; simp [uniformThickness]

theorem half_eq (a : Fin.Args) : Fin.half a = upBy (a.fin_thickness / 2) := rfl

/-- The skins. -/
theorem fin_skins (h : UniformFin ptan a wmin o) (n : ℕ) : ∃ l, Fin.skins a = .ok l ∧
    List.Forall₂ (fun (e : String × Surf) (p : Panel) => ∀ i ≤ n, ∀ j ≤ n, e.2 ((i : ℝ) / n) ((j : ℝ) / n) = .ok (p.P i j)) l
      [quad n (a.p0 - Fin.half a) (a.p1 - Fin.half a) (a.p2 - Fin.half a) (a.p3 - Fin.half a),
       quad n (a.p0 + Fin.half a) (a.p3 + Fin.half a) (a.p2 + Fin.half a) (a.p1 + Fin.half a)] := by
  obtain ⟨P, hP, vP⟩ := coons_quad (Line a.p1 a.p2) (Line a.p3 a.p2) (Line a.p0 a.p3) (Line a.p0 a.p1) a.p0 a.p3 a.p2 a.p1
    (fun _ => rfl) (fun _ => rfl) (fun _ => rfl) (fun _ => rfl)
  obtain ⟨F, hF, vF⟩ := coons_quad (Line a.p3 a.p2) (Line a.p1 a.p2) (Line a.p0 a.p1) (Line a.p0 a.p3) a.p0 a.p1 a.p2 a.p3
    (fun _ => rfl) (fun _ => rfl) (fun _ => rfl) (fun _ => rfl)
  refine ⟨_, by unfold Fin.skins Fin.planform; rw [hP, ok_bind, hF, ok_bind]; rfl, ?_⟩
  refine .cons ?_ (.cons ?_ .nil)
  · intro i _ j _
    rw [offsetPatch_ok]
    refine ⟨_, _, vF _ _, by rw [h.top]; rfl, ?_⟩
    simp only [quad, bil_sub]
    ext <;> simp [Fin.half] <;> ring
  · intro i _ j _
    rw [offsetPatch_ok]
    refine ⟨_, _, vP _ _, by rw [h.bot]; rfl, ?_⟩
    simp only [quad, bil_add]
    ext <;> simp [Fin.half]

/-- The leading edge patches for a found parameter `tB`. -/
theorem leading_patches (find : (ℝ → Res ℝ) → Res ℝ) (h : UniformFin ptan a wmin o) (n : ℕ) (hn : 1 ≤ n) (line : PathObj) (PL : ℝ → V)
    (hcall : ∀ t, line.call t = .ok (PL t)) (tB : ℝ) (htB : tB ∈ Set.Icc (0 : ℝ) 1)
    (hfind : find (fun t => do let p ← line.call t; return p.x - a.p2.x) = .ok tB) :
    ∃ l, Fin.leadingEdge find ptan a line = .ok l ∧
      List.Forall₂ (fun (e : String × Surf) (p : Panel) => ∀ i ≤ n, ∀ j ≤ n, e.2 ((i : ℝ) / n) ((j : ℝ) / n) = .ok (p.P i j)) l
        [leTop ptan (a.fin_thickness / 2) a.LE_wf PL n 0 tB a.p1 a.p2, leTop ptan (a.fin_thickness / 2) a.LE_wf PL n tB 1 a.p2 a.p3,
         leBot ptan (a.fin_thickness / 2) a.LE_wf PL n 0 tB a.p1 a.p2, leBot ptan (a.fin_thickness / 2) a.LE_wf PL n tB 1 a.p2 a.p3] := by
  have hrim := h.rim
  have z0 : (0 : ℝ) ∈ Set.Icc (0 : ℝ) 1 := ⟨le_rfl, zero_le_one⟩
  have z1 : (1 : ℝ) ∈ Set.Icc (0 : ℝ) 1 := ⟨zero_le_one, le_rfl⟩
  have hmean : ∀ t, (GeometricMeanPathFunction (OffsetPathFunction line a.top_tf) (OffsetPathFunction line a.bot_tf)).call t = .ok (PL t) := by
    intro t
    simp only [GeometricMeanPathFunction, meanPathAt, OffsetPathFunction, offsetPathAt, hcall, ok_bind, h.top, h.bot, uniformThickness,
      pure_eq]
    congr 1
    ext <;> simp <;> ring
  have hth : |a.fin_thickness / 2| = a.fin_thickness / 2 := abs_of_pos (by have := h.thick; positivity)
  have hgt : ∀ t, ∃ g, (OffsetPathFunction line a.top_tf).call t = .ok g ∧ |(PL t).z - g.z| = a.fin_thickness / 2 := by
    intro t
    refine ⟨PL t + ⟨0, 0, -(a.fin_thickness / 2)⟩, ?_, ?_⟩
    · simp only [OffsetPathFunction, offsetPathAt, hcall, ok_bind, h.tt, pure_eq]
    · simpa using hth
  have hgb : ∀ t, ∃ g, (OffsetPathFunction line a.bot_tf).call t = .ok g ∧ |(PL t).z - g.z| = a.fin_thickness / 2 := by
    intro t
    refine ⟨PL t + ⟨0, 0, a.fin_thickness / 2⟩, ?_, ?_⟩
    · simp only [OffsetPathFunction, offsetPathAt, hcall, ok_bind, h.tb, pure_eq]
    · simpa using hth
  have hb0 := hrim.bpos
  have wok : ∀ t0 t1 : ℝ, t0 ∈ Set.Icc (0 : ℝ) 1 → t1 ∈ Set.Icc (0 : ℝ) 1 → ∀ i ≤ n, ∃ w, a.LE_wf (t1 - (i : ℝ) / n * (t1 - t0)) = .ok w := by
    intro t0 t1 m0 m1 i hi
    have hn0 : (0 : ℝ) < n := by exact_mod_cast hn
    have u0 : (0 : ℝ) ≤ (i : ℝ) / n := by positivity
    have u1 : (i : ℝ) / n ≤ 1 := (div_le_one hn0).2 (by exact_mod_cast hi)
    exact ⟨_, hrim.width_ok ⟨by nlinarith [m0.1, m1.1], by nlinarith [m0.2, m1.2]⟩⟩
  refine ⟨_, by unfold Fin.leadingEdge; simp only [hfind, ok_bind]; rfl, ?_⟩
  refine .cons ?_ (.cons ?_ (.cons ?_ (.cons ?_ .nil)))
  · intro i hi j _
    exact le_value ptan _ hb0 a.LE_wf PL _ _ true hmean hgt 0 tB _ _ (wok 0 tB z0 htB i hi)
  · intro i hi j _
    exact le_value ptan _ hb0 a.LE_wf PL _ _ true hmean hgt tB 1 _ _ (wok tB 1 htB z1 i hi)
  · intro i hi j _
    exact le_value ptan _ hb0 a.LE_wf PL _ _ false hmean hgb 0 tB _ _ (wok 0 tB z0 htB i hi)
  · intro i hi j _
    exact le_value ptan _ hb0 a.LE_wf PL _ _ false hmean hgb tB 1 _ _ (wok tB 1 htB z1 i hi)

/-- The leading edge. -/
theorem fin_leading (find : (ℝ → Res ℝ) → Res ℝ) (η : ℝ) (hη : FindsRoot η find) (h : UniformFin ptan a wmin o) (hx : BreakFound a) (n : ℕ) (hn : 1 ≤ n) :
    ∃ line PL tB, Polyline [Line a.p1 a.p2, Line a.p2 a.p3] = .ok line ∧ Broken a.p1 a.p2 a.p3 PL ∧ tB ∈ Set.Icc (0 : ℝ) 1 ∧
      |tB - breakAt a.p1 a.p2 a.p3| ≤ η ∧ ∃ l, Fin.leadingEdge find ptan a line = .ok l ∧
      List.Forall₂ (fun (e : String × Surf) (p : Panel) => ∀ i ≤ n, ∀ j ≤ n, e.2 ((i : ℝ) / n) ((j : ℝ) / n) = .ok (p.P i j)) l
        [leTop ptan (a.fin_thickness / 2) a.LE_wf PL n 0 tB a.p1 a.p2, leTop ptan (a.fin_thickness / 2) a.LE_wf PL n tB 1 a.p2 a.p3,
         leBot ptan (a.fin_thickness / 2) a.LE_wf PL n 0 tB a.p1 a.p2, leBot ptan (a.fin_thickness / 2) a.LE_wf PL n tB 1 a.p2 a.p3] ∧
      ∀ p ∈ [leTop ptan (a.fin_thickness / 2) a.LE_wf PL n 0 tB a.p1 a.p2, leTop ptan (a.fin_thickness / 2) a.LE_wf PL n tB 1 a.p2 a.p3,
         leBot ptan (a.fin_thickness / 2) a.LE_wf PL n 0 tB a.p1 a.p2, leBot ptan (a.fin_thickness / 2) a.LE_wf PL n tB 1 a.p2 a.p3],
        p.Good n (finGap ptan a wmin η) := by
  obtain ⟨line, PL, hl, hcall, hb⟩ := polyline_broken a.p1 a.p2 a.p3 h.n12 h.n23
  unfold BreakFound at hx
  obtain ⟨tB, htB, hfind, r, hr, hgr, hd⟩ := hη (fun t => do let p ← line.call t; return p.x - a.p2.x) (fun t => (PL t).x - a.p2.x)
    (fun t _ => by simp only [hcall, ok_bind]; rfl)
    ((hb.continuous_x h.n12 h.n23).sub continuousOn_const) (by
      simp only [hb.at_zero, hb.at_one]
      exact hx.le)
  have hrb := hb.root_unique h.n12 h.n23 hx r hr (by linarith)
  rw [hrb] at hd
  have hrim := h.rim
  obtain ⟨hβ0, hβ1⟩ := breakAt_mem a.p1 a.p2 a.p3 h.n12 h.n23
  set β := breakAt a.p1 a.p2 a.p3 with hβ
  have hL : 0 ≤ brokenLength a.p1 a.p2 a.p3 := by
    unfold brokenLength; linarith [vdist_pos h.n12, vdist_pos h.n23]
  have n0 : ∀ u ∈ Set.Icc (0 : ℝ) 1, vdist (PL (tB - u * (tB - 0))) (lineAt a.p2 a.p1 u) ≤ brokenLength a.p1 a.p2 a.p3 * η := by
    intro u hu
    rw [lineAt_flip, ← hb.first (1 - u) (by linarith [hu.2]) (by linarith [hu.1])]
    have m1 : tB - u * (tB - 0) ∈ Set.Icc (0 : ℝ) 1 := ⟨by nlinarith [hu.2, htB.1], by nlinarith [hu.1, htB.1, htB.2]⟩
    have m2 : β * (1 - u) ∈ Set.Icc (0 : ℝ) 1 := ⟨by nlinarith [hu.2], by nlinarith [hu.1]⟩
    refine (hb.lipschitz h.n12 h.n23 _ _ m1 m2).trans (mul_le_mul_of_nonneg_left ?_ hL)
    have : tB - u * (tB - 0) - β * (1 - u) = (1 - u) * (tB - β) := by ring
    rw [this, abs_mul, abs_of_nonneg (by linarith [hu.2])]
    nlinarith [abs_nonneg (tB - β), hu.1, hu.2]
  have n1 : ∀ u ∈ Set.Icc (0 : ℝ) 1, vdist (PL (1 - u * (1 - tB))) (lineAt a.p3 a.p2 u) ≤ brokenLength a.p1 a.p2 a.p3 * η := by
    intro u hu
    rw [← hb.second u hu.1 hu.2]
    have m1 : 1 - u * (1 - tB) ∈ Set.Icc (0 : ℝ) 1 := ⟨by nlinarith [hu.1, hu.2, htB.1, htB.2], by nlinarith [hu.1, htB.2]⟩
    have m2 : 1 - (1 - β) * u ∈ Set.Icc (0 : ℝ) 1 := ⟨by nlinarith [hu.1, hu.2], by nlinarith [hu.1]⟩
    refine (hb.lipschitz h.n12 h.n23 _ _ m1 m2).trans (mul_le_mul_of_nonneg_left ?_ hL)
    have : 1 - u * (1 - tB) - (1 - (1 - β) * u) = u * (tB - β) := by ring
    rw [this, abs_mul, abs_of_nonneg hu.1]
    nlinarith [abs_nonneg (tB - β), hu.1, hu.2]
  have z0 : (0 : ℝ) ∈ Set.Icc (0 : ℝ) 1 := ⟨le_rfl, zero_le_one⟩
  have z1 : (1 : ℝ) ∈ Set.Icc (0 : ℝ) 1 := ⟨zero_le_one, le_rfl⟩
  obtain ⟨l, hle, hfor⟩ := leading_patches find h n hn line PL hcall tB htB hfind
  refine ⟨line, PL, tB, hl, hb, htB, hd, l, hle, hfor, ?_⟩
  intro p hp
  simp only [List.mem_cons, List.not_mem_nil, or_false] at hp
  rcases hp with rfl | rfl | rfl | rfl
  · exact leTop_good hrim PL n hn 0 tB a.p1 a.p2 _ z0 htB n0
  · exact leTop_good hrim PL n hn tB 1 a.p2 a.p3 _ htB z1 n1
  · exact leBot_good hrim PL n hn 0 tB a.p1 a.p2 _ z0 htB n0
  · exact leBot_good hrim PL n hn tB 1 a.p2 a.p3 _ htB z1 n1

/-- The two elliptical edges at a corner, with their values, and their ends near the skins. -/
theorem fin_tips (h : UniformFin ptan a wmin o) (p : V) {t : ℝ} (ht : t ∈ Set.Icc (0 : ℝ) 1) :
    ∃ et eb, ArcLengthParameterizedPath (ElipsePath ptan p (-(a.fin_thickness / 2)) (widthAt a.LE_wf t) "top") = .ok et ∧
      ArcLengthParameterizedPath (ElipsePath ptan p (a.fin_thickness / 2) (widthAt a.LE_wf t) "bot") = .ok eb ∧
      (∀ r, et.call r = .ok (p + ellArc ptan (a.fin_thickness / 2) (widthAt a.LE_wf t) true r)) ∧
      (∀ r, eb.call r = .ok (p + ellArc ptan (a.fin_thickness / 2) (widthAt a.LE_wf t) false r)) ∧
      p + ellArc ptan (a.fin_thickness / 2) (widthAt a.LE_wf t) true 1 = p + ellArc ptan (a.fin_thickness / 2) (widthAt a.LE_wf t) false 0 ∧
      CornerClose (p + ellArc ptan (a.fin_thickness / 2) (widthAt a.LE_wf t) true 0) (p - Fin.half a) ∧
      CornerClose (p + ellArc ptan (a.fin_thickness / 2) (widthAt a.LE_wf t) false 1) (p + Fin.half a) ∧
      CornerClose (p - Fin.half a) (p + ellArc ptan (a.fin_thickness / 2) (widthAt a.LE_wf t) true 0) ∧
      CornerClose (p + Fin.half a) (p + ellArc ptan (a.fin_thickness / 2) (widthAt a.LE_wf t) false 1) ∧
      vdist (p + ellArc ptan (a.fin_thickness / 2) (widthAt a.LE_wf t) true 0) (p - Fin.half a) ≤ poleGap ptan (a.fin_thickness / 2) wmin ∧
      vdist (p + ellArc ptan (a.fin_thickness / 2) (widthAt a.LE_wf t) false 1) (p + Fin.half a) ≤ poleGap ptan (a.fin_thickness / 2) wmin := by
  have hr := h.rim
  have hth : |a.fin_thickness / 2| = a.fin_thickness / 2 := abs_of_pos hr.bpos
  obtain ⟨et, e1, v1⟩ := ellArc_path ptan p (-(a.fin_thickness / 2)) (a.fin_thickness / 2) (widthAt a.LE_wf t) true hr.bpos (by rw [abs_neg, hth])
  obtain ⟨eb, e2, v2⟩ := ellArc_path ptan p (a.fin_thickness / 2) (a.fin_thickness / 2) (widthAt a.LE_wf t) false hr.bpos hth
  obtain ⟨et', eb', e3, e4, q, u, v, k1, k2, k3, k4, c1, c2, c3, c4⟩ := Fin.tips ptan h.like a h.thick p _ (hr.width_pos ht) (hr.fits_at ht)
  have e1' : ArcLengthParameterizedPath (ElipsePath ptan p (-(a.fin_thickness / 2)) (widthAt a.LE_wf t) "top") = .ok et := e1
  have e2' : ArcLengthParameterizedPath (ElipsePath ptan p (a.fin_thickness / 2) (widthAt a.LE_wf t) "bot") = .ok eb := e2
  rw [e1'] at e3
  rw [e2'] at e4
  cases e3
  cases e4
  rw [v1] at k1 k3
  rw [v2] at k2 k4
  cases k1
  cases k3
  cases k4
  have hp := hr.pole (Real.pi / 2) ht
  rw [swing_right _ rfl, swing_right _ rfl] at hp
  refine ⟨et, eb, e1', e2', v1, v2, (Except.ok.inj k2).symm, c1, c2, c3, c4, ?_, ?_⟩
  · rw [half_eq, sub_up, vdist_add_left]; exact hp.2
  · rw [half_eq, vdist_add_left]; exact hp.1

theorem div_flip {n j : ℕ} (hn : 1 ≤ n) (hj : j ≤ n) : ((n - j : ℕ) : ℝ) / n = 1 - (j : ℝ) / n := by
  have : (n : ℝ) ≠ 0 := by positivity
  rw [Nat.cast_sub hj, sub_div, div_self this]

/-- The bottom face. -/
theorem fin_bottom (h : UniformFin ptan a wmin o) (n : ℕ) (hn : 1 ≤ n) (PL : ℝ → V) (hPL : PL 1 = a.p3) :
    ∃ l P, Fin.bottom ptan a = .ok l ∧
      List.Forall₂ (fun (e : String × Surf) (p : Panel) => ∀ i ≤ n, ∀ j ≤ n, e.2 ((i : ℝ) / n) ((j : ℝ) / n) = .ok (p.P i j)) l
      [⟨P, rimTop ptan (a.fin_thickness / 2) a.LE_wf PL n a.p3 1, seg n a.p3 (a.p3 + Fin.half a), seg n (a.p3 - Fin.half a) a.p3,
          rimBot ptan (a.fin_thickness / 2) a.LE_wf PL n a.p3 1⟩,
       quad n a.p3 a.p0 (a.p0 - Fin.half a) (a.p3 - Fin.half a), quad n (a.p3 + Fin.half a) (a.p0 + Fin.half a) a.p0 a.p3] ∧
      (⟨P, rimTop ptan (a.fin_thickness / 2) a.LE_wf PL n a.p3 1, seg n a.p3 (a.p3 + Fin.half a), seg n (a.p3 - Fin.half a) a.p3,
          rimBot ptan (a.fin_thickness / 2) a.LE_wf PL n a.p3 1⟩ : Panel).Good n (poleGap ptan (a.fin_thickness / 2) wmin) := by
  have z1 : (1 : ℝ) ∈ Set.Icc (0 : ℝ) 1 := ⟨zero_le_one, le_rfl⟩
  have hr := h.rim
  have hgap := hr.gap_nonneg
  have hn0 : (n : ℝ) ≠ 0 := by positivity
  have hnn : n ≠ 0 := by omega
  obtain ⟨et, eb, e1, e2, v1, v2, k, c1, c2, c3, c4, g1, g2⟩ := fin_tips h a.p3 z1
  have z : ∀ {u v : V}, u = v → vdist u v ≤ poleGap ptan (a.fin_thickness / 2) wmin := fun h => by rw [h, vdist_self]; exact hgap
  let Sd : ℕ → V := fun i => if i = 0 then a.p3 - Fin.half a else
    a.p3 + ellArc ptan (a.fin_thickness / 2) (widthAt a.LE_wf 1) true ((i : ℝ) / n)
  let Ed : ℕ → V := fun i => if i = n then a.p3 + Fin.half a else
    a.p3 + ellArc ptan (a.fin_thickness / 2) (widthAt a.LE_wf 1) false ((i : ℝ) / n)
  obtain ⟨F, G, hF, vF, hG⟩ := coons_panel n hn (Line a.p3 (a.p3 + Fin.half a)) eb et (Line (a.p3 - Fin.half a) a.p3) _ _ _ _
    (fun _ => rfl) v2 v1 (fun _ => rfl) (by rw [lineAt_zero]; exact c1) (by rw [k]; exact cornerClose_refl _)
    (by rw [lineAt_zero, lineAt_one]; exact cornerClose_refl _) (by rw [lineAt_one]; exact c4) _
    (by rw [lineAt_zero]; exact g1) (z k) (z (by rw [lineAt_zero, lineAt_one])) (by rw [lineAt_one, vdist_comm]; exact g2)
    Sd (seg n a.p3 (a.p3 + Fin.half a)) (seg n (a.p3 - Fin.half a) a.p3) Ed (by simp [Sd, seg_zero])
    (by simp only [Sd, Ed, hnn, if_false, hnn.symm, div_self hn0, Nat.cast_zero, zero_div, k])
    (by rw [seg_zero, seg_last n hn]) (by simp [Ed, seg_last n hn])
    (fun j _ => z rfl)
    (by
      intro j hj
      by_cases h0 : j = n
      · subst h0
        simp only [Ed, if_true, div_self hn0]
        exact g2
      · apply z; simp [Ed, h0])
    (by intro i hi _; simp [Sd, hi.ne'])
    (by intro i _ _; rfl)
  obtain ⟨B1, hB1, vB1⟩ := coons_quad (Line (a.p3 - Fin.half a) (a.p0 - Fin.half a)) (Line a.p0 (a.p0 - Fin.half a)) (Line a.p3 a.p0)
    (ReversedPath (Line (a.p3 - Fin.half a) a.p3)) a.p3 a.p0 (a.p0 - Fin.half a) (a.p3 - Fin.half a) (fun _ => rfl) (fun _ => rfl)
    (fun _ => rfl) (fun t => by rw [reversed_call, lineAt_flip]; rfl)
  obtain ⟨B2, hB2, vB2⟩ := coons_quad (Line a.p3 a.p0) (Line (a.p0 + Fin.half a) a.p0) (Line (a.p3 + Fin.half a) (a.p0 + Fin.half a))
    (ReversedPath (Line a.p3 (a.p3 + Fin.half a))) (a.p3 + Fin.half a) (a.p0 + Fin.half a) a.p0 a.p3 (fun _ => rfl) (fun _ => rfl)
    (fun _ => rfl) (fun t => by rw [reversed_call, lineAt_flip]; rfl)
  let ρ : V → V := fun v => rotAbout .z (-90 * Real.pi / 180) (v - a.p3) + a.p3
  have hρ : ∀ u v, vdist (ρ u) (ρ v) = vdist u v := by
    intro u v; simp only [ρ]; rw [vdist_add_right, rot_isometry, vdist_sub_right]
  have hρ' : ∀ v : V, v.x = 0 → ρ (a.p3 + v) = a.p3 + swing 0 v := by
    intro v hv
    have ang : -90 * Real.pi / 180 = -(Real.pi / 2) := by ring
    simp only [ρ, rotAbout, swing_zero, ang, Real.cos_neg, Real.sin_neg, Real.cos_pi_div_two, Real.sin_pi_div_two]
    ext <;> simp [hv, add_comm]
  have up : ∀ s : ℝ, ρ (a.p3 + upBy s) = a.p3 + upBy s := by
    intro s
    rw [hρ' _ rfl]
    ext <;> simp [swing, upBy]
  have hl1 : ∀ t, lineAt a.p3 (a.p3 + Fin.half a) t = a.p3 + upBy (t * (a.fin_thickness / 2)) := by
    intro t; ext <;> simp [lineAt, Fin.half, upBy] <;> ring
  have hl2 : ∀ t, lineAt (a.p3 - Fin.half a) a.p3 t = a.p3 + upBy ((t - 1) * (a.fin_thickness / 2)) := by
    intro t; ext <;> simp [lineAt, Fin.half, upBy] <;> ring
  have ha1 : angAt PL 1 = 0 := by simp [angAt]
  have hS : ρ ∘ Sd = rimTop ptan (a.fin_thickness / 2) a.LE_wf PL n a.p3 1 := by
    funext i
    simp only [Function.comp, Sd, rimTop]
    split_ifs
    · rw [half_eq, sub_up, up]
    · rw [hρ' _ rfl, rimAt, hPL, ha1]
  have hE : ρ ∘ Ed = rimBot ptan (a.fin_thickness / 2) a.LE_wf PL n a.p3 1 := by
    funext i
    simp only [Function.comp, Ed, rimBot]
    split_ifs
    · rw [half_eq, up]
    · rw [hρ' _ rfl, rimAt, hPL, ha1]
  have hN : ρ ∘ seg n a.p3 (a.p3 + Fin.half a) = seg n a.p3 (a.p3 + Fin.half a) := by
    funext i; simp only [Function.comp, seg, hl1, up]
  have hW : ρ ∘ seg n (a.p3 - Fin.half a) a.p3 = seg n (a.p3 - Fin.half a) a.p3 := by
    funext i; simp only [Function.comp, seg, hl2, up]
  have hgood := Panel.map_good ρ hρ n _ _ hG
  unfold Panel.map at hgood
  simp only [hS, hE, hN, hW] at hgood
  refine ⟨[("bot_ellip", RotatedPatch F (-90 * Real.pi / 180) "z" a.p3), ("bot_1", B1), ("bot_2", B2)],
    fun i j => ρ (G ((i : ℝ) / n) ((j : ℝ) / n)), ?_, ?_, hgood⟩
  · unfold Fin.bottom
    simp only [h.tt, h.tb, hr.width_ok z1, ok_bind, e1, e2, hF, hB1, hB2]
    rfl
  · refine .cons ?_ (.cons ?_ (.cons ?_ .nil))
    · intro i _ j _
      exact RotatedPatch_eq F _ "z" .z a.p3 ((namesAxis_iff _ 2).1 (.inl rfl)) _ _ _ (vF _ _)
    · intro i _ j _
      exact vB1 _ _
    · intro i _ j _
      exact vB2 _ _

/-- The flat trailing edge. -/
theorem fin_flat (h : UniformFin ptan a wmin o) (n : ℕ) (hn : 1 ≤ n) (PL : ℝ → V) (hPL : PL 0 = a.p1) :
    ∃ l P, Fin.flatTE ptan a = .ok l ∧
      List.Forall₂ (fun (e : String × Surf) (p : Panel) => ∀ i ≤ n, ∀ j ≤ n, e.2 ((i : ℝ) / n) ((j : ℝ) / n) = .ok (p.P i j)) l
      [⟨P, fun i => rimBot ptan (a.fin_thickness / 2) a.LE_wf PL n a.p1 0 (n - i), seg n a.p1 (a.p1 - Fin.half a),
          seg n (a.p1 + Fin.half a) a.p1, fun j => rimTop ptan (a.fin_thickness / 2) a.LE_wf PL n a.p1 0 (n - j)⟩,
       quad n a.p0 a.p1 (a.p1 - Fin.half a) (a.p0 - Fin.half a), quad n (a.p0 + Fin.half a) (a.p1 + Fin.half a) a.p1 a.p0] ∧
      (⟨P, fun i => rimBot ptan (a.fin_thickness / 2) a.LE_wf PL n a.p1 0 (n - i), seg n a.p1 (a.p1 - Fin.half a),
          seg n (a.p1 + Fin.half a) a.p1, fun j => rimTop ptan (a.fin_thickness / 2) a.LE_wf PL n a.p1 0 (n - j)⟩ :
        Panel).Good n (poleGap ptan (a.fin_thickness / 2) wmin) := by
  have z0 : (0 : ℝ) ∈ Set.Icc (0 : ℝ) 1 := ⟨le_rfl, zero_le_one⟩
  have hr := h.rim
  have hgap := hr.gap_nonneg
  have hn0 : (n : ℝ) ≠ 0 := by positivity
  have hnn : n ≠ 0 := by omega
  obtain ⟨et, eb, e1, e2, v1, v2, k, c1, c2, c3, c4, g1, g2⟩ := fin_tips h a.p1 z0
  have z : ∀ {u v : V}, u = v → vdist u v ≤ poleGap ptan (a.fin_thickness / 2) wmin := fun h => by rw [h, vdist_self]; exact hgap
  have ha0 : angAt PL 0 = Real.pi / 2 := by simp [angAt]
  have hrim : ∀ top r, rimAt ptan (a.fin_thickness / 2) a.LE_wf PL top 0 r =
      a.p1 + ellArc ptan (a.fin_thickness / 2) (widthAt a.LE_wf 0) top r := by
    intro top r
    rw [rimAt, hPL, ha0, swing_right _ rfl]
  have sub : ∀ (p : PathObj) (f : ℝ → V), (∀ r, p.call r = .ok (f r)) → ∀ r, (SubRangedPath p 1 0).call r = .ok (f (1 - r)) := by
    intro p f hf r
    simp only [SubRangedPath]
    rw [← hf]
    congr 1; ring
  obtain ⟨F, G, hF, vF, hG⟩ := coons_panel n hn (Line a.p1 (a.p1 - Fin.half a)) (SubRangedPath et 1 0) (SubRangedPath eb 1 0)
    (Line (a.p1 + Fin.half a) a.p1) _ _ _ _ (fun _ => rfl) (sub _ _ v1) (sub _ _ v2) (fun _ => rfl)
    (by rw [lineAt_zero, sub_zero]; exact c2) (by rw [sub_self, sub_zero, k]; exact cornerClose_refl _)
    (by rw [lineAt_zero, lineAt_one]; exact cornerClose_refl _) (by rw [lineAt_one, sub_self]; exact c3) _
    (by rw [lineAt_zero, sub_zero]; exact g2) (z (by rw [sub_self, sub_zero, k])) (z (by rw [lineAt_zero, lineAt_one]))
    (by rw [lineAt_one, sub_self, vdist_comm]; exact g1)
    (fun i => rimBot ptan (a.fin_thickness / 2) a.LE_wf PL n a.p1 0 (n - i)) (seg n a.p1 (a.p1 - Fin.half a))
    (seg n (a.p1 + Fin.half a) a.p1) (fun j => rimTop ptan (a.fin_thickness / 2) a.LE_wf PL n a.p1 0 (n - j))
    (by simp [rimBot, seg_zero, half_eq])
    (by simp only [rimBot, rimTop, Nat.sub_self, Nat.sub_zero, hnn, hnn.symm, if_false, hrim, Nat.cast_zero, zero_div, div_self hn0, k])
    (by rw [seg_zero, seg_last n hn]) (by simp [rimTop, seg_last n hn, half_eq])
    (fun j _ => z rfl)
    (by
      intro j hj
      by_cases h0 : j = n
      · subst h0
        simp only [rimTop, Nat.sub_self, if_true, div_self hn0, sub_self]
        exact g1
      · apply z
        have : n - j ≠ 0 := by omega
        simp only [rimTop, this, if_false, hrim, div_flip hn hj])
    (by
      intro i hi hlt
      have : n - i ≠ n := by omega
      simp only [rimBot, this, if_false, hrim, div_flip hn hlt.le])
    (by intro i _ _; rfl)
  obtain ⟨B1, hB1, vB1⟩ := coons_quad (Line (a.p0 - Fin.half a) (a.p1 - Fin.half a)) (Line a.p1 (a.p1 - Fin.half a)) (Line a.p0 a.p1)
    (Line a.p0 (a.p0 - Fin.half a)) a.p0 a.p1 (a.p1 - Fin.half a) (a.p0 - Fin.half a) (fun _ => rfl) (fun _ => rfl)
    (fun _ => rfl) (fun _ => rfl)
  obtain ⟨B2, hB2, vB2⟩ := coons_quad (Line a.p0 a.p1) (Line (a.p1 + Fin.half a) a.p1) (Line (a.p0 + Fin.half a) (a.p1 + Fin.half a))
    (Line (a.p0 + Fin.half a) a.p0) (a.p0 + Fin.half a) (a.p1 + Fin.half a) a.p1 a.p0 (fun _ => rfl) (fun _ => rfl)
    (fun _ => rfl) (fun _ => rfl)
  refine ⟨[("TE_ellip", F), ("TE_1", B1), ("TE_2", B2)], _, ?_, ?_, hG⟩
  · unfold Fin.flatTE
    simp only [h.tt, h.tb, hr.width_ok z0, ok_bind, e1, e2, hF, hB1, hB2]
    rfl
  · refine .cons ?_ (.cons ?_ (.cons ?_ .nil))
    · intro i _ j _
      exact vF _ _
    · intro i _ j _
      exact vB1 _ _
    · intro i _ j _
      exact vB2 _ _

/-- The tip of the sharp trailing edge below the point `p` of the outline. -/
noncomputable def rudderTip (a : Fin.Args) (p : V) : V := ⟨p.x - a.rudder_length, p.y, a.rudder_length * Real.sin a.rudder_angle⟩

/-- The sharp trailing edge. -/
theorem fin_sharp (h : UniformFin ptan a wmin o) (hz : a.p1.z = 0) (n : ℕ) (hn : 1 ≤ n) (PL : ℝ → V) (hPL : PL 0 = a.p1) :
    ∃ l P, Fin.sharpTE ptan a = .ok l ∧
      List.Forall₂ (fun (e : String × Surf) (p : Panel) => ∀ i ≤ n, ∀ j ≤ n, e.2 ((i : ℝ) / n) ((j : ℝ) / n) = .ok (p.P i j)) l
      [quad n (rudderTip a a.p0) (rudderTip a a.p1) (a.p1 - Fin.half a) (a.p0 - Fin.half a),
       quad n (a.p0 + Fin.half a) (a.p1 + Fin.half a) (rudderTip a a.p1) (rudderTip a a.p0),
       ⟨P, seg n (a.p1 - Fin.half a) (rudderTip a a.p1), rimBot ptan (a.fin_thickness / 2) a.LE_wf PL n a.p1 0,
          rimTop ptan (a.fin_thickness / 2) a.LE_wf PL n a.p1 0, seg n (rudderTip a a.p1) (a.p1 + Fin.half a)⟩,
       quad n (a.p0 - Fin.half a) a.p0 (a.p0 + Fin.half a) (rudderTip a a.p0)] ∧
      (⟨P, seg n (a.p1 - Fin.half a) (rudderTip a a.p1), rimBot ptan (a.fin_thickness / 2) a.LE_wf PL n a.p1 0,
          rimTop ptan (a.fin_thickness / 2) a.LE_wf PL n a.p1 0, seg n (rudderTip a a.p1) (a.p1 + Fin.half a)⟩ :
        Panel).Good n (poleGap ptan (a.fin_thickness / 2) wmin) := by
  have z0 : (0 : ℝ) ∈ Set.Icc (0 : ℝ) 1 := ⟨le_rfl, zero_le_one⟩
  have hr := h.rim
  have hgap := hr.gap_nonneg
  have hn0 : (n : ℝ) ≠ 0 := by positivity
  have hnn : n ≠ 0 := by omega
  obtain ⟨et, eb, e1, e2, v1, v2, k, c1, c2, c3, c4, g1, g2⟩ := fin_tips h a.p1 z0
  have z : ∀ {u v : V}, u = v → vdist u v ≤ poleGap ptan (a.fin_thickness / 2) wmin := fun h => by rw [h, vdist_self]; exact hgap
  have ha0 : angAt PL 0 = Real.pi / 2 := by simp [angAt]
  have hrim : ∀ top r, rimAt ptan (a.fin_thickness / 2) a.LE_wf PL top 0 r =
      a.p1 + ellArc ptan (a.fin_thickness / 2) (widthAt a.LE_wf 0) top r := by
    intro top r
    rw [rimAt, hPL, ha0, swing_right _ rfl]
  obtain ⟨F, G, hF, vF, hG⟩ := coons_panel n hn eb (Line (rudderTip a a.p1) (a.p1 + Fin.half a))
    (Line (a.p1 - Fin.half a) (rudderTip a a.p1)) et _ _ _ _ v2 (fun _ => rfl) (fun _ => rfl) v1
    (by rw [lineAt_zero]; exact c3) (by rw [lineAt_zero, lineAt_one]; exact cornerClose_refl _)
    (by rw [k]; exact cornerClose_refl _) (by rw [lineAt_one]; exact c2) _
    (by rw [lineAt_zero, vdist_comm]; exact g1) (z (by rw [lineAt_zero, lineAt_one])) (z k.symm) (by rw [lineAt_one]; exact g2)
    (seg n (a.p1 - Fin.half a) (rudderTip a a.p1)) (rimBot ptan (a.fin_thickness / 2) a.LE_wf PL n a.p1 0)
    (rimTop ptan (a.fin_thickness / 2) a.LE_wf PL n a.p1 0) (seg n (rudderTip a a.p1) (a.p1 + Fin.half a))
    (by simp [rimTop, seg_zero, half_eq]) (by rw [seg_zero, seg_last n hn])
    (by simp only [rimBot, rimTop, hnn, hnn.symm, if_false, hrim, Nat.cast_zero, zero_div, div_self hn0, k])
    (by simp [rimBot, seg_last n hn, half_eq])
    (by
      intro j hj
      by_cases h0 : j = 0
      · subst h0
        simp only [rimTop, if_true, Nat.cast_zero, zero_div]
        exact g1
      · apply z
        simp only [rimTop, h0, if_false, hrim])
    (fun j _ => z rfl)
    (by intro i _ _; rfl)
    (by
      intro i hi hlt
      simp only [rimBot, hlt.ne, if_false, hrim])
  have vt : ∀ t, (TrailingEdgePath a.p0 a.p1 a.top_tf).call t = .ok (lineAt (a.p0 - Fin.half a) (a.p1 - Fin.half a) t) := by
    intro t
    rw [lineAt_sub]
    simp only [TrailingEdgePath, offsetPathAt, Line, bind, Except.bind, h.tt, pure, Except.pure]
    congr 1
    ext <;> simp [Fin.half]
    ring
  have vb : ∀ t, (TrailingEdgePath a.p0 a.p1 a.bot_tf).call t = .ok (lineAt (a.p0 + Fin.half a) (a.p1 + Fin.half a) t) := by
    intro t
    rw [lineAt_add]
    simp only [TrailingEdgePath, offsetPathAt, Line, bind, Except.bind, h.tb, pure, Except.pure]
    rfl
  obtain ⟨T, hT, vT⟩ := coons_quad (TrailingEdgePath a.p0 a.p1 a.top_tf) (Line (rudderTip a a.p1) (a.p1 - Fin.half a))
    (Line (rudderTip a a.p0) (rudderTip a a.p1)) (Line (rudderTip a a.p0) (a.p0 - Fin.half a))
    (rudderTip a a.p0) (rudderTip a a.p1) (a.p1 - Fin.half a) (a.p0 - Fin.half a) vt (fun _ => rfl) (fun _ => rfl) (fun _ => rfl)
  obtain ⟨B, hB, vB⟩ := coons_quad (Line (rudderTip a a.p0) (rudderTip a a.p1)) (Line (a.p1 + Fin.half a) (rudderTip a a.p1))
    (TrailingEdgePath a.p0 a.p1 a.bot_tf) (Line (a.p0 + Fin.half a) (rudderTip a a.p0))
    (a.p0 + Fin.half a) (a.p1 + Fin.half a) (rudderTip a a.p1) (rudderTip a a.p0) (fun _ => rfl) (fun _ => rfl) vb (fun _ => rfl)
  obtain ⟨R, hR, vR⟩ := coons_quad (Line (rudderTip a a.p0) (a.p0 + Fin.half a)) (Line a.p0 (a.p0 + Fin.half a))
    (Line (a.p0 - Fin.half a) a.p0) (Line (a.p0 - Fin.half a) (rudderTip a a.p0))
    (a.p0 - Fin.half a) a.p0 (a.p0 + Fin.half a) (rudderTip a a.p0) (fun _ => rfl) (fun _ => rfl) (fun _ => rfl) (fun _ => rfl)
  have hTop : TrailingEdgePatch a.p0 a.p1 (TrailingEdgePath a.p0 a.p1 a.top_tf) a.rudder_length a.rudder_angle "top" = .ok T := by
    unfold TrailingEdgePatch
    simp only [if_true, pure_eq, ok_bind, zero_add]
    rw [show (Line ⟨a.p0.x - a.rudder_length, a.p0.y, a.rudder_length * Real.sin a.rudder_angle⟩
      ⟨a.p1.x - a.rudder_length, a.p1.y, a.rudder_length * Real.sin a.rudder_angle⟩) = Line (rudderTip a a.p0) (rudderTip a a.p1) from rfl]
    simp only [line_zero, line_one, vt, ok_bind, lineAt_zero, lineAt_one]
    exact hT
  have hBot : TrailingEdgePatch a.p0 a.p1 (TrailingEdgePath a.p0 a.p1 a.bot_tf) a.rudder_length a.rudder_angle "bot" = .ok B := by
    unfold TrailingEdgePatch
    simp only [if_true, pure_eq, ok_bind, zero_add, show ("bot" = "top") = False by decide, if_false]
    rw [show (Line ⟨a.p0.x - a.rudder_length, a.p0.y, a.rudder_length * Real.sin a.rudder_angle⟩
      ⟨a.p1.x - a.rudder_length, a.p1.y, a.rudder_length * Real.sin a.rudder_angle⟩) = Line (rudderTip a a.p0) (rudderTip a a.p1) from rfl]
    simp only [line_zero, line_one, vb, ok_bind, lineAt_zero, lineAt_one]
    exact hB
  have d1 : (⟨a.p1.x, a.p1.y, -(a.fin_thickness / 2)⟩ : V) = a.p1 - Fin.half a := by
    rw [sub_half, hz]; ext <;> simp
  have d2 : (⟨a.p1.x, a.p1.y, a.fin_thickness / 2⟩ : V) = a.p1 + Fin.half a := by
    rw [add_half, hz]; ext <;> simp
  have hF' : CoonsPatch eb (Line ⟨a.p1.x - a.rudder_length, a.p1.y, a.rudder_length * Real.sin a.rudder_angle⟩ (a.p1 + Fin.half a))
    (Line (a.p1 - Fin.half a) ⟨a.p1.x - a.rudder_length, a.p1.y, a.rudder_length * Real.sin a.rudder_angle⟩) et = .ok F := hF
  have hR' : CoonsPatch (Line ⟨a.p0.x - a.rudder_length, a.p0.y, a.rudder_length * Real.sin a.rudder_angle⟩ (a.p0 + Fin.half a))
    (Line a.p0 (a.p0 + Fin.half a)) (Line (a.p0 - Fin.half a) a.p0)
    (Line (a.p0 - Fin.half a) ⟨a.p0.x - a.rudder_length, a.p0.y, a.rudder_length * Real.sin a.rudder_angle⟩) = .ok R := hR
  refine ⟨[("TE_top", T), ("TE_bot", B), ("TE_ellipse", F), ("TE_triangle", R)], _, ?_, ?_, hG⟩
  · unfold Fin.sharpTE
    simp only [hTop, hBot, h.tt, h.tb, hr.width_ok z0, ok_bind, e1, e2, d1, d2, hF', hR']
    rfl
  · refine .cons ?_ (.cons ?_ (.cons ?_ (.cons ?_ .nil)))
    · intro i _ j _
      exact vT _ _
    · intro i _ j _
      exact vB _ _
    · intro i _ j _
      exact vF _ _
    · intro i _ j _
      exact vR _ _

/-- Generation and meshing of a fin from its groups of patches. -/
theorem fin_assembled (find : (ℝ → Res ℝ) → Res ℝ) (h : UniformFin ptan a wmin o) (n : ℕ) (hn : 1 ≤ n) (name : Option String) (H : Heap)
    (id : ℕ) (hid : H id = Fin.comp find ptan a n name) (line : PathObj) (hl : Polyline [Line a.p1 a.p2, Line a.p2 a.p3] = .ok line)
    (sk le bo te : List (String × Surf)) (psk ple pbo pte : List Panel) (hsk : Fin.skins a = .ok sk)
    (hle : Fin.leadingEdge find ptan a line = .ok le) (hbo : Fin.bottom ptan a = .ok bo) (hte : Fin.trailingEdge ptan a = .ok te)
    (fsk : List.Forall₂ (fun (e : String × Surf) (p : Panel) => ∀ i ≤ n, ∀ j ≤ n, e.2 ((i : ℝ) / n) ((j : ℝ) / n) = .ok (p.P i j)) sk psk)
    (fle : List.Forall₂ (fun (e : String × Surf) (p : Panel) => ∀ i ≤ n, ∀ j ≤ n, e.2 ((i : ℝ) / n) ((j : ℝ) / n) = .ok (p.P i j)) le ple)
    (fbo : List.Forall₂ (fun (e : String × Surf) (p : Panel) => ∀ i ≤ n, ∀ j ≤ n, e.2 ((i : ℝ) / n) ((j : ℝ) / n) = .ok (p.P i j)) bo pbo)
    (fte : List.Forall₂ (fun (e : String × Surf) (p : Panel) => ∀ i ≤ n, ∀ j ≤ n, e.2 ((i : ℝ) / n) ((j : ℝ) / n) = .ok (p.P i j)) te pte) :
    ∃ h' M c', generatePatches H id = (.ok (), h') ∧ (h' id).mesh = (.ok M, c') ∧
      M.tris = ((psk ++ ple ++ pbo ++ pte).map fun p => gridMesh MeshArith.real false n n fun i j => finMove a o (p.P i j)).flatten := by
  have hun : Fin.unplaced find ptan a = .ok (sk ++ le ++ bo ++ te) := by
    unfold Fin.unplaced
    rw [hl, ok_bind, hsk, ok_bind, hle, ok_bind, hbo, ok_bind, hte, ok_bind]; rfl
  have fall := ((List.rel_append fsk fle) |> fun q => List.rel_append q fbo) |> fun q => List.rel_append q fte
  have hnames : (sk ++ le ++ bo ++ te).map Prod.fst = finNames a.rudder_type := by
    obtain ⟨-, -, -, -, -, -, hn⟩ := Fin.unplaced_ok hun; exact hn
  set L := sk ++ le ++ bo ++ te with hLdef
  set ps := psk ++ ple ++ pbo ++ pte with hps
  obtain ⟨h', M, c', g1, -, g2, g3⟩ := replaced_mesh H id (fun _ => Fin.out find ptan a) (by rw [hid]; rfl) n hn (by rw [hid]; rfl)
    (by rw [hid]; rfl) (by rw [hid]; rfl) (by rw [hid]; rfl) (by simp only [Fin.out, hun])
    (by
      simp only [Fin.out, hun, List.map_map]
      rw [show (Prod.fst ∘ fun e : String × Surf => (e.1, Fin.place a e.2)) = Prod.fst from rfl, hnames]
      exact Fin.finNames_nodup _)
    (by
      simp only [Fin.out, hun]
      intro hnil
      have := List.map_eq_nil_iff.1 hnil
      rw [this] at hnames
      simp [finNames] at hnames)
    (ps.map fun p i j => finMove a o (p.P i j))
    (by
      simp only [Fin.out, hun]
      rw [List.forall₂_map_left_iff, List.forall₂_map_right_iff]
      refine fall.imp fun e p hep i hi j hj => ?_
      exact place_move a o h.offset _ _ _ _ (hep i hi j hj))
  refine ⟨h', M, c', g1, g2, ?_⟩
  rw [g3, List.map_map]
  rfl

end

/-- C105: every fin of uniform positive thickness with a leading edge that breaks at `p2` generates, and at every resolution its
mesh is closed after moving vertices by no more than `finGap`, the numerical gap of the break and of the elliptical edges.
Missing: outlines whose break is not found (see `C105_rectangular_violated`), varying thickness and varying offset functions. -/
theorem C105_fin_partial (find : (ℝ → Res ℝ) → Res ℝ) (ptan : ℝ → ℝ) (a : Fin.Args) (wmin η : ℝ) (o : V) (hη : FindsRoot η find)
    (h : UniformFin ptan a wmin o) (hx : BreakFound a) (n : ℕ) (hn : 1 ≤ n) (name : Option String) (H : Heap) (id : ℕ)
    (hid : H id = Fin.comp find ptan a n name) :
    ∃ h' M c', generatePatches H id = (.ok (), h') ∧ (h' id).mesh = (.ok M, c') ∧ ClosedUpTo (finGap ptan a wmin η) M.tris := by
  obtain ⟨line, PL, tB, hl, hb, htB, hd, le, hle, fle, gle⟩ := fin_leading find η hη h hx n hn
  obtain ⟨sk, hsk, fsk⟩ := fin_skins h n
  obtain ⟨bo, Pb, hbo, fbo, gbo⟩ := fin_bottom h n hn PL hb.at_one
  have hgap := h.rim.gap_nonneg
  have hη0 : 0 ≤ η := (abs_nonneg _).trans hd
  have hL : 0 ≤ brokenLength a.p1 a.p2 a.p3 := by
    unfold brokenLength; linarith [vdist_pos h.n12, vdist_pos h.n23]
  have hε : 0 ≤ finGap ptan a wmin η := by unfold finGap; positivity
  have hle' : poleGap ptan (a.fin_thickness / 2) wmin ≤ finGap ptan a wmin η := by
    unfold finGap; nlinarith [mul_nonneg hL hη0]
  have mono : ∀ p : Panel, p.Good n (poleGap ptan (a.fin_thickness / 2) wmin) → p.Good n (finGap ptan a wmin η) := fun p hp =>
    ⟨hp.sw, hp.se, hp.nw, hp.ne, fun i hi => (hp.south i hi).trans hle', fun i hi => (hp.north i hi).trans hle',
      fun i hi => (hp.west i hi).trans hle', fun i hi => (hp.east i hi).trans hle'⟩
  have hquad := quad_good n hn (finGap ptan a wmin η) hε
  -- the trailing edge
  have hte : ∃ te ps, Fin.trailingEdge ptan a = .ok te ∧
      List.Forall₂ (fun (e : String × Surf) (p : Panel) => ∀ i ≤ n, ∀ j ≤ n, e.2 ((i : ℝ) / n) ((j : ℝ) / n) = .ok (p.P i j)) te ps ∧
      (∀ p ∈ ps, p.Good n (finGap ptan a wmin η)) ∧ ∀ φ : V → V → ℤ, Anti φ → (ps.map (Panel.turn φ n)).sum =
        pathSum φ (seg n (a.p0 + Fin.half a) (a.p1 + Fin.half a)) n - pathSum φ (seg n (a.p0 - Fin.half a) (a.p1 - Fin.half a)) n
        - pathSum φ (rimBot ptan (a.fin_thickness / 2) a.LE_wf PL n a.p1 0) n
        - pathSum φ (rimTop ptan (a.fin_thickness / 2) a.LE_wf PL n a.p1 0) n
        + pathSum φ (seg n (a.p0 - Fin.half a) a.p0) n + pathSum φ (seg n a.p0 (a.p0 + Fin.half a)) n := by
    unfold Fin.trailingEdge
    by_cases hs : a.rudder_type = "sharp"
    · obtain ⟨te, P, h1, h2, h3⟩ := fin_sharp h (h.sharp hs) n hn PL hb.at_zero
      refine ⟨te, _, by rw [if_pos hs]; exact h1, h2, ?_, ?_⟩
      · intro p hp
        simp only [List.mem_cons, List.not_mem_nil, or_false] at hp
        rcases hp with rfl | rfl | rfl | rfl
        · exact hquad _ _ _ _
        · exact hquad _ _ _ _
        · exact mono _ h3
        · exact hquad _ _ _ _
      · intro φ hφ
        have r := pathSum_seg φ hφ n hn
        simp only [List.map_cons, List.map_nil, List.sum_cons, List.sum_nil, Panel.turn, quad]
        linear_combination r (a.p1 - Fin.half a) (rudderTip a a.p1) + r (a.p1 + Fin.half a) (rudderTip a a.p1)
          - r (a.p0 + Fin.half a) (rudderTip a a.p0) - r (a.p0 - Fin.half a) (rudderTip a a.p0)
    · obtain ⟨te, P, h1, h2, h3⟩ := fin_flat h n hn PL hb.at_zero
      refine ⟨te, _, by rw [if_neg hs]; exact h1, h2, ?_, ?_⟩
      · intro p hp
        simp only [List.mem_cons, List.not_mem_nil, or_false] at hp
        rcases hp with rfl | rfl | rfl
        · exact mono _ h3
        · exact hquad _ _ _ _
        · exact hquad _ _ _ _
      · intro φ hφ
        have r := pathSum_seg φ hφ n hn
        simp only [List.map_cons, List.map_nil, List.sum_cons, List.sum_nil, Panel.turn, quad]
        rw [pathSum_reverse φ hφ, pathSum_reverse φ hφ]
        linear_combination r (a.p0 - Fin.half a) a.p0 * (-1) - r a.p0 (a.p0 + Fin.half a)
  obtain ⟨te, pte, hte, fte, gte, ste⟩ := hte
  set ps := [quad n (a.p0 - Fin.half a) (a.p1 - Fin.half a) (a.p2 - Fin.half a) (a.p3 - Fin.half a),
       quad n (a.p0 + Fin.half a) (a.p3 + Fin.half a) (a.p2 + Fin.half a) (a.p1 + Fin.half a)] ++
    [leTop ptan (a.fin_thickness / 2) a.LE_wf PL n 0 tB a.p1 a.p2, leTop ptan (a.fin_thickness / 2) a.LE_wf PL n tB 1 a.p2 a.p3,
         leBot ptan (a.fin_thickness / 2) a.LE_wf PL n 0 tB a.p1 a.p2, leBot ptan (a.fin_thickness / 2) a.LE_wf PL n tB 1 a.p2 a.p3] ++
    [⟨Pb, rimTop ptan (a.fin_thickness / 2) a.LE_wf PL n a.p3 1, seg n a.p3 (a.p3 + Fin.half a), seg n (a.p3 - Fin.half a) a.p3,
          rimBot ptan (a.fin_thickness / 2) a.LE_wf PL n a.p3 1⟩,
       quad n a.p3 a.p0 (a.p0 - Fin.half a) (a.p3 - Fin.half a), quad n (a.p3 + Fin.half a) (a.p0 + Fin.half a) a.p0 a.p3] ++ pte with hps
  have good : ∀ p ∈ ps, p.Good n (finGap ptan a wmin η) := by
    intro p hp
    rw [hps, List.mem_append, List.mem_append, List.mem_append] at hp
    rcases hp with ((hp | hp) | hp) | hp
    · simp only [List.mem_cons, List.not_mem_nil, or_false] at hp
      rcases hp with rfl | rfl <;> exact hquad _ _ _ _
    · exact gle p hp
    · simp only [List.mem_cons, List.not_mem_nil, or_false] at hp
      rcases hp with rfl | rfl | rfl
      · exact mono _ gbo
      · exact hquad _ _ _ _
      · exact hquad _ _ _ _
    · exact gte p hp
  have sum0 : ∀ φ : V → V → ℤ, Anti φ → (ps.map (Panel.turn φ n)).sum = 0 := by
    intro φ hφ
    have r := pathSum_seg φ hφ n hn
    rw [hps, List.map_append, List.sum_append, ste φ hφ]
    simp only [List.cons_append, List.nil_append, List.map_cons, List.map_nil, List.sum_cons, List.sum_nil, Panel.turn, quad, leTop, leBot,
      ← half_eq]
    linear_combination r (a.p1 - Fin.half a) (a.p2 - Fin.half a) - r (a.p1 + Fin.half a) (a.p2 + Fin.half a)
      - r (a.p0 - Fin.half a) (a.p3 - Fin.half a) + r (a.p0 + Fin.half a) (a.p3 + Fin.half a) - r (a.p3 - Fin.half a) a.p3
      - r a.p3 (a.p3 + Fin.half a) + r (a.p0 - Fin.half a) a.p0 + r a.p0 (a.p0 + Fin.half a)
  have hclosed := closedUpTo_moved n hn _ hε ps good sum0 (finMove a o) (finMove_isometry a o)
  obtain ⟨h', M, c', g1, g2, g3⟩ := fin_assembled find h n hn name H id hid line hl sk le bo te _ _ _ _ hsk hle hbo hte fsk fle fbo fte
  refine ⟨h', M, c', g1, g2, ?_⟩
  rw [g3]
  exact hclosed

end HV
