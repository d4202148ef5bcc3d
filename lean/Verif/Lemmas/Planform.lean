import Verif.Props.WingClosed
import Verif.Lemmas.Reflected
import Verif.Model.Hangar2

/-!
# Planforms with a monotone leading edge, and bisection without continuity
-/

namespace HV
open Spec

theorem bisectLoop_total (f : ℝ → Res ℝ) (g : ℝ → ℝ) (hf : ∀ t ∈ Set.Icc (0 : ℝ) 1, f t = .ok (g t)) (fa : ℝ) (k : ℕ) :
    ∀ (xa d : ℝ), 0 ≤ xa → 0 < d → xa + d ≤ 1 → d * (1 / 2) ^ k < 2e-12 → 0 < k →
    ∃ t ∈ Set.Icc (0 : ℝ) 1, bisectLoop f fa k xa d = .ok t := by
  induction k with
  | zero => intro _ _ _ _ _ _ h; omega
  | succ k ih =>
    intro xa d h0 hd h1 hk _
    have hm : xa + d * 0.5 ∈ Set.Icc (0 : ℝ) 1 := ⟨by positivity, by linarith⟩
    unfold bisectLoop
    simp only [hf _ hm, bind, Except.bind, pure, Except.pure]
    by_cases ht : g (xa + d * 0.5) = 0 ∨ |d * 0.5| < 2e-12 + 4 * 2 ^ (-52 : ℤ) * |xa + d * 0.5|
    · rw [if_pos ht]
      exact ⟨_, hm, rfl⟩
    rw [if_neg ht]
    have hk0 : 0 < k := by
      rcases Nat.eq_zero_or_pos k with rfl | h
      · exfalso
        apply ht
        right
        rw [abs_of_pos (by positivity)]
        have : 0 ≤ 4 * (2 : ℝ) ^ (-52 : ℤ) * |xa + d * 0.5| := by positivity
        have : d * (1 / 2) ^ (0 + 1) = d * 0.5 := by norm_num
        linarith
      · exact h
    have hk' : d * 0.5 * (1 / 2) ^ k < 2e-12 := by
      have : d * 0.5 * (1 / 2) ^ k = d * (1 / 2) ^ (k + 1) := by rw [pow_succ]; ring
      rwa [this]
    split_ifs
    · exact ih _ _ hm.1 (by positivity) (by linarith) hk' hk0
    · exact ih _ _ h0 (by positivity) hm.2 hk' hk0

/-- Bisection of a function with a change of sign returns a parameter, whether or not the function is continuous. -/
theorem scipyBisect_total (f : ℝ → Res ℝ) (g : ℝ → ℝ) (hf : ∀ t ∈ Set.Icc (0 : ℝ) 1, f t = .ok (g t)) (hs : g 0 * g 1 ≤ 0) :
    ∃ t ∈ Set.Icc (0 : ℝ) 1, scipyBisect f 0 1 = .ok t := by
  have z0 : (0 : ℝ) ∈ Set.Icc (0 : ℝ) 1 := ⟨le_rfl, zero_le_one⟩
  have z1 : (1 : ℝ) ∈ Set.Icc (0 : ℝ) 1 := ⟨zero_le_one, le_rfl⟩
  unfold scipyBisect
  simp only [hf _ z0, hf _ z1, bind, Except.bind, pure, Except.pure]
  by_cases h0 : g 0 = 0
  · rw [if_pos h0]
    exact ⟨0, z0, rfl⟩
  rw [if_neg h0]
  by_cases h1 : g 1 = 0
  · rw [if_pos h1]
    exact ⟨1, z1, rfl⟩
  rw [if_neg h1]
  have hsign : ¬ (g 0 < 0 ↔ g 1 < 0) := by
    intro h
    rcases lt_or_gt_of_ne h0 with hn | hp
    · nlinarith [h.1 hn]
    · rcases lt_or_gt_of_ne h1 with hn' | hp'
      · linarith [h.2 hn']
      · nlinarith
  rw [if_neg hsign]
  exact bisectLoop_total f g hf (g 0) 100 0 (1 - 0) le_rfl (by norm_num) (by norm_num) (by norm_num) (by norm_num)

/-- `scipy.optimize.bisect(f, 0.0, 1.0)`. -/
noncomputable def bisect01 (f : ℝ → Res ℝ) : Res ℝ := scipyBisect f 0 1

/-- The leading edge runs forwards and towards the root, from `lo` to `hi`. -/
structure MonoEdge (L : ℝ → V) : Prop where
  fwd : ∀ t ∈ Set.Icc (0 : ℝ) 1, ∀ u ∈ Set.Icc (0 : ℝ) 1, t ≤ u → (L t).x ≤ (L u).x
  inw : ∀ t ∈ Set.Icc (0 : ℝ) 1, ∀ u ∈ Set.Icc (0 : ℝ) 1, t ≤ u → (L u).y ≤ (L t).y

/-- A planform with such a leading edge lies over a rectangle. -/
theorem liesOver_box {A0 A1 : V} {L : ℝ → V} (hL : MonoEdge L) (lo hi : ℝ) (l0 : lo ≤ (L 0).x) (l1 : (L 1).x ≤ hi)
    (a0 : lo ≤ A0.x ∧ A0.x ≤ hi) (a1 : lo ≤ A1.x ∧ A1.x ≤ hi) (y0 : 0 ≤ A0.y) (y1 : 0 ≤ A1.y) (yL : 0 ≤ (L 1).y) :
    LiesOver (fun x y => lo ≤ x ∧ x ≤ hi ∧ 0 ≤ y) A0 A1 L := by
  have z0 : (0 : ℝ) ∈ Set.Icc (0 : ℝ) 1 := ⟨le_rfl, zero_le_one⟩
  have z1 : (1 : ℝ) ∈ Set.Icc (0 : ℝ) 1 := ⟨zero_le_one, le_rfl⟩
  have bx : ∀ t ∈ Set.Icc (0 : ℝ) 1, lo ≤ (L t).x ∧ (L t).x ≤ hi ∧ 0 ≤ (L t).y := fun t ht =>
    ⟨l0.trans (hL.fwd 0 z0 t ht ht.1), (hL.fwd t ht 1 z1 ht.2).trans l1, yL.trans (hL.inw t ht 1 z1 ht.2)⟩
  constructor
  · intro t1 ht1 r hr s hs
    have hm : r * t1 ∈ Set.Icc (0 : ℝ) 1 := ⟨mul_nonneg hr.1 ht1.1, by nlinarith [hr.1, hr.2, ht1.1, ht1.2]⟩
    obtain ⟨b1, b2, b3⟩ := bx _ hm
    have hr' : 0 ≤ 1 - r := by linarith [hr.2]
    have hs' : 0 ≤ 1 - s := by linarith [hs.2]
    have k1 : lo ≤ A0.x * (1 - r) + A1.x * r := by nlinarith [hr.1, mul_le_mul_of_nonneg_right a0.1 hr', mul_le_mul_of_nonneg_right a1.1 hr.1]
    have k2 : A0.x * (1 - r) + A1.x * r ≤ hi := by nlinarith [hr.1, mul_le_mul_of_nonneg_right a0.2 hr', mul_le_mul_of_nonneg_right a1.2 hr.1]
    have k3 : 0 ≤ A0.y * (1 - r) + A1.y * r := add_nonneg (mul_nonneg y0 hr') (mul_nonneg y1 hr.1)
    simp only [lineAt, Vec.add_x, Vec.mul_x, Vec.add_y, Vec.mul_y]
    refine ⟨?_, ?_, ?_⟩
    · nlinarith [mul_le_mul_of_nonneg_right k1 hs', mul_le_mul_of_nonneg_right b1 hs.1]
    · nlinarith [mul_le_mul_of_nonneg_right k2 hs', mul_le_mul_of_nonneg_right b2 hs.1]
    · exact add_nonneg (mul_nonneg k3 hs') (mul_nonneg b3 hs.1)
  · intro t1 ht1 t2 ht2 r hr s hs
    have h2 : t2 ∈ Set.Icc (0 : ℝ) 1 := ⟨ht1.1.trans ht2.1, ht2.2⟩
    have hd : 0 ≤ t2 - t1 := by linarith [ht2.1]
    have hd' : 0 ≤ 1 - t2 := by linarith [ht2.2]
    have n2 : t1 + r * (t2 - t1) ≤ t2 := by nlinarith [mul_le_mul_of_nonneg_right hr.2 hd]
    have hN : t1 + r * (t2 - t1) ∈ Set.Icc (0 : ℝ) 1 := ⟨add_nonneg ht1.1 (mul_nonneg hr.1 hd), n2.trans h2.2⟩
    have e2 : t2 ≤ 1 + s * (t2 - 1) := by nlinarith [mul_le_mul_of_nonneg_right hs.2 hd']
    have hE : 1 + s * (t2 - 1) ∈ Set.Icc (0 : ℝ) 1 := ⟨h2.1.trans e2, by nlinarith [mul_nonneg hs.1 hd']⟩
    obtain ⟨p1, p2, p3⟩ := bx _ hN
    obtain ⟨q1, q2, q3⟩ := bx _ hE
    obtain ⟨r1, r2, r3⟩ := bx _ h2
    have i1 := hL.fwd _ hN _ h2 n2
    have i2 := hL.fwd _ h2 _ hE e2
    have i3 := hL.inw _ hN _ h2 n2
    have hr' : 0 ≤ 1 - r := by linarith [hr.2]
    have hs' : 0 ≤ 1 - s := by linarith [hs.2]
    have hrs := mul_nonneg hr' hs'
    have hrs2 := mul_nonneg hr.1 hs'
    have hrs3 := mul_nonneg hr' hs.1
    set N := L (t1 + r * (t2 - t1))
    set E := L (1 + s * (t2 - 1))
    set M := L t2
    refine ⟨?_, ?_, ?_⟩
    · nlinarith [mul_le_mul_of_nonneg_left a1.1 hrs, mul_le_mul_of_nonneg_left p1 hs.1, mul_le_mul_of_nonneg_left i2 hr.1,
        mul_le_mul_of_nonneg_left r1 hrs2]
    · nlinarith [mul_le_mul_of_nonneg_left a1.2 hrs, mul_le_mul_of_nonneg_left q2 hr.1, mul_le_mul_of_nonneg_left i1 hs.1,
        mul_le_mul_of_nonneg_left r2 hrs3]
    · nlinarith [mul_nonneg hrs y1, mul_le_mul_of_nonneg_left i3 hs.1, mul_nonneg hr.1 q3, mul_nonneg hrs3 r3]

/-- A polyline of straight lines that follow each other. -/
theorem lines_edge (ps : List (V × V)) (hne : ps ≠ []) (hd : ∀ e ∈ ps, e.1 ≠ e.2)
    (hj : ∀ (i : ℕ) (hi : i + 1 < ps.length), (ps[i]'(by omega)).2 = (ps[i + 1]).1) :
    ∃ P, Polyline (ps.map fun e => Line e.1 e.2) = .ok P ∧ (∀ t, P.call t = .ok (fnOf P t)) ∧ fnOf P 0 = (ps.head hne).1 ∧
      fnOf P 1 = (ps.getLast hne).2 ∧ (∀ t ∈ Set.Icc (0 : ℝ) 1, ∃ e ∈ ps, ∃ u ∈ Set.Icc (0 : ℝ) 1, fnOf P t = lineAt e.1 e.2 u) ∧
      ((∀ e ∈ ps, e.1.x ≤ e.2.x) → ∀ t ∈ Set.Icc (0 : ℝ) 1, ∀ u ∈ Set.Icc (0 : ℝ) 1, t ≤ u → (fnOf P t).x ≤ (fnOf P u).x) ∧
      ((∀ e ∈ ps, e.2.y ≤ e.1.y) → ∀ t ∈ Set.Icc (0 : ℝ) 1, ∀ u ∈ Set.Icc (0 : ℝ) 1, t ≤ u → (fnOf P u).y ≤ (fnOf P t).y) := by
  have hne' : (ps.map fun e => Line e.1 e.2) ≠ [] := by simpa using hne
  have hg : ∀ s ∈ ps.map fun e => Line e.1 e.2, GoodSeg s := by
    intro s hs
    obtain ⟨e, he, rfl⟩ := List.mem_map.1 hs
    exact goodLine _ _ (hd e he)
  obtain ⟨P, hP, hG, h0, h1, hact⟩ := goodPolyline _ hne' hg
  have hval : ∀ (e : V × V) (t : ℝ), fnOf (Line e.1 e.2) t = lineAt e.1 e.2 t := fun _ _ => rfl
  have hjoin : ∀ (i : ℕ) (hi : i + 1 < (ps.map fun e => Line e.1 e.2).length),
      fnOf ((ps.map fun e => Line e.1 e.2)[i]'(by omega)) 1 = fnOf (ps.map fun e => Line e.1 e.2)[i + 1] 0 := by
    intro i hi
    have hi' : i + 1 < ps.length := by simpa using hi
    simp only [List.getElem_map, hval]
    have := hj i hi'
    ext <;> simp [lineAt, this]
  refine ⟨P, hP, hG.call, ?_, ?_, ?_, ?_, ?_⟩
  · rw [h0, List.head_map, hval]; ext <;> simp [lineAt]
  · rw [h1, List.getLast_map, hval]; ext <;> simp [lineAt]
  · intro t ht
    obtain ⟨i, hi, u, hu, -, -, -, h⟩ := hact t ht
    have hi' : i < ps.length := by simpa using hi
    refine ⟨ps[i], List.getElem_mem _, u, hu, ?_⟩
    rw [h, List.getElem_map, hval]
  · intro hx
    have := polyline_falls (fun v => -v.x) _ hne' hg (by
      intro s hs
      obtain ⟨e, he, rfl⟩ := List.mem_map.1 hs
      intro t _ u _ htu
      rw [hval, hval]
      simp only [lineAt, Vec.add_x, Vec.mul_x]
      nlinarith [hx e he]) (fun i hi => by rw [hjoin i hi]) P hP
    intro t ht u hu htu
    linarith [this t ht u hu htu]
  · intro hy
    exact polyline_falls (fun v => v.y) _ hne' hg (by
      intro s hs
      obtain ⟨e, he, rfl⟩ := List.mem_map.1 hs
      intro t _ u _ htu
      rw [hval, hval]
      simp only [lineAt, Vec.add_y, Vec.mul_y]
      nlinarith [hy e he]) (fun i hi => by rw [hjoin i hi]) P hP

/-- The tangent computed in double precision: exact between the poles, and at the poles `±T` with `T` at least `10¹⁶`
(numpy returns `1.633123935319537e16`). -/
structure Spec.FloatTan (ptan : ℝ → ℝ) : Prop where
  like : TanLike ptan
  pole : 10 ^ 16 ≤ ptan (Real.pi / 2)
  odd : ptan (-(Real.pi / 2)) = -ptan (Real.pi / 2)

theorem ieeeTan_float : FloatTan ieeeTan where
  like := ieeeTan_like
  pole := by simp [ieeeTan]
  odd := by
    have hpi := Real.pi_pos
    unfold ieeeTan
    rw [if_neg (by linarith), if_pos rfl, if_pos rfl]

theorem Spec.FloatTan.fits {ptan : ℝ → ℝ} (h : FloatTan ptan) (th w : ℝ) (h1 : |th| ≤ 100) (hw : 1 / 1000 ≤ w) :
    PoleFits ptan th w := by
  have hT := h.pole
  have hT0 : (0 : ℝ) < ptan (Real.pi / 2) := lt_of_lt_of_le (by positivity) hT
  refine ⟨⟨hT0, by linarith, ?_⟩, h.odd⟩
  have h3 : |th| ^ 3 ≤ 100 ^ 3 := by gcongr
  have h4 : (1 / 1000 * 10 ^ 16 : ℝ) ≤ w * ptan (Real.pi / 2) := by gcongr
  have h5 : (1 / 1000 * 10 ^ 16 : ℝ) ^ 2 ≤ (w * ptan (Real.pi / 2)) ^ 2 := by gcongr
  linarith

theorem Spec.FloatTan.gap {ptan : ℝ → ℝ} (h : FloatTan ptan) (b w : ℝ) (h0 : 0 ≤ b) (h1 : b ≤ 100) (hw : 1 / 1000 ≤ w) :
    poleGap ptan b w ≤ 1e-12 := by
  have hT := h.pole
  unfold poleGap
  have h3 : b ^ 3 ≤ 100 ^ 3 := by gcongr
  have h4 : (1 / 1000 * 10 ^ 16 : ℝ) ≤ w * ptan (Real.pi / 2) := by gcongr
  have h5 : (1 / 1000 * 10 ^ 16 : ℝ) ^ 2 ≤ (w * ptan (Real.pi / 2)) ^ 2 := by gcongr
  have h6 : b / ptan (Real.pi / 2) ≤ 100 / 10 ^ 16 := by gcongr
  have h7 : b ^ 3 / (w * ptan (Real.pi / 2)) ^ 2 ≤ 100 ^ 3 / (1 / 1000 * 10 ^ 16) ^ 2 := by gcongr
  have : (100 / 10 ^ 16 + 100 ^ 3 / (1 / 1000 * 10 ^ 16) ^ 2 : ℝ) ≤ 1e-12 := by norm_num
  linarith

/-- The triangle turned over. -/
def Spec.turnedOver (t : Tri ℝ) : Tri ℝ := ⟨t.v0, t.v2, t.v1⟩

/-- Watertight up to `ε`, whatever the orientation of the triangles: after moving vertices by at most `ε` and turning over some of the
triangles, the mesh is closed. -/
def Spec.GapFree (ε : ℝ) (m : TriMesh ℝ) : Prop :=
  ∃ m' m'', VertsWithin ε m m' ∧ List.Forall₂ (fun t t' => t' = t ∨ t' = turnedOver t) m' m'' ∧ Closed m''

theorem Spec.ClosedUpTo.watertight {ε : ℝ} {m : TriMesh ℝ} (h : ClosedUpTo ε m) : GapFree ε m := by
  obtain ⟨m', h1, h2⟩ := h
  exact ⟨m', m', h1, List.forall₂_same.2 fun _ _ => .inl rfl, h2⟩

theorem closed_append {m m' : TriMesh ℝ} (h : Closed m) (h' : Closed m') : Closed (m ++ m') := by
  rw [closed_iff_edgeSum] at *
  intro φ hφ
  rw [show edges (m ++ m') = edges m ++ edges m' from List.flatMap_append, edgeSum_append, h φ hφ, h' φ hφ, add_zero]

theorem mirrorV_isometry (i : Fin 3) (u v : V) : vdist (mirrorV i u) (mirrorV i v) = vdist u v := by
  have h1 := vdist_sq (mirrorV i u) (mirrorV i v)
  have h2 := vdist_sq u v
  have : vdist (mirrorV i u) (mirrorV i v) ^ 2 = vdist u v ^ 2 := by
    rw [h1, h2]
    fin_cases i <;> simp [mirrorV] <;> ring
  exact (sq_eq_sq₀ (vdist_nonneg _ _) (vdist_nonneg _ _)).1 this

theorem within_mapVerts {ε : ℝ} {m m' : TriMesh ℝ} (f : V → V) (hf : ∀ u v, vdist (f u) (f v) = vdist u v) (h : VertsWithin ε m m') :
    VertsWithin ε (mapVerts f m) (mapVerts f m') := by
  unfold VertsWithin mapVerts at *
  rw [List.forall₂_map_left_iff, List.forall₂_map_right_iff]
  exact h.imp fun t t' h => by simpa only [hf] using h

theorem mirrorV_y (v : V) : mirrorV 1 v = mirrorY v := by simp [mirrorV, mirrorY]

/-- A watertight mesh together with its mirror image. -/
theorem Spec.ClosedUpTo.doubled {ε : ℝ} {m : TriMesh ℝ} (h : ClosedUpTo ε m) : GapFree ε (m ++ mapVerts (mirrorV 1) m) := by
  obtain ⟨m', h1, h2⟩ := h
  refine ⟨m' ++ mapVerts (mirrorV 1) m', m' ++ mirrorMesh m', List.rel_append h1 (within_mapVerts _ (mirrorV_isometry 1) h1),
    List.rel_append (List.forall₂_same.2 fun _ _ => .inl rfl) ?_, closed_append h2 ?_⟩
  · unfold mapVerts mirrorMesh
    rw [List.forall₂_map_left_iff, List.forall₂_map_right_iff]
    exact List.forall₂_same.2 fun t _ => .inr (by simp [turnedOver, mirrorV_y])
  · rw [closed_iff_edgeSum] at *
    intro φ hφ
    rw [edgeSum_mirror φ hφ, h2 _ fun u v => hφ _ _, neg_zero]

/-- Half of a body whose only open edges lie in the plane of symmetry, together with its mirror image. -/
theorem halves_watertight {ε : ℝ} {m m' : TriMesh ℝ} (h1 : VertsWithin ε m m') (h2 : Closed (m' ++ mirrorMesh m')) :
    GapFree ε (m ++ mapVerts (mirrorV 1) m) := by
  refine ⟨m' ++ mapVerts (mirrorV 1) m', m' ++ mirrorMesh m', List.rel_append h1 (within_mapVerts _ (mirrorV_isometry 1) h1),
    List.rel_append (List.forall₂_same.2 fun _ _ => .inl rfl) ?_, h2⟩
  unfold mapVerts mirrorMesh
  rw [List.forall₂_map_left_iff, List.forall₂_map_right_iff]
  exact List.forall₂_same.2 fun t _ => .inr (by simp [turnedOver, mirrorV_y])

/-- The break of a wing whose leading edge passes the station of `A1`. -/
theorem wing_break (a : Wing.Args) (hb : a.t_B1 = none) (L : ℝ → V) (hl : ∀ t, a.line.call t = .ok (L t))
    (h0 : (L 0).x ≤ a.A1.x) (h1 : a.A1.x ≤ (L 1).x) :
    ∃ w, Wing.init (rounded bisect01) a = .ok w ∧ w.t_B1 ∈ Set.Icc (0 : ℝ) 1 := by
  obtain ⟨t, ht, he⟩ := scipyBisect_total (fun t => do let p ← a.line.call t; return p.x - a.A1.x) (fun t => (L t).x - a.A1.x)
    (fun t _ => by simp only [hl, ok_bind]; rfl)
    (mul_nonpos_of_nonpos_of_nonneg (by linarith) (by linarith))
  have hbr : Wing.breakB1 (rounded bisect01) a = .ok (round6 t) := by
    unfold Wing.breakB1
    rw [hb]
    simp only [rounded, bisect01, he, ok_bind]
    rfl
  refine ⟨⟨a, if a.LE_wf.isNone ∧ a.LE_type = "custom" then some leadingEdgeWidth else a.LE_wf, a.LE_type.toUpper, round6 t,
    Wing.breakB2 a (round6 t)⟩, ?_, round6_mem ht⟩
  unfold Wing.init
  rw [hbr, ok_bind]
  rfl

end HV
