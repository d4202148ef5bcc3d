import Verif.Props.SimilarHangar2
import Verif.Props.WaveriderAngle

/-!
# C127: the waverider with all lengths multiplied is not the same vehicle at another size

The fin of the waverider has a fixed length and height.
-/

namespace HV
open Spec Veh

/-- Where the points of a fin added with curvatures are: between the bent points of the flat fin; and the bent fin reaches as far in every direction of the
flat fin as the corners of the latter. -/
theorem bent_fin_hull (find : (ℝ → Res ℝ) → Res ℝ) (ptan : ℝ → ℝ) (a : Fin.Args) (wmin W η : ℝ) (o : V) (hη : FindsRoot η find)
    (h : UniformFin ptan a wmin o) (hx : BreakFound a) (c : V) (ρ wmax : ℝ) (hB : FinBall a c ρ wmax) (hf : FlatOutline a W)
    (l : List Curvature) (hl : ∀ k ∈ l, (k.direction = "x" ∨ k.direction = "y") ∧ ∀ x y, ∃ f m, k.fn x y = .ok f ∧ k.fn_dash x y = .ok m)
    (n : ℕ) (hn : 1 ≤ n) (name : Option String) (H : Heap) (id : ℕ) (hid : H id = bentFin find ptan a n name l) :
    ∃ g c, generatePatches H id = (.ok (), g) ∧ pipeline 0 (g id) = (.ok (), c) ∧ ∃ M c', c.mesh = (.ok M, c') ∧
      (∀ K : V → Prop, (∀ p q r s : V, K p → K q → K r → K s → K (cellCentre MeshArith.real p q r s)) →
        (∀ u, WithinFin a W (finHalfHeight a + poleGap ptan (a.fin_thickness / 2) wmin) u → K (curveAll l (finMove a o u))) →
        ∀ v, IsVertex v M.tris → K v) ∧
      ∀ p ∈ [a.p0, a.p1, a.p2, a.p3], ∀ α β γ δ : ℝ, 0 ≤ aff α β γ δ (finMove a o (p + ⟨0, 0, a.fin_thickness / 2⟩)) →
        ∃ u, WithinFin a W (finHalfHeight a + poleGap ptan (a.fin_thickness / 2) wmin) u ∧ 0 ≤ aff α β γ δ (finMove a o u) ∧
          IsVertex (curveAll l (finMove a o u)) M.tris := by
  obtain ⟨L, Gs, hun, hnames, hG, -⟩ := fin_glued find η hη h hx c ρ wmax hB n hn
  have hout : Fin.out find ptan a = ⟨L.map fun e => (e.1, Fin.place a e.2), [], [], none⟩ := by unfold Fin.out; rw [hun]
  have hkeys : ((L.map fun e => (e.1, Fin.place a e.2)).map Prod.fst) = finNames a.rudder_type := by
    rw [← hnames, List.map_map]; rfl
  have hkn : ((L.map fun e => (e.1, Fin.place a e.2)).map Prod.fst).Nodup := by rw [hkeys]; exact Fin.finNames_nodup _
  set oc : Comp := { bentFin find ptan a n name l with patches := L.map fun e => (e.1, Fin.place a e.2) } with hoc
  have hg : generatePatches H id = (.ok (), H.upd id oc) := by
    have e : (H id).gen = .replace fun _ => Fin.out find ptan a := by rw [hid]; rfl
    unfold generatePatches Composite.genLeaf
    rw [e]
    simp only [Comp.genReplace, hout]
    rw [Dict.setAll_nil_nodup _ hkn, hid]
  have hG' : GridsOf n oc.patches (Gs.map fun G i j => finMove a o (G i j)) := by
    show GridsOf n (L.map fun e => (e.1, Fin.place a e.2)) _
    unfold GridsOf at hG ⊢
    rw [List.forall₂_map_left_iff, List.forall₂_map_right_iff]
    exact hG.imp fun e G hm i hi j hj => place_move a o h.offset _ _ _ _ (hm i hi j hj)
  have hne : oc.patches ≠ [] := by
    intro h0
    have : (L.map fun e => (e.1, Fin.place a e.2)).map Prod.fst = [] := by
      rw [show (L.map fun e => (e.1, Fin.place a e.2)) = [] from h0]; rfl
    rw [hkeys] at this
    unfold finNames at this
    split_ifs at this <;> simp at this
  obtain ⟨d1, -⟩ := curved_done oc n hn rfl rfl rfl rfl hkn hne _ hG' rfl l rfl hl rfl
  obtain ⟨c1, M, c2, k1, k2, k3⟩ := d1 rfl
  obtain ⟨h', Mf, c', f1, f2, f3, f4, -⟩ := C139_fin find ptan a wmin W η o hη h hf hx.le n hn name (fun _ => Fin.comp find ptan a n name) 0 rfl
  obtain ⟨h'', Mf', c'', e1, -, e2, e3⟩ := replaced_mesh (fun _ => Fin.comp find ptan a n name) 0 (fun _ => Fin.out find ptan a) rfl n hn rfl rfl rfl rfl
    (by rw [hout]) (by rw [hout]; exact hkn) (by rw [hout]; exact hne) (Gs.map fun G i j => finMove a o (G i j)) (by rw [hout]; exact hG')
  rw [f1] at e1
  obtain rfl := (Prod.mk.inj e1).2
  rw [f2] at e2
  obtain rfl := Except.ok.inj (Prod.mk.inj e2).1
  set K0 := WithinFin a W (finHalfHeight a + poleGap ptan (a.fin_thickness / 2) wmin) with hK0
  have node : ∀ G ∈ Gs, ∀ i ≤ n, ∀ j ≤ n, ∃ u, finMove a o (G i j) = finMove a o u ∧ K0 u := by
    intro G hG i hi j hj
    refine f3 _ ?_
    rw [e3, isVertex_flatten]
    exact ⟨_, List.mem_map.2 ⟨_, List.mem_map.2 ⟨G, hG, rfl⟩, rfl⟩, gridMesh_vertex n n (fun i j => finMove a o (G i j)) i j hn hn hi hj⟩
  refine ⟨_, c1, hg, by rw [upd_self]; exact k1, M, c2, k2, ?_, ?_⟩
  · intro K hc hK v hv
    rw [k3, isVertex_flatten] at hv
    obtain ⟨m, hm, hv⟩ := hv
    obtain ⟨G1, hG1, rfl⟩ := List.mem_map.1 hm
    obtain ⟨G2, hG2, rfl⟩ := List.mem_map.1 hG1
    obtain ⟨G, hG, rfl⟩ := List.mem_map.1 hG2
    refine grid_keeps n _ K hc (fun i hi j hj => ?_) v hv
    obtain ⟨u, e, hu⟩ := node G hG i hi j hj
    simp only [e]
    exact hK u hu
  · intro p hp α β γ δ hpos
    by_contra hno
    have hv := (f4 p hp).1
    rw [e3, isVertex_flatten] at hv
    obtain ⟨m, hm, hv⟩ := hv
    obtain ⟨G1, hG1, rfl⟩ := List.mem_map.1 hm
    obtain ⟨G, hG, rfl⟩ := List.mem_map.1 hG1
    have := grid_keeps n _ (fun v => aff α β γ δ v < 0) (by
      intro p q r s hp hq hr hs
      rw [aff_centre]
      linarith) (fun i hi j hj => by
        obtain ⟨u, e, hu⟩ := node G hG i hi j hj
        by_contra hlt
        refine hno ⟨u, hu, by rw [← e]; exact not_lt.1 hlt, ?_⟩
        rw [← e, k3, isVertex_flatten]
        exact ⟨_, List.mem_map.2 ⟨_, List.mem_map.2 ⟨_, List.mem_map.2 ⟨G, hG, rfl⟩, rfl⟩, rfl⟩,
          gridMesh_vertex n n (fun i j => curveAll l (finMove a o (G i j))) i j hn hn hi hj⟩) _ hv
    linarith

namespace Spec

/-- How far a point is from the origin. -/
noncomputable def reach (v : V) : ℝ := vdist v ⟨0, 0, 0⟩

/-- The curvature multipliers differ little from those that leave the vehicle flat. -/
structure NearlyFlat (p : Waverider.Params) : Prop where
  along : |p.x_curve_mult - p.curve_zero| ≤ 0.1
  across : |p.y_curve_mult - p.curve_zero| ≤ 0.1

/-- The mesh of the fin of a waverider reaches as far from the origin as the fixed length and height of the fin say. -/
structure Waverider.FinReach (m : TriMesh ℝ) : Prop where
  far : ∃ v, IsVertex v m ∧ 0.298 ≤ reach v
  near : ∀ v, IsVertex v m → reach v ≤ 0.34

end Spec

namespace Waverider
variable {p : Params}

theorem bent_eq (u : V) : curveAll (curvatures p) u = rolledY (0.5 * (p.y_curve_mult - p.curve_zero)) (rolledX (0.25 * (p.x_curve_mult - p.curve_zero)) u) := by
  simp only [curveAll, curvatures, List.foldl_cons, List.foldl_nil]
  have e : curvePt ⟨"x", fun x y => .ok (curvX p x y), fun x y => .ok (curvXd p x y)⟩ u = rolledX (0.25 * (p.x_curve_mult - p.curve_zero)) u := by
    rw [curvePt_x _ rfl u _ _ rfl rfl]
    simp only [rolledX, curvX, curvXd]
    rw [show 5 * (p.x_curve_mult - p.curve_zero) * 0.05 * 2 * u.x = 2 * (0.25 * (p.x_curve_mult - p.curve_zero)) * u.x by ring,
      show 5 * (p.x_curve_mult - p.curve_zero) * 0.05 * u.x ^ 2 = 0.25 * (p.x_curve_mult - p.curve_zero) * u.x ^ 2 by ring, add_comm]
  rw [e, curvePt_y _ rfl _ _ _ rfl rfl]
  set w := rolledX (0.25 * (p.x_curve_mult - p.curve_zero)) u
  simp only [rolledY, curvY, curvYd]
  rw [show 5 * (p.y_curve_mult - p.curve_zero) * 0.1 * 2 * w.y = 2 * (0.5 * (p.y_curve_mult - p.curve_zero)) * w.y by ring,
    show 5 * (p.y_curve_mult - p.curve_zero) * 0.1 * w.y ^ 2 = 0.5 * (p.y_curve_mult - p.curve_zero) * w.y ^ 2 by ring]

theorem abs_sin_arctan_le (m : ℝ) : |Real.sin (Real.arctan m)| ≤ |m| := by
  rw [Real.sin_arctan, abs_div, abs_of_pos (Real.sqrt_pos.2 (by positivity : 0 < 1 + m ^ 2))]
  refine div_le_self (abs_nonneg _) ?_
  rw [Real.one_le_sqrt]
  nlinarith [sq_nonneg m]

/-- The bent points of the flat fin. -/
theorem bent_box (hp : NearlyFlat p) {u : V} (h1 : |u.x| ≤ 0.31) (h2 : |u.y| ≤ 0.003) (h3 : |u.z| ≤ 0.11) :
    |(curveAll (curvatures p) u).x - u.x| ≤ 0.002 ∧ |(curveAll (curvatures p) u).y| ≤ 0.004 ∧ |(curveAll (curvatures p) u).z| ≤ 0.114 := by
  rw [bent_eq]
  set c := 0.25 * (p.x_curve_mult - p.curve_zero) with hc
  set d := 0.5 * (p.y_curve_mult - p.curve_zero) with hd
  have c1 : |c| ≤ 0.025 := by rw [hc, abs_mul, abs_of_pos (by norm_num : (0 : ℝ) < 0.25)]; linarith [hp.along]
  have d1 : |d| ≤ 0.05 := by rw [hd, abs_mul, abs_of_pos (by norm_num : (0 : ℝ) < 0.5)]; linarith [hp.across]
  have s1 : |Real.sin (Real.arctan (2 * c * u.x))| ≤ 0.0155 := by
    refine (abs_sin_arctan_le _).trans ?_
    rw [abs_mul, abs_mul, abs_two]
    nlinarith [abs_nonneg c, abs_nonneg u.x]
  have z1 : |c * u.x ^ 2 + u.z * Real.cos (Real.arctan (2 * c * u.x))| ≤ 0.113 := by
    refine (abs_add_le _ _).trans ?_
    rw [abs_mul c, abs_mul u.z, abs_pow]
    have k1 : |u.x| ^ 2 ≤ 0.31 ^ 2 := pow_le_pow_left₀ (abs_nonneg _) h1 2
    have k2 : |c| * |u.x| ^ 2 ≤ 0.025 * 0.31 ^ 2 := mul_le_mul c1 k1 (by positivity) (by norm_num)
    have k3 : |u.z| * |Real.cos (Real.arctan (2 * c * u.x))| ≤ |u.z| := mul_le_of_le_one_right (abs_nonneg _) (Real.abs_cos_le_one _)
    have k4 : (0.025 : ℝ) * 0.31 ^ 2 ≤ 0.0025 := by norm_num
    linarith
  simp only [rolledY, rolledX]
  set z := c * u.x ^ 2 + u.z * Real.cos (Real.arctan (2 * c * u.x))
  have s2 : |Real.sin (Real.arctan (2 * d * u.y))| ≤ 0.0003 := by
    refine (abs_sin_arctan_le _).trans ?_
    rw [abs_mul, abs_mul, abs_two]
    nlinarith [abs_nonneg d, abs_nonneg u.y]
  refine ⟨?_, ?_, ?_⟩
  · rw [show u.x - u.z * Real.sin (Real.arctan (2 * c * u.x)) - u.x = -(u.z * Real.sin (Real.arctan (2 * c * u.x))) by ring, abs_neg, abs_mul]
    have := mul_le_mul h3 s1 (abs_nonneg _) (by norm_num)
    linarith
  · refine (abs_sub _ _).trans ?_
    rw [abs_mul]
    have := mul_le_mul z1 s2 (abs_nonneg _) (by norm_num)
    linarith
  · refine (abs_add_le _ _).trans ?_
    rw [abs_mul d, abs_mul z, abs_pow]
    have k1 : |u.y| ^ 2 ≤ 0.003 ^ 2 := pow_le_pow_left₀ (abs_nonneg _) h2 2
    have k2 : |d| * |u.y| ^ 2 ≤ 0.05 * 0.003 ^ 2 := mul_le_mul d1 k1 (by positivity) (by norm_num)
    have k3 : |z| * |Real.cos (Real.arctan (2 * d * u.y))| ≤ |z| := mul_le_of_le_one_right (abs_nonneg _) (Real.abs_cos_le_one _)
    have k4 : (0.05 : ℝ) * 0.003 ^ 2 ≤ 0.001 := by norm_num
    linarith

theorem reach_le {v : V} {r : ℝ} (hr : 0 ≤ r) (h : v.x ^ 2 + v.y ^ 2 + v.z ^ 2 ≤ r ^ 2) : reach v ≤ r :=
  vdist_le_sq hr (by simpa using h)

theorem le_reach (v : V) : |v.x| ≤ reach v := by
  have := (vdist_coords v ⟨0, 0, 0⟩).1
  rw [sub_zero] at this
  exact this

/-- The mesh of the fin before it is turned. -/
theorem fin_reach (hp : NearlyFlat p) {ptan : ℝ → ℝ} (hT : FloatTan ptan) (n : ℕ) (hn : 1 ≤ n) (name : Option String) (H : Heap) (id : ℕ)
    (hid : H id = bentFin (rounded bisect01) ptan finArgs n name (curvatures p)) :
    ∃ g c, generatePatches H id = (.ok (), g) ∧ pipeline 0 (g id) = (.ok (), c) ∧ ∃ M c', c.mesh = (.ok M, c') ∧ Waverider.FinReach M.tris := by
  have hu : UniformFin ptan finArgs 0.01 ⟨0, 0, 0⟩ := by
    refine ⟨hT.like, by norm_num [finArgs], rfl, rfl, ?_, ?_, by norm_num, ?_, ?_, fun _ => rfl, ?_⟩
    · intro h; have := congrArg Vec.x h; norm_num [finArgs] at this
    · intro h; have := congrArg Vec.x h; norm_num [finArgs] at this
    · exact hT.fits _ _ (by rw [abs_le]; norm_num [finArgs]) (by norm_num)
    · exact fun t _ => ⟨0.01, le_rfl, rfl⟩
    · simp [OffsetBy, finArgs]
  have hB : FinBall finArgs ⟨0.15, 0.05, 0⟩ 0.4 0.01 := by
    refine ⟨fun t ht w hw => ?_, ?_, ?_⟩
    · simp only [finArgs] at hw
      cases hw
      exact le_rfl
    · rintro p (rfl | rfl | rfl | rfl) <;> exact vdist_le_sq (by norm_num [finArgs]) (by norm_num [finArgs])
    · intro h
      simp [finArgs] at h
  have hf : FlatOutline finArgs 0.01 := by
    refine ⟨rfl, rfl, rfl, rfl, fun t _ w hw => ?_⟩
    simp only [finArgs] at hw
    cases hw
    exact le_rfl
  have mv : ∀ u, finMove finArgs ⟨0, 0, 0⟩ u = ⟨u.x, u.z, -u.y⟩ := by
    intro u
    rw [finMove_plain _ _ _ rfl]
    have : deg2rad (-90) = -(Real.pi / 2) := by unfold deg2rad; ring
    simp only [rotAbout, finArgs, this, Real.cos_neg, Real.sin_neg, Real.cos_pi_div_two, Real.sin_pi_div_two]
    ext <;> simp
  have gap := hT.gap (finArgs.fin_thickness / 2) 0.01 (by norm_num [finArgs]) (by norm_num [finArgs]) (by norm_num)
  have hh : finHalfHeight finArgs = 0.0025 := by
    unfold finHalfHeight
    rw [if_neg (by simp [finArgs])]
    norm_num [finArgs]
  have corners : finCorners finArgs = [⟨0, 0, 0⟩, ⟨0.1 * 0.3, 0.7 * 0.1, 0⟩, ⟨0.6 * 0.3, 0.1, 0⟩, ⟨0.3, 0, 0⟩] := by
    unfold finCorners
    rw [if_neg (by simp [finArgs])]
    rfl
  have flat : ∀ u, WithinFin finArgs 0.01 (finHalfHeight finArgs + poleGap ptan (finArgs.fin_thickness / 2) 0.01) u →
      -0.01 ≤ u.x ∧ u.x ≤ 0.31 ∧ |u.z| ≤ 0.003 ∧ |u.y| ≤ 0.11 := by
    rintro u ⟨h1, h2⟩
    have key : ∀ α β γ : ℝ, α ^ 2 + β ^ 2 = 1 → (∀ q ∈ [(⟨0, 0, 0⟩ : V), ⟨0.1 * 0.3, 0.7 * 0.1, 0⟩, ⟨0.6 * 0.3, 0.1, 0⟩, ⟨0.3, 0, 0⟩], α * q.x + β * q.y ≤ γ) →
        α * u.x + β * u.y ≤ γ + 0.01 := by
      intro α β γ g1 g2
      exact h2 α β γ g1 (by rw [corners]; exact g2)
    have k1 := key (-1) 0 0 (by norm_num) (by simp; norm_num)
    have k2 := key 1 0 0.3 (by norm_num) (by simp; norm_num)
    have k3 := key 0 (-1) 0 (by norm_num) (by simp; norm_num)
    have k4 := key 0 1 0.1 (by norm_num) (by simp; norm_num)
    rw [hh] at h1
    refine ⟨by linarith, by linarith, by linarith, ?_⟩
    rw [abs_le]
    constructor <;> linarith
  have hl : ∀ k ∈ curvatures p, (k.direction = "x" ∨ k.direction = "y") ∧ ∀ x y, ∃ f m, k.fn x y = .ok f ∧ k.fn_dash x y = .ok m := by
    intro k hk
    simp only [curvatures, List.mem_cons, List.not_mem_nil, or_false] at hk
    rcases hk with rfl | rfl
    · exact ⟨.inl rfl, fun x y => ⟨_, _, rfl, rfl⟩⟩
    · exact ⟨.inr rfl, fun x y => ⟨_, _, rfl, rfl⟩⟩
  obtain ⟨g, c, g1, g2, M, c', g3, g4, g5⟩ := bent_fin_hull (rounded bisect01) ptan finArgs 0.01 0.01 6e-7 ⟨0, 0, 0⟩ roundedBisect_finds hu
    (by norm_num [BreakFound, finArgs]) ⟨0.15, 0.05, 0⟩ 0.4 0.01 hB hf (curvatures p) hl n hn name H id hid
  refine ⟨g, c, g1, g2, M, c', g3, ?_, ?_⟩
  · obtain ⟨u, k1, k2, k3⟩ := g5 finArgs.p3 (by simp) 1 0 0 (-0.3) (by rw [mv]; simp [aff, finArgs])
    obtain ⟨b1, b2, b3, b4⟩ := flat u k1
    rw [mv] at k2
    have k2' : 0.3 ≤ u.x := by simp only [aff] at k2; linarith
    refine ⟨_, k3, ?_⟩
    rw [mv]
    have := (bent_box hp (u := ⟨u.x, u.z, -u.y⟩) (by rw [abs_le]; constructor <;> simp only <;> linarith) b3 (by simpa using b4)).1
    have h1 := le_reach (curveAll (curvatures p) ⟨u.x, u.z, -u.y⟩)
    have h2 := le_abs_self (curveAll (curvatures p) ⟨u.x, u.z, -u.y⟩).x
    have h3 := (abs_le.1 this).1
    simp only at h3
    linarith
  · intro v hv
    have := g4 (fun v => |v.x| ≤ 0.312 ∧ |v.y| ≤ 0.004 ∧ |v.z| ≤ 0.114) (by
      rintro q r s t ⟨q1, q2, q3⟩ ⟨r1, r2, r3⟩ ⟨s1, s2, s3⟩ ⟨t1, t2, t3⟩
      rw [abs_le] at q1 q2 q3 r1 r2 r3 s1 s2 s3 t1 t2 t3
      refine ⟨?_, ?_, ?_⟩ <;> rw [abs_le] <;> simp only [cellCentre, MeshArith.real] <;> constructor <;> linarith) (by
      intro u hu
      obtain ⟨b1, b2, b3, b4⟩ := flat u hu
      rw [mv]
      obtain ⟨j1, j2, j3⟩ := bent_box hp (u := ⟨u.x, u.z, -u.y⟩) (by rw [abs_le]; constructor <;> simp only <;> linarith) b3 (by simpa using b4)
      refine ⟨?_, j2, j3⟩
      rw [abs_le] at j1 ⊢
      simp only at j1
      constructor <;> linarith) v hv
    obtain ⟨j1, j2, j3⟩ := this
    refine reach_le (by norm_num) ?_
    have q1 := sq_le_sq' (abs_le.1 j1).1 (abs_le.1 j1).2
    have q2 := sq_le_sq' (abs_le.1 j2).1 (abs_le.1 j2).2
    have q3 := sq_le_sq' (abs_le.1 j3).1 (abs_le.1 j3).2
    norm_num at q1 q2 q3 ⊢
    linarith

end Waverider

open Waverider in
/-- The generated waverider and its fin. -/
theorem waverider_fin (ptan : ℝ → ℝ) (hT : FloatTan ptan) (h : Heap) (ids : ℕ → ℕ) (hi : Function.Injective ids) (nf nw nt : ℕ)
    (hf : 1 ≤ nf) (hw : 1 ≤ nw) (ht : 1 ≤ nt) (kwargs : Dict String ℝ) (p : Waverider.Params) (ha : WaveriderArgs kwargs p) (hp : WaveriderOk p)
    (hq : NearlyFlat p) :
    ∃ st, Waverider.instanceOf bisect01 ptan h ids nf nw nt kwargs = .ok st ∧ ("fin", ids 4) ∈ st.veh.named ∧
      ∀ st0 lib depth, Rescaled st st0 → ∃ st' M c', generate lib depth st0 = (.ok (), st') ∧ (st'.heap (ids 4)).mesh = (.ok M, c') ∧
        Waverider.FinReach M.tris := by
  obtain ⟨y2, y3, el, l3, l32, l2⟩ := edge_ok hp
  obtain ⟨w, ew, mw⟩ := wings_mesh hp l3 l32 l2 hT
  obtain ⟨a, f, ea, ef, mf⟩ := flaps_mesh hp l3 l32 l2 hT
  obtain ⟨st, b1, b2, b3, v1, v2, v3, f0, f1, f2, f3, f4⟩ := waverider_instance ptan h ids hi nf nw nt kwargs p ha _ w a f el ew ea ef
  refine ⟨st, b1, by rw [b3]; simp [List.range_succ], fun st0 lib depth hr => ?_⟩
  have hv : st0.veh = st.veh := hr.1
  have hcs : st0.veh.components = [ids 0, ids 1, ids 2, ids 3, ids 4] := by rw [hv, b2]; rfl
  obtain ⟨n0, o0, r0⟩ : ∃ n : ℕ, 1 ≤ n ∧ st0.heap (ids 0) = { (RevolvedComponent (fuseLine p) n (some "fuselage")).addClusteringOptions (some cf) none with
        modifier := some underside, curvatures := some (curvatures p) } := by
    rcases hr.2 (ids 0) with h | ⟨m, hm, h⟩
    · exact ⟨nf, hf, by rw [h, f0]⟩
    · exact ⟨m, hm, by rw [h, f0]; rfl⟩
  have hwing : ∀ k s nm rf ap, st.heap k = bentWing ptan s nw nm rf ap (curvatures p) → ∃ n : ℕ, 1 ≤ n ∧
      st0.heap k = bentWing ptan s n nm rf ap (curvatures p) := by
    intro k s nm rf ap hk
    rcases hr.2 k with h | ⟨m, hm, h⟩
    · exact ⟨nw, hw, h.trans hk⟩
    · exact ⟨m, hm, by rw [h, hk]; rfl⟩
  obtain ⟨n1, o1, r1⟩ := hwing _ _ _ _ _ f1
  obtain ⟨n2, o2, r2⟩ := hwing _ _ _ _ _ f2
  obtain ⟨n3, o3, r3⟩ := hwing _ _ _ _ _ f3
  obtain ⟨n4, o4, r4⟩ : ∃ n : ℕ, 1 ≤ n ∧ st0.heap (ids 4) = bentFin (rounded bisect01) ptan finArgs n (some "fin") (curvatures p) := by
    rcases hr.2 (ids 4) with h | ⟨m, hm, h⟩
    · exact ⟨nt, ht, by rw [h, f4]⟩
    · exact ⟨m, hm, by rw [h, f4]; rfl⟩
  have ch : ∀ k ∈ st0.veh.components, (st0.heap k).children = [] := by
    intro k hk
    rw [hcs] at hk
    simp only [List.mem_cons, List.not_mem_nil, or_false] at hk
    rcases hk with rfl | rfl | rfl | rfl | rfl
    · rw [r0]; rfl
    · rw [r1]; rfl
    · rw [r2]; rfl
    · rw [r3]; rfl
    · rw [r4]; rfl
  have tr : RigidList st0.veh.transformations := by
    rw [hv, v2]
    intro t ht
    simp only [List.mem_append, List.mem_singleton] at ht
    rcases ht with ht | rfl
    · refine ⟨cart3d_plain t ht, ?_⟩
      simp only [CART3D, List.mem_cons, List.not_mem_nil, or_false] at ht
      rcases ht with rfl | rfl
      · exact trivial
      · exact trivial
    · exact ⟨.rotate _ (i := 2) (.inl rfl), trivial⟩
  obtain ⟨A, hI, hA, st', s1, -, s2⟩ := generate_moved lib depth st0 (by rw [hv, v1]) tr (by rw [hv, v3])
    (by
      refine ⟨by rw [hcs]; simp [hi.eq_iff], ?_, ?_⟩
      · intro k _ k' hk'
        rw [ch k' hk']; simp
      · intro k hk k' _ _
        rw [ch k hk]; simp)
    (fun k => if k = ids 0 then n0 else if k = ids 1 then n1 else if k = ids 2 then n2 else if k = ids 3 then n3 else n4)
    (fun k m => k = ids 4 → Waverider.FinReach m)
    (by
      intro k hk
      rw [hcs] at hk
      simp only [List.mem_cons, List.not_mem_nil, or_false] at hk
      rcases hk with rfl | rfl | rfl | rfl | rfl
      · obtain ⟨g, c, g1, g2, M, c', g3, g4⟩ := fuse_mesh hp n0 o0 _ st0.heap (ids 0) r0
        refine ⟨by simpa using o0, ?_, g, c, g1, g2, M, c', g3, by simp [hi.eq_iff]⟩
        rw [r0]
        refine ⟨by simp; rfl, rfl, rfl, by simp [RevolvedComponent, Comp.addClusteringOptions], rfl⟩
      · obtain ⟨g, c, g1, g2, M, c', g3, g4⟩ := mw n1 o1 _ st0.heap (ids 1) r1
        refine ⟨by simpa [hi.eq_iff] using o1, ?_, g, c, g1, g2, M, c', g3, by simp [hi.eq_iff]⟩
        rw [r1]
        refine ⟨by simp [hi.eq_iff]; rfl, rfl, rfl, by simp [bentWing, Wing.comp], rfl⟩
      · obtain ⟨m, -, hm⟩ := mf n2 o2
        obtain ⟨g, c, g1, g2, M, c', g3, g4⟩ := (hm _ st0.heap (ids 2)).1 r2
        refine ⟨by simpa [hi.eq_iff] using o2, ?_, g, c, g1, g2, M, c', g3, by simp [hi.eq_iff]⟩
        rw [r2]
        refine ⟨by simp [hi.eq_iff]; rfl, rfl, rfl, by simp [bentWing, Wing.comp], rfl⟩
      · obtain ⟨m, -, hm⟩ := mf n3 o3
        obtain ⟨g, c, g1, g2, M, c', g3, g4⟩ := (hm _ st0.heap (ids 3)).2 r3
        refine ⟨by simpa [hi.eq_iff] using o3, ?_, g, c, g1, g2, M, c', g3, by simp [hi.eq_iff]⟩
        rw [r3]
        refine ⟨by simp [hi.eq_iff]; rfl, rfl, rfl, by simp [bentWing, Wing.comp], rfl⟩
      · obtain ⟨g, c, g1, g2, M, c', g3, g4⟩ := Waverider.fin_reach hq hT n4 o4 _ st0.heap (ids 4) r4
        refine ⟨by simpa [hi.eq_iff] using o4, ?_, g, c, g1, g2, M, c', g3, fun _ => g4⟩
        rw [r4]
        refine ⟨by simp [hi.eq_iff]; rfl, rfl, rfl, by simp [bentFin, Fin.comp], rfl⟩)
  have iso := motion_isometry A hA
  rw [hcs] at s2
  rw [hv, v2] at hI
  have hA0 : A ⟨0, 0, 0⟩ = ⟨0, 0, 0⟩ := by
    rw [moved_all (inTurn_moved hI _)]
    simp [turnZ, cart3d]
  have hr : ∀ v, reach (A v) = reach v := by
    intro v
    have := iso v ⟨0, 0, 0⟩
    rwa [hA0] at this
  obtain ⟨m, q, M, d, e1, e2⟩ := s2 (ids 4) (by simp)
  refine ⟨st', M, d, s1, e1, ?_⟩
  obtain ⟨⟨v, hv1, hv2⟩, hn⟩ := q rfl
  rw [e2]
  refine ⟨⟨A v, isVertex_mapVerts.2 ⟨v, hv1, rfl⟩, by rw [hr]; exact hv2⟩, fun v hv => ?_⟩
  obtain ⟨u, hu, rfl⟩ := isVertex_mapVerts.1 hv
  rw [hr]
  exact hn u hu

theorem reach_mul (u : V) {k : ℝ} (hk : 0 < k) : reach (u * k) = reach u * k := by
  have h : reach (u * k) ^ 2 = (reach u * k) ^ 2 := by
    unfold reach
    rw [mul_pow, vdist_sq, vdist_sq]
    simp
    ring
  have h1 : 0 ≤ reach (u * k) := vdist_nonneg _ _
  have h2 : 0 ≤ reach u * k := mul_nonneg (vdist_nonneg _ _) hk.le
  exact (pow_left_inj₀ h1 h2 two_ne_zero).1 h

/-- C127 is violated by the waverider: the fin has a fixed length and height.  Whatever the dimensions of two waveriders of slight curvature, in particular
when those of the second are those of the first multiplied by `k`, the fin of the second is not the fin of the first enlarged, at any mesh resolutions. -/
theorem C127_waverider_violated {k : ℝ} (ptan : ℝ → ℝ) (hT : FloatTan ptan) (h h' : Heap) (ids : ℕ → ℕ) (hi : Function.Injective ids) (nf nw nt : ℕ)
    (hf : 1 ≤ nf) (hw : 1 ≤ nw) (ht : 1 ≤ nt) (kwargs kwargs' : Dict String ℝ) (p p' : Waverider.Params) (ha : WaveriderArgs kwargs p)
    (ha' : WaveriderArgs kwargs' p') (hp : WaveriderOk p) (hp' : WaveriderOk p') (hq : NearlyFlat p) (hq' : NearlyFlat p') (hk : 0 < k)
    (h1 : k ≤ 0.85 ∨ 1.15 ≤ k) :
    ∃ st st', Waverider.instanceOf bisect01 ptan h ids nf nw nt kwargs = .ok st ∧ Waverider.instanceOf bisect01 ptan h' ids nf nw nt kwargs' = .ok st' ∧
      ("fin", ids 4) ∈ st.veh.named ∧ ("fin", ids 4) ∈ st'.veh.named ∧ PartDiffers k (ids 4) st st' := by
  obtain ⟨st, a1, a2, a3⟩ := waverider_fin ptan hT h ids hi nf nw nt hf hw ht kwargs p ha hp hq
  obtain ⟨st', b1, b2, b3⟩ := waverider_fin ptan hT h' ids hi nf nw nt hf hw ht kwargs' p' ha' hp' hq'
  refine ⟨st, st', a1, b1, a2, b2, fun st0 st0' lib depth r r' => ?_⟩
  obtain ⟨s, M, c, a4, a5, a6⟩ := a3 st0 lib depth r
  obtain ⟨s', M', c', b4, b5, b6⟩ := b3 st0' lib depth r'
  refine ⟨s, s', M, M', c, c', a4, b4, a5, b5, fun he => ?_⟩
  rcases h1 with h1 | h1
  · obtain ⟨v, hv, e⟩ := b6.far
    obtain ⟨u, hu, rfl⟩ := (he v).1 hv
    have := a6.near u hu
    rw [reach_mul u hk] at e
    nlinarith
  · obtain ⟨v, hv, e⟩ := a6.far
    have := b6.near _ ((he _).2 ⟨v, hv, rfl⟩)
    rw [reach_mul v hk] at this
    nlinarith

/-- The waverider without arguments is flat enough. -/
example : WaveriderArgs [] waveriderDefault ∧ WaveriderOk waveriderDefault ∧ NearlyFlat waveriderDefault :=
  ⟨waveriderDefault_ok.1, waveriderDefault_ok.2, by norm_num [waveriderDefault, abs_of_pos], by norm_num [waveriderDefault, abs_of_pos]⟩

/-- The arguments of a waverider twice as large. -/
noncomputable def waveriderTwice : Dict String ℝ :=
  [("length", 2), ("width", 0.7), ("le_width", 0.006), ("LE_thickness", 0.006), ("f1x", 0.5), ("f1y", 0.15), ("f2y", 0.15), ("p2x", 2 / 3), ("p2y", 0.7 / 3),
   ("p3x", 5.5 / 3), ("p3y", 1.05 / 6), ("u1y", 0.2), ("u2x", 0.35 / 3), ("u3x", 0.7 / 3), ("u3y", 0.02), ("flap_height", 0.2), ("w1x", 0.2), ("w2x", 0.2)]

theorem waveriderTwice_ok : ∃ p, WaveriderArgs waveriderTwice p ∧ WaveriderOk p ∧ NearlyFlat p ∧ p.length = waveriderDefault.length * 2 ∧
    p.width = waveriderDefault.width * 2 := by
  refine ⟨⟨1, 5, 2, 0.7, 0.006, 0.006, 3, 0.5, 0.15, 0.15, 2 / 3, 0.7 / 3, 5.5 / 3, 1.05 / 6, 0.2, 0.35 / 3, 0.7 / 3, 0.02, 0, 0.2, 0.065, 0.35, 0.2,
    0 + 1, 0.2, 0 + 1, 0.001 + 5, 0.001 + 5⟩, ?_, ?_, ?_, ?_, ?_⟩
  · constructor <;> first | decide | (refine .inr ⟨?_, rfl⟩; simp [waveriderTwice]; done) | (refine .inl ?_; simp [waveriderTwice]; done)
  · constructor <;> first | (unfold waveriderFactor parabolaFactor bendX bendY waveriderX waveriderY waveriderZ; norm_num [abs_of_pos, max_def]) | norm_num
  · constructor <;> norm_num [abs_of_pos]
  · norm_num [waveriderDefault]
  · norm_num [waveriderDefault]

example (h : Heap) : ∃ st st', Waverider.instanceOf bisect01 ieeeTan h id 30 30 4 [] = .ok st ∧
    Waverider.instanceOf bisect01 ieeeTan h id 30 30 4 waveriderTwice = .ok st' ∧ PartDiffers 2 4 st st' := by
  obtain ⟨p', a, b, c, -⟩ := waveriderTwice_ok
  obtain ⟨st, st', h1, h2, -, -, h3⟩ := C127_waverider_violated (k := 2) ieeeTan ieeeTan_float h h id Function.injective_id 30 30 4 (by norm_num) (by norm_num)
    (by norm_num) [] waveriderTwice _ p' waveriderDefault_ok.1 a waveriderDefault_ok.2 b
    ⟨by norm_num [waveriderDefault, abs_of_pos], by norm_num [waveriderDefault, abs_of_pos]⟩ c (by norm_num) (.inr (by norm_num))
  exact ⟨st, st', h1, h2, h3⟩

end HV
