import Verif.Props.X43

/-!
# Leading edges that run strictly, planforms of limited width, and vehicles with composites
-/

namespace HV
open Spec Veh

/-- A quantity that decreases along the segments, and agrees where they meet, decreases along the polyline. -/
theorem polyline_strict (q : V → ℝ) (segs : List PathObj) (hne : segs ≠ []) (h : ∀ s ∈ segs, GoodSeg s)
    (hr : ∀ s ∈ segs, ∀ t ∈ Set.Icc (0 : ℝ) 1, ∀ u ∈ Set.Icc (0 : ℝ) 1, t < u → q (fnOf s u) < q (fnOf s t))
    (hj : ∀ (i : ℕ) (hi : i + 1 < segs.length), q (fnOf (segs[i]'(by omega)) 1) = q (fnOf segs[i + 1] 0)) (P : PathObj)
    (hP : Polyline segs = .ok P) : ∀ t ∈ Set.Icc (0 : ℝ) 1, ∀ u ∈ Set.Icc (0 : ℝ) 1, t < u → q (fnOf P u) < q (fnOf P t) := by
  obtain ⟨P', hP', -, -, -, hact⟩ := goodPolyline segs hne h
  rw [hP] at hP'
  obtain rfl := Except.ok.inj hP'
  have z01 : (0 : ℝ) ∈ Set.Icc (0 : ℝ) 1 := by simp
  have o01 : (1 : ℝ) ∈ Set.Icc (0 : ℝ) 1 := by simp
  have hpos : ∀ s ∈ segs, 0 < lenOf s := fun s hs => ((h s hs).len).2
  have hrle : ∀ s ∈ segs, ∀ t ∈ Set.Icc (0 : ℝ) 1, ∀ u ∈ Set.Icc (0 : ℝ) 1, t ≤ u → q (fnOf s u) ≤ q (fnOf s t) := by
    intro s hs t ht u hu htu
    rcases htu.lt_or_eq with h' | rfl
    · exact (hr s hs t ht u hu h').le
    · exact le_rfl
  have chain : ∀ (k i : ℕ) (hk : i + 1 + k < segs.length), q (fnOf (segs[i + 1 + k]) 0) ≤ q (fnOf (segs[i]'(by omega)) 1) := by
    intro k
    induction k with
    | zero => intro i hk; exact (hj i hk).ge
    | succ k ih =>
      intro i hk
      have h1 := ih i (by omega)
      have h2 := hrle _ (List.getElem_mem (show i + 1 + k < segs.length by omega)) 0 z01 1 o01 zero_le_one
      have h3 := hj (i + 1 + k) (by omega)
      have e : segs[i + 1 + (k + 1)] = segs[i + 1 + k + 1]'(by omega) := rfl
      rw [e, ← h3]
      exact h2.trans h1
  intro t ht u hu htu
  obtain ⟨i, hi, s, hs, -, hai, hse, hit⟩ := hact t ht
  obtain ⟨j, hj', w, hw, hw0, haj, hwe, hjt⟩ := hact u hu
  rw [hit, hjt]
  rcases Nat.lt_trichotomy i j with hij | hij | hij
  · obtain ⟨k, rfl⟩ : ∃ k, j = i + 1 + k := ⟨j - (i + 1), by omega⟩
    have h1 := hrle _ (List.getElem_mem hi) s hs 1 o01 hs.2
    have h2 := hr _ (List.getElem_mem hj') 0 z01 w hw (hw0 (by omega))
    exact h2.trans_le ((chain k i hj').trans h1)
  · subst hij
    refine hr _ (List.getElem_mem hi) s hs w hw ?_
    rw [hse, hwe]
    have hd := Polyline.bp_succ lenOf segs hpos i hi
    exact div_lt_div_of_pos_right (by linarith) (by linarith)
  · exfalso
    have h1 : bp lenOf segs i < t := by
      rcases hai.2.1 with h | h
      · omega
      · exact h
    have h2 : u ≤ bp lenOf segs (j + 1) := by
      rcases haj.2.2 with h | h
      · omega
      · exact h
    have h3 := Polyline.bp_le lenOf segs hpos (show j + 1 ≤ i by omega) hi.le
    linarith

theorem toE_lineAt_continuous (a b : V) : Continuous fun t => toE (lineAt a b t) := by
  have : (fun t => toE (lineAt a b t)) = fun t : ℝ => (1 - t) • toE a + t • toE b := by
    funext t
    unfold lineAt
    rw [Vec.toE_add, Vec.toE_mul, Vec.toE_mul]
  rw [this]
  fun_prop

theorem toE_x_continuous {f : ℝ → V} (h : Continuous fun t => toE (f t)) : Continuous fun t => (f t).x := by
  have : (fun t => (f t).x) = fun t => (toE (f t)) 0 := by funext t; simp [toE]
  rw [this]
  exact (EuclideanSpace.proj (0 : Fin 3)).continuous.comp h

/-- A polyline of straight lines that follow each other: the `x` coordinate is continuous, and a coordinate difference that increases along
the lines increases along the polyline. -/
theorem lines_strict (ps : List (V × V)) (hne : ps ≠ []) (hd : ∀ e ∈ ps, e.1 ≠ e.2)
    (hj : ∀ (i : ℕ) (hi : i + 1 < ps.length), (ps[i]'(by omega)).2 = (ps[i + 1]).1) (P : PathObj)
    (hP : Polyline (ps.map fun e => Line e.1 e.2) = .ok P) :
    (Continuous fun t => (fnOf P t).x) ∧ ((∀ e ∈ ps, e.1.x - e.1.y < e.2.x - e.2.y) →
      ∀ t ∈ Set.Icc (0 : ℝ) 1, ∀ u ∈ Set.Icc (0 : ℝ) 1, t < u → (fnOf P t).x - (fnOf P t).y < (fnOf P u).x - (fnOf P u).y) := by
  have hne' : (ps.map fun e => Line e.1 e.2) ≠ [] := by simpa using hne
  have hg : ∀ s ∈ ps.map fun e => Line e.1 e.2, GoodSeg s := by
    intro s hs
    obtain ⟨e, he, rfl⟩ := List.mem_map.1 hs
    exact goodLine _ _ (hd e he)
  have hval : ∀ (e : V × V) (t : ℝ), fnOf (Line e.1 e.2) t = lineAt e.1 e.2 t := fun _ _ => rfl
  have hjoin : ∀ (i : ℕ) (hi : i + 1 < (ps.map fun e => Line e.1 e.2).length),
      fnOf ((ps.map fun e => Line e.1 e.2)[i]'(by omega)) 1 = fnOf (ps.map fun e => Line e.1 e.2)[i + 1] 0 := by
    intro i hi
    have hi' : i + 1 < ps.length := by simpa using hi
    simp only [List.getElem_map, hval]
    have := hj i hi'
    ext <;> simp [lineAt, this]
  constructor
  · obtain ⟨P', Γ, h1, h2, h3⟩ := C09_continuous lenOf _ hne' (fun s hs => (hg s hs).len) (1 / 10 ^ 10)
      (fun i t => if hi : i < ps.length then lineAt ps[i].1 ps[i].2 t else ⟨0, 0, 0⟩)
      (by
        intro i hi t
        have hi' : i < ps.length := by simpa using hi
        simp only [List.getElem_map, hi', dif_pos]
        rfl)
      (by
        intro i hi
        have hi' : i < ps.length := by simpa using hi
        simp only [hi', dif_pos]
        exact toE_lineAt_continuous _ _)
      (by
        intro i hi
        have hi' : i + 1 < ps.length := by simpa using hi
        simp only [hi', show i < ps.length by omega, dif_pos]
        have := hj i hi'
        ext <;> simp [lineAt, this])
    rw [hP] at h1
    obtain rfl := Except.ok.inj h1
    have e : ∀ t, (fnOf P t).x = (Γ t).x := fun t => by unfold fnOf; rw [h2 t]; rfl
    simp only [e]
    exact toE_x_continuous h3
  · intro hs
    have := polyline_strict (fun v => v.y - v.x) _ hne' hg (by
      intro s hs'
      obtain ⟨e, he, rfl⟩ := List.mem_map.1 hs'
      intro t _ u _ htu
      rw [hval, hval]
      simp only [lineAt, Vec.add_x, Vec.mul_x, Vec.add_y, Vec.mul_y]
      nlinarith [hs e he]) (fun i hi => by rw [hjoin i hi]) P hP
    intro t ht u hu htu
    linarith [this t ht u hu htu]

theorem Spec.LiesOver.and {D E : ℝ → ℝ → Prop} {A0 A1 : V} {L : ℝ → V} (h : LiesOver D A0 A1 L) (k : LiesOver E A0 A1 L) :
    LiesOver (fun x y => D x y ∧ E x y) A0 A1 L :=
  ⟨fun t1 h1 r hr s hs => ⟨h.inner t1 h1 r hr s hs, k.inner t1 h1 r hr s hs⟩,
   fun t1 h1 t2 h2 r hr s hs => ⟨h.outer t1 h1 t2 h2 r hr s hs, k.outer t1 h1 t2 h2 r hr s hs⟩⟩

/-- A planform whose leading edge runs towards the root is nowhere wider than at its end. -/
theorem liesOver_low {A0 A1 : V} {L : ℝ → V} (hL : MonoEdge L) (y0 : A0.y = 0) (y1 : A1.y = 0) (yL : 0 ≤ (L 1).y) (R : ℝ) (l0 : (L 0).y ≤ R) :
    LiesOver (fun _ y => y ≤ R) A0 A1 L := by
  have z0 : (0 : ℝ) ∈ Set.Icc (0 : ℝ) 1 := ⟨le_rfl, zero_le_one⟩
  have z1 : (1 : ℝ) ∈ Set.Icc (0 : ℝ) 1 := ⟨zero_le_one, le_rfl⟩
  have by' : ∀ t ∈ Set.Icc (0 : ℝ) 1, 0 ≤ (L t).y ∧ (L t).y ≤ R := fun t ht =>
    ⟨yL.trans (hL.inw t ht 1 z1 ht.2), (hL.inw 0 z0 t ht ht.1).trans l0⟩
  have hR : 0 ≤ R := (by' 0 z0).1.trans l0
  constructor
  · intro t1 ht1 r hr s hs
    have hm : r * t1 ∈ Set.Icc (0 : ℝ) 1 := ⟨mul_nonneg hr.1 ht1.1, by nlinarith [hr.1, hr.2, ht1.1, ht1.2]⟩
    obtain ⟨-, b2⟩ := by' _ hm
    simp only [lineAt, Vec.add_y, Vec.mul_y, y0, y1]
    nlinarith [mul_le_mul_of_nonneg_right b2 hs.1, mul_nonneg hR (sub_nonneg.2 hs.2)]
  · intro t1 ht1 t2 ht2 r hr s hs
    have h2 : t2 ∈ Set.Icc (0 : ℝ) 1 := ⟨ht1.1.trans ht2.1, ht2.2⟩
    have hd : 0 ≤ t2 - t1 := by linarith [ht2.1]
    have hd' : 0 ≤ 1 - t2 := by linarith [ht2.2]
    have n2 : t1 + r * (t2 - t1) ≤ t2 := by nlinarith [mul_le_mul_of_nonneg_right hr.2 hd]
    have hN : t1 + r * (t2 - t1) ∈ Set.Icc (0 : ℝ) 1 := ⟨add_nonneg ht1.1 (mul_nonneg hr.1 hd), n2.trans h2.2⟩
    have e2 : t2 ≤ 1 + s * (t2 - 1) := by nlinarith [mul_le_mul_of_nonneg_right hs.2 hd']
    have hE : 1 + s * (t2 - 1) ∈ Set.Icc (0 : ℝ) 1 := ⟨h2.1.trans e2, by nlinarith [mul_nonneg hs.1 hd']⟩
    obtain ⟨-, p2⟩ := by' _ hN
    obtain ⟨-, r2⟩ := by' _ h2
    have i2 := hL.inw _ h2 _ hE e2
    set N := L (t1 + r * (t2 - t1))
    set E := L (1 + s * (t2 - 1))
    set M := L t2
    have hs' : 0 ≤ 1 - s := by linarith [hs.2]
    have a1 : s * N.y ≤ s * R := mul_le_mul_of_nonneg_left p2 hs.1
    have a2 : r * E.y ≤ r * M.y := mul_le_mul_of_nonneg_left i2 hr.1
    have a3 : r * (1 - s) * M.y ≤ r * (1 - s) * R := mul_le_mul_of_nonneg_left r2 (mul_nonneg hr.1 hs')
    have a4 : r * ((1 - s) * R) ≤ 1 * ((1 - s) * R) := mul_le_mul_of_nonneg_right hr.2 (mul_nonneg hs' hR)
    rw [y1]
    nlinarith

/-- The break of a wing whose leading edge is continuous lies within `6·10⁻⁷` of a point with the `x` of `A1`. -/
theorem wing_break_near (a : Wing.Args) (hb : a.t_B1 = none) (L : ℝ → V) (hl : ∀ t, a.line.call t = .ok (L t))
    (hc : Continuous fun t => (L t).x) (h0 : (L 0).x ≤ a.A1.x) (h1 : a.A1.x ≤ (L 1).x) :
    ∃ w, Wing.init (rounded bisect01) a = .ok w ∧ w.t_B1 ∈ Set.Icc (0 : ℝ) 1 ∧ ∃ r ∈ Set.Icc (0 : ℝ) 1, (L r).x = a.A1.x ∧ |w.t_B1 - r| ≤ 6e-7 := by
  obtain ⟨t, ht, he, r, hr, hg, hd⟩ := roundedBisect_finds (fun t => do let p ← a.line.call t; return p.x - a.A1.x) (fun t => (L t).x - a.A1.x)
    (fun t _ => by simp only [hl, ok_bind]; rfl) (hc.sub continuous_const).continuousOn
    (mul_nonpos_of_nonpos_of_nonneg (by linarith) (by linarith))
  have hbr : Wing.breakB1 (rounded bisect01) a = .ok t := by
    unfold Wing.breakB1
    rw [hb]
    exact he
  refine ⟨⟨a, if a.LE_wf.isNone ∧ a.LE_type = "custom" then some leadingEdgeWidth else a.LE_wf, a.LE_type.toUpper, t,
    Wing.breakB2 a t⟩, ?_, ht, r, hr, by linarith, hd⟩
  unfold Wing.init
  rw [hbr, ok_bind]
  rfl

/-- Half of a body with a root in the plane of symmetry, added with its reflection, as two copies of the half. -/
theorem half_doubled {ptan : ℝ → ℝ} {D : ℝ → ℝ → Prop} {a : Wing.Args} {w : Wing.State} {L : ℝ → V} {ht hb : ℝ → ℝ → ℝ} {wd : ℝ → ℝ} {ε : ℝ}
    {find : (ℝ → Res ℝ) → Res ℝ} (hw : Wing.init find a = .ok w) (hs : SmoothWing ptan D a L ht hb wd ε) (h1 : w.t_B1 ∈ Set.Icc (0 : ℝ) 1)
    (hc : a.close_wing = false) (r0 : a.A0.y = 0) (r1 : a.A1.y = 0) (rT : a.TT.y = 0) (n : ℕ) (hn : 1 ≤ n) (H : Heap) (k : ℕ)
    (name : Option String) (hk : H k = wingOf ptan w n name (some "y")) :
    ∃ g c, generatePatches H k = (.ok (), g) ∧ pipeline 0 (g k) = (.ok (), c) ∧ ∃ M c' F, c.mesh = (.ok M, c') ∧ GapFree ε M.tris ∧
      M.tris = F ++ mapVerts (mirrorV 1) F := by
  obtain ⟨h', M, c', m', g1, g2, g3, -, g4⟩ := C106_open_wing_partial find ptan D a w L ht hb wd ε hw hs h1 hc r0 r1 rT n hn none
    (fun _ => Wing.comp ptan w n none) 0 rfl
  obtain ⟨g, c, M', c'', b1, b2, b3, b4⟩ := reflected_wing ptan w n hn h' M c' g1 g2 H k name hk
  exact ⟨g, c, b1, b2, M', c'', M.tris, b3, by rw [b4]; exact halves_watertight g3 g4, b4⟩

/-- Generating a vehicle whose components share no children: what holds for each component on its own holds in the generated vehicle. -/
theorem generate_parts (lib : Lib) (depth : ℕ) (st : VState) (hang : st.veh.angleOffset = 0) (htr : st.veh.transformations = [])
    (han : st.veh.analyseOn = none) (hu : Unshared st.heap st.veh.components) (Q : ℕ → Comp → Prop)
    (hg : ∀ k ∈ st.veh.components, ∃ g c, generatePatches st.heap k = (.ok (), g) ∧ pipeline 0 (g k) = (.ok (), c) ∧ Q k c) :
    ∃ st', generate lib depth st = (.ok (), st') ∧ st'.veh = { st.veh with generated := true } ∧
      ∀ k ∈ st.veh.components, Q k (st'.heap k) := by
  obtain ⟨st', h1, h2, h3⟩ := generate_plain lib depth st hang htr han hu
    (fun k hk => by obtain ⟨g, c, g1, g2, -⟩ := hg k hk; exact ⟨g, c, g1, g2⟩)
  refine ⟨st', h1, h2, fun k hk => ?_⟩
  obtain ⟨g, c, g1, g2, g3⟩ := hg k hk
  obtain ⟨g', g1', g2'⟩ := h3 k hk
  rw [g1] at g1'
  obtain rfl := (Prod.mk.inj g1').2
  rw [g2] at g2'
  rw [← (Prod.mk.inj g2').2]
  exact g3

/-- The records of a vehicle after adding components under distinct names. -/
theorem recorded (h : Heap) (l : List (ℕ × AddOpts)) (names : List String) (hn : l.map (fun e => e.2.name) = names.map some) (hd : names.Nodup)
    (v : Veh) (hv : ∀ s ∈ names, s ∉ v.named.keys) :
    ∃ cs en, l.foldl (fun v e => v.record e.1 (h e.1) e.2) v =
      { v with components := v.components ++ l.map Prod.fst, named := v.named ++ names.zip (l.map Prod.fst), counts := cs, enumerated := en } := by
  induction l generalizing names v with
  | nil =>
    cases names with
    | nil => exact ⟨v.counts, v.enumerated, by simp⟩
    | cons s names => simp at hn
  | cons e l ih =>
    cases names with
    | nil => simp at hn
    | cons s names =>
      simp only [List.map_cons, List.cons.injEq] at hn
      rw [List.nodup_cons] at hd
      have hs : v.named.set s e.1 = v.named ++ [(s, e.1)] := Dict.set_not_mem _ _ _ (hv s (by simp))
      have hname : nameFor (h e.1) (v.nextCount (h e.1).componenttype) e.2 = s := by unfold nameFor; rw [hn.1]
      obtain ⟨cs, en, k⟩ := ih names hn.2 hd.2 (v.record e.1 (h e.1) e.2) (by
        intro s' hs'
        simp only [record, hname, hs, Dict.keys, List.map_append, List.mem_append, not_or]
        refine ⟨hv s' (by simp [hs']), ?_⟩
        simp only [List.map_cons, List.map_nil, List.mem_singleton]
        rintro rfl
        exact hd.1 hs')
      refine ⟨cs, en, ?_⟩
      rw [List.foldl_cons, k]
      simp only [record, hname, hs, List.map_cons, List.zip_cons_cons, List.append_assoc, List.singleton_append]

end HV
