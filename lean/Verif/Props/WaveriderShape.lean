import Verif.Props.WaveriderSize

/-!
# C169: which control points shape the waverider
-/

namespace HV
open Spec Veh

namespace Spec

/-- The fuselage is at least `2 * w` wide at and close to the station `x`. -/
def Waverider.FuselageWider (p : Waverider.Params) (x w : ℝ) : Prop :=
  ∀ r ∈ Set.Icc (0 : ℝ) 1, ∀ q, (Waverider.fuseLine p).call r = .ok q → q.x = x →
    ∀ t ∈ Set.Icc (0 : ℝ) 1, |t - r| ≤ 1e-9 → ∀ q', (Waverider.fuseLine p).call t = .ok q' → w ≤ q'.y

/-- The curve has the lateral position `y` at the station `x`, up to the tolerance of the search for it. -/
def CrossesAt (line : PathObj) (x y : ℝ) : Prop :=
  ∃ r ∈ Set.Icc (0 : ℝ) 1, ∃ t ∈ Set.Icc (0 : ℝ) 1, |t - r| ≤ 1e-9 ∧ ∃ q q', line.call r = .ok q ∧ q.x = x ∧ line.call t = .ok q' ∧ q'.y = y

/-- The point of the cubic Bezier curve with the given control points. -/
noncomputable def cubicPoint (a b c d : V) (t : ℝ) : V := a * (1 - t) ^ 3 + b * (3 * t * (1 - t) ^ 2) + c * (3 * t ^ 2 * (1 - t)) + d * t ^ 3

/-- The planform and the upper surface that a waverider with these parameters has: the leading edge is the curve of the control points given, the second
raised to the radius of the fuselage; the upper surface has the radius of the fuselage in the plane of symmetry and falls outwards along the curve with the
heights `1, 1, u3y / u1y, 0`. -/
structure Waverider.Shaped (p : Waverider.Params) (a : Wing.Args) : Prop where
  edge : ∃ R, CrossesAt (Waverider.fuseLine p) p.p2x R ∧ ∀ t, a.line.call t = .ok (cubicPoint ⟨0, p.width / 2, 0⟩ ⟨p.p2x, max p.p2y R, 0⟩ ⟨p.p3x, p.p3y, 0⟩ ⟨p.length, 0, 0⟩ t)
  symmetric : ∀ x z, 0 ≤ x → x ≤ p.length → ∃ R, CrossesAt (Waverider.fuseLine p) x R ∧ a.top_tf x 0 z = .ok ⟨0, 0, -R - p.LE_thickness / 2⟩
  upper : ∀ x y z, 0 ≤ x → x ≤ p.length → ∃ R w, CrossesAt (Waverider.fuseLine p) x R ∧ CrossesAt a.line x w ∧
    a.top_tf x y z = .ok ⟨0, 0, -((cubicPoint ⟨0, 1, 0⟩ ⟨0, 1, 0⟩ ⟨0, p.u3y / p.u1y, 0⟩ ⟨0, 0, 0⟩ (if w = 0 then 0 else y / w)).y * R) - p.LE_thickness / 2⟩

end Spec

namespace Waverider
variable {p : Params}

theorem contour_call (p : Params) (s : ℝ) : ∃ c, (contour p).call s = .ok c ∧ c.y = Cubic.bez p.u1y p.u1y p.u3y 0 s := by
  unfold contour
  rw [bezier4]
  refine ⟨_, rfl, ?_⟩
  simp [Cubic.bez]

theorem wingTop_eq (bis : (ℝ → Res ℝ) → Res ℝ) (line : PathObj) (p : Params) (x y z : ℝ) : wingTop bis line p x y z = (do
    let local_width ← localY bis line x
    let s ← sectParam local_width y
    let h ← localY bis (fuseLine p) x
    let f ← pdiv |h| p.u1y
    return ⟨0, 0, -(Cubic.bez p.u1y p.u1y p.u3y 0 s * f) - p.LE_thickness / 2⟩) := by
  unfold wingTop
  congr 1
  funext w
  congr 1
  funext s
  obtain ⟨c, e, h⟩ := contour_call p s
  rw [e, ok_bind, h]

end Waverider

open Waverider

/-- Parameters for which the leading edge, the upper surface and what else is read are the same give the same vehicle. -/
theorem same_instance (bis : (ℝ → Res ℝ) → Res ℝ) (ptan : ℝ → ℝ) (h : Heap) (ids : ℕ → ℕ) (nf nw nt : ℕ) (kwargs kwargs' : Dict String ℝ)
    (p p' : Waverider.Params) (ha : WaveriderArgs kwargs p) (ha' : WaveriderArgs kwargs' p') (he : edge bis p = edge bis p')
    (ht : ∀ line, wingTop bis line p = wingTop bis line p')
    (hs : p' = { p with u1y := p'.u1y, u2x := p'.u2x, u3x := p'.u3x, u3y := p'.u3y, p3y := p'.p3y }) :
    Waverider.instanceOf bis ptan h ids nf nw nt kwargs = Waverider.instanceOf bis ptan h ids nf nw nt kwargs' := by
  unfold Waverider.instanceOf Waverider.createInstance
  rw [waverider_params kwargs p ha, waverider_params kwargs' p' ha', ok_bind, ok_bind, he]
  have hw : ∀ line, wingArgs bis line p = wingArgs bis line p' := by
    intro line
    unfold wingArgs
    rw [ht line]
    rw [hs]
    rfl
  have hf : ∀ line, flapArgs line p = flapArgs line p' := by intro line; rw [hs]; rfl
  simp only [hw, hf]
  rw [hs]
  rfl

/-- C169 is violated by the upper surface: the positions `u2x` and `u3x` of its control points have no effect at all on the vehicle. -/
theorem C169_upper_violated (bis : (ℝ → Res ℝ) → Res ℝ) (ptan : ℝ → ℝ) (h : Heap) (ids : ℕ → ℕ) (nf nw nt : ℕ) (kwargs kwargs' : Dict String ℝ)
    (p : Waverider.Params) (u v : ℝ) (ha : WaveriderArgs kwargs p) (ha' : WaveriderArgs kwargs' { p with u2x := u, u3x := v }) :
    Waverider.instanceOf bis ptan h ids nf nw nt kwargs = Waverider.instanceOf bis ptan h ids nf nw nt kwargs' := by
  refine same_instance bis ptan h ids nf nw nt kwargs kwargs' p _ ha ha' rfl (fun line => ?_) rfl
  funext x y z
  rw [wingTop_eq, wingTop_eq]
  rfl

/-- C169 is violated by the upper surface also in its height: multiplying the heights `u1y` and `u3y` of its control points by a number has no effect. -/
theorem C169_height_violated (bis : (ℝ → Res ℝ) → Res ℝ) (ptan : ℝ → ℝ) (h : Heap) (ids : ℕ → ℕ) (nf nw nt : ℕ) (kwargs kwargs' : Dict String ℝ)
    (p : Waverider.Params) (k : ℝ) (hu : p.u1y ≠ 0) (hk : k ≠ 0) (ha : WaveriderArgs kwargs p)
    (ha' : WaveriderArgs kwargs' { p with u1y := k * p.u1y, u3y := k * p.u3y }) :
    Waverider.instanceOf bis ptan h ids nf nw nt kwargs = Waverider.instanceOf bis ptan h ids nf nw nt kwargs' := by
  refine same_instance bis ptan h ids nf nw nt kwargs kwargs' p _ ha ha' rfl (fun line => ?_) rfl
  funext x y z
  rw [wingTop_eq, wingTop_eq]
  congr 1
  funext w
  congr 1
  funext s
  show (localY bis (fuseLine p) x >>= _) = (localY bis (fuseLine p) x >>= _)
  congr 1
  funext q
  simp only
  rw [pdiv_ok _ _ hu, pdiv_ok _ _ (mul_ne_zero hk hu), ok_bind, ok_bind]
  have : Cubic.bez p.u1y p.u1y p.u3y 0 s * (|q| / p.u1y) = Cubic.bez (k * p.u1y) (k * p.u1y) (k * p.u3y) 0 s * (|q| / (k * p.u1y)) := by
    unfold Cubic.bez
    field_simp
    ring
  rw [this]

/-- C169 is violated by the planform: as long as it is within the radius that the fuselage has at the station `p2x` of the *other* control point, the
value of `p3y` has no effect on the vehicle, also where the fuselage is much thinner at `p3x`. -/
theorem C169_planform_violated (ptan : ℝ → ℝ) (h : Heap) (ids : ℕ → ℕ) (nf nw nt : ℕ) (kwargs kwargs' : Dict String ℝ)
    (p : Waverider.Params) (y : ℝ) (hp : WaveriderOk p) (h1 : Waverider.FuselageWider p p.p2x p.p3y) (h2 : Waverider.FuselageWider p p.p2x y)
    (ha : WaveriderArgs kwargs p) (ha' : WaveriderArgs kwargs' { p with p3y := y }) :
    Waverider.instanceOf bisect01 ptan h ids nf nw nt kwargs = Waverider.instanceOf bisect01 ptan h ids nf nw nt kwargs' := by
  refine same_instance bisect01 ptan h ids nf nw nt kwargs kwargs' p _ ha ha' ?_ (fun line => rfl) rfl
  obtain ⟨t, ht, e, -, r, hr, hx, hd⟩ := fuse_height hp p.p2x hp.px.1.le (hp.px.2.1.trans hp.px.2.2)
  have k1 := h1 r hr _ (fuse_call p r) hx t ht (hd.trans (by norm_num)) _ (fuse_call p t)
  have k2 := h2 r hr _ (fuse_call p r) hx t ht (hd.trans (by norm_num)) _ (fuse_call p t)
  unfold edge
  have e' : localY bisect01 (fuseLine { p with p3y := y }) p.p2x = .ok (Cubic.fuseY p.f1y p.f2y t) := e
  simp only [e, e', ok_bind]
  rw [max_eq_right k1, max_eq_right k2]
  rfl

/-- C169 where `p3y` is not below the radius of the fuselage at `p2x`: the wings have the planform of the control points given, and the upper surface of the
ratio `u3y / u1y`.  Missing: `u2x` and `u3x`, and smaller `p3y`; see the violations. -/
theorem C169_partial (ptan : ℝ → ℝ) (hT : FloatTan ptan) (h : Heap) (ids : ℕ → ℕ) (hi : Function.Injective ids) (nf nw nt : ℕ) (kwargs : Dict String ℝ)
    (p : Waverider.Params) (ha : WaveriderArgs kwargs p) (hp : WaveriderOk p) (h3 : ∀ R, CrossesAt (Waverider.fuseLine p) p.p2x R → R ≤ p.p3y) :
    ∃ st w, Waverider.instanceOf bisect01 ptan h ids nf nw nt kwargs = .ok st ∧ ("wings", ids 1) ∈ st.veh.named ∧
      st.heap (ids 1) = bentWing ptan w nw (some "wings") (some "y") true (curvatures p) ∧ Waverider.Shaped p w.args := by
  obtain ⟨t, ht, e, -, r, hr, hx, hd⟩ := fuse_height hp p.p2x hp.px.1.le (hp.px.2.1.trans hp.px.2.2)
  obtain ⟨b0, b1, -⟩ := Cubic.fuseY_bounds hp.radius1.1 hp.radius2.1 hp.radius1.2 hp.radius2.2 ht
  have hR : CrossesAt (Waverider.fuseLine p) p.p2x (Cubic.fuseY p.f1y p.f2y t) :=
    ⟨r, hr, t, ht, hd.trans (by norm_num), _, _, fuse_call p r, hx, fuse_call p t, rfl⟩
  have hm := h3 _ hR
  have el : edge bisect01 p = .ok (lead p (max p.p2y (Cubic.fuseY p.f1y p.f2y t)) p.p3y) := by
    unfold edge
    rw [e, ok_bind, ok_bind, max_eq_left hm]
    rfl
  have l3 := hp.py.1
  have l32 : p.p3y ≤ max p.p2y (Cubic.fuseY p.f1y p.f2y t) := hp.py.2.1.trans (le_max_left _ _)
  have l2 : max p.p2y (Cubic.fuseY p.f1y p.f2y t) ≤ p.width / 2 := max_le hp.py.2.2 b1
  set y2 := max p.p2y (Cubic.fuseY p.f1y p.f2y t) with hy2
  obtain ⟨w, ew, -⟩ := wings_mesh hp l3 l32 l2 hT
  obtain ⟨a, f, ea, ef, -⟩ := flaps_mesh hp l3 l32 l2 hT
  obtain ⟨st, b1, b2, b3, v1, v2, v3, f0, f1, -⟩ := waverider_instance ptan h ids hi nf nw nt kwargs p ha _ w a f el ew ea ef
  have hwa : w.args = wingArgs bisect01 (lead p y2 p.p3y) p := by
    exact (Wing.init_ok ew).1
  have hu := hp.sect.1
  refine ⟨st, w, b1, by rw [b3]; simp [List.range_succ], f1, ?_⟩
  rw [hwa]
  have top : ∀ x y z, 0 ≤ x → x ≤ p.length → ∃ R w, CrossesAt (Waverider.fuseLine p) x R ∧ CrossesAt (lead p y2 p.p3y) x w ∧
      wingTop bisect01 (lead p y2 p.p3y) p x y z = .ok ⟨0, 0, -(Cubic.bez 1 1 (p.u3y / p.u1y) 0 (if w = 0 then 0 else y / w) * R) - p.LE_thickness / 2⟩ := by
    intro x y z h0 h1
    obtain ⟨t1, ht1, e1, ⟨r1, hr1, hx1, hd1⟩, -⟩ := lead_width (p := p) (y2 := y2) (y3 := p.p3y) x h0 h1
    obtain ⟨t2, ht2, e2, -, r2, hr2, hx2, hd2⟩ := fuse_height hp x h0 h1
    have hb := (Cubic.fuseY_bounds hp.radius1.1 hp.radius2.1 hp.radius1.2 hp.radius2.2 ht2).1
    refine ⟨_, _, ⟨r2, hr2, t2, ht2, hd2.trans (by norm_num), _, _, fuse_call p r2, hx2, fuse_call p t2, rfl⟩,
      ⟨r1, hr1, t1, ht1, hd1.trans (by norm_num), _, _, lead_call p y2 p.p3y r1, hx1, lead_call p y2 p.p3y t1, rfl⟩, ?_⟩
    rw [wingTop_eq, e1, ok_bind, sectParam_ok, ok_bind, e2, ok_bind, pdiv_ok _ _ hu.ne', ok_bind]
    show Except.ok _ = _
    rw [abs_of_nonneg hb]
    unfold ratio
    generalize (if leadY p y2 p.p3y t1 = 0 then 0 else y / leadY p y2 p.p3y t1) = s
    have key : Cubic.bez p.u1y p.u1y p.u3y 0 s * (Cubic.fuseY p.f1y p.f2y t2 / p.u1y) =
        Cubic.bez 1 1 (p.u3y / p.u1y) 0 s * Cubic.fuseY p.f1y p.f2y t2 := by
      unfold Cubic.bez
      have := hu.ne'
      field_simp
      ring
    rw [key]
  refine ⟨⟨_, hR, fun t => ?_⟩, fun x z h0 h1 => ?_, fun x y z h0 h1 => ?_⟩
  · show (lead p y2 p.p3y).call t = _
    rw [lead_call]
    congr 1
    simp only [cubicPoint, leadX, leadY, Cubic.bez]
    ext <;> simp <;> ring
  · obtain ⟨R, w, k1, k2, k4⟩ := top x 0 z h0 h1
    refine ⟨R, k1, ?_⟩
    show wingTop bisect01 (lead p y2 p.p3y) p x 0 z = _
    rw [k4]
    simp [Cubic.bez]
  · obtain ⟨R, w, k1, k2, k4⟩ := top x y z h0 h1
    refine ⟨R, w, k1, k2, ?_⟩
    show wingTop bisect01 (lead p y2 p.p3y) p x y z = _
    rw [k4]
    generalize (if w = 0 then 0 else y / w) = s
    have key : Cubic.bez 1 1 (p.u3y / p.u1y) 0 s = (cubicPoint ⟨0, 1, 0⟩ ⟨0, 1, 0⟩ ⟨0, p.u3y / p.u1y, 0⟩ ⟨0, 0, 0⟩ s).y := by
      simp only [cubicPoint, Cubic.bez, Vec.add_y, Vec.mul_y]
      ring
    rw [key]

theorem defaultLike_fuse {p : Waverider.Params} (h1 : p.f1x = 0.25) (h2 : p.length = 1) (h3 : p.f1y = 0.075) (h4 : p.f2y = 0.075) (t : ℝ) :
    (Waverider.fuseLine p).call t = .ok ⟨t, 0.075 * (1 - (1 - t) ^ 4 - t ^ 4), 0⟩ := by
  rw [fuse_call]
  congr 1
  simp only [Cubic.fuseX, Cubic.fuseY, h1, h2, h3, h4]
  ext <;> simp <;> ring

/-- The waverider with another value of `p3y`. -/
noncomputable def waveriderP3 (y : ℝ) : Dict String ℝ := [("p3y", y)]

theorem waveriderP3_ok (y : ℝ) (h0 : 0.02 ≤ y) (h1 : y ≤ 0.1) : WaveriderArgs (waveriderP3 y) { waveriderDefault with p3y := y } ∧
    WaveriderOk { waveriderDefault with p3y := y } := by
  constructor
  · constructor <;> first | decide | (refine .inr ⟨?_, rfl⟩; simp [waveriderP3]; done) | (refine .inl ?_; simp [waveriderP3]; done) | skip
    simp [waveriderP3, Dict.keys]
  · have hb : waveriderFactor { waveriderDefault with p3y := y } ≤ 5e6 := waveriderDefault_ok.2.bend
    have hd := waveriderDefault_ok.2
    refine ⟨hd.length, hd.width, hd.small, hd.nose, hd.radius1, hd.radius2, hd.px, ?_, hd.sect, hd.thick, hd.edge, hd.flap, hb⟩
    simp only [waveriderDefault]
    refine ⟨?_, ?_, ?_⟩ <;> norm_num <;> linarith

theorem waveriderP3_wider (y q : ℝ) (hq : q ≤ 0.055) : Waverider.FuselageWider { waveriderDefault with p3y := y } (1 / 3) q := by
  intro r hr a ha hx t ht hd b hb
  rw [defaultLike_fuse (by norm_num [waveriderDefault]) rfl rfl rfl] at ha hb
  cases ha
  cases hb
  simp only at hx ⊢
  subst hx
  obtain ⟨d1, d2⟩ := abs_le.1 hd
  have e : 1 - (1 - t) ^ 4 - t ^ 4 = 2 * (t * (1 - t)) * (2 - t * (1 - t)) := by ring
  have k : 0.22 ≤ t * (1 - t) := by nlinarith
  have k' : t * (1 - t) ≤ 0.25 := by nlinarith [sq_nonneg (t - 1 / 2)]
  rw [e]
  nlinarith

/-- The waveriders with `p3y = 0.02` and with `p3y = 0.05` are the same vehicle. -/
example (h : Heap) : Waverider.instanceOf bisect01 ieeeTan h id 30 30 4 (waveriderP3 0.02) =
    Waverider.instanceOf bisect01 ieeeTan h id 30 30 4 (waveriderP3 0.05) := by
  have a := waveriderP3_ok 0.02 (by norm_num) (by norm_num)
  have b := waveriderP3_ok 0.05 (by norm_num) (by norm_num)
  have e : waveriderDefault.p2x = 1 / 3 := by norm_num [waveriderDefault]
  refine C169_planform_violated ieeeTan h id 30 30 4 _ _ { waveriderDefault with p3y := 0.02 } 0.05 a.2 ?_ ?_ a.1 b.1
  · rw [show ({ waveriderDefault with p3y := 0.02 } : Waverider.Params).p2x = 1 / 3 from e]
    exact waveriderP3_wider _ _ (by norm_num)
  · rw [show ({ waveriderDefault with p3y := 0.02 } : Waverider.Params).p2x = 1 / 3 from e]
    exact waveriderP3_wider _ _ (by norm_num)

/-- The waverider without arguments meets the hypotheses of `C169_partial`. -/
example (h : Heap) : ∃ st w, Waverider.instanceOf bisect01 ieeeTan h id 30 30 4 (waveriderP3 0.1) = .ok st ∧
    st.heap 1 = bentWing ieeeTan w 30 (some "wings") (some "y") true (curvatures { waveriderDefault with p3y := 0.1 }) ∧
    Waverider.Shaped { waveriderDefault with p3y := 0.1 } w.args := by
  have a := waveriderP3_ok 0.1 (by norm_num) (by norm_num)
  obtain ⟨st, w, h1, -, h2, h3⟩ := C169_partial ieeeTan ieeeTan_float h id Function.injective_id 30 30 4 _ _ a.1 a.2 (by
    rintro R ⟨r, hr, t, ht, hd, q, q', e1, e2, e3, e4⟩
    rw [defaultLike_fuse (by norm_num [waveriderDefault]) rfl rfl rfl] at e1 e3
    cases e1
    cases e3
    simp only at e4 ⊢
    rw [← e4]
    have := pow_nonneg (sub_nonneg.2 ht.2) 4
    have := pow_nonneg ht.1 4
    linarith)
  exact ⟨st, w, h1, h2, h3⟩

/-- The waverider with the control points of the planform at other stations. -/
noncomputable def waveriderNarrow : Dict String ℝ := [("p2x", 0.05), ("p3x", 0.5), ("p3y", 0.05)]

/-- C169 is violated by the planform in the other direction as well: of this waverider, the third control point of the leading edge is more than 1 cm within
the fuselage, because only the radius at the station of the second control point is looked at. -/
theorem C169_narrow_violated (h : Heap) : ∃ p st w, WaveriderArgs waveriderNarrow p ∧ WaveriderOk p ∧
    Waverider.instanceOf bisect01 ieeeTan h id 30 30 4 waveriderNarrow = .ok st ∧
    st.heap 1 = bentWing ieeeTan w 30 (some "wings") (some "y") true (curvatures p) ∧
    (∃ y2, ∀ t, w.args.line.call t = .ok (cubicPoint ⟨0, p.width / 2, 0⟩ ⟨p.p2x, y2, 0⟩ ⟨p.p3x, 0.05, 0⟩ ⟨p.length, 0, 0⟩ t)) ∧
    Waverider.FuselageWider p p.p3x 0.06 := by
  set p : Waverider.Params := { waveriderDefault with p2x := 0.05, p3x := 0.5, p3y := 0.05 } with hpd
  have a : WaveriderArgs waveriderNarrow p := by
    constructor <;> first | decide | (refine .inr ⟨?_, rfl⟩; simp [waveriderNarrow]; done) | (refine .inl ?_; simp [waveriderNarrow, hpd]; done)
  have b : WaveriderOk p := by
    have hd := waveriderDefault_ok.2
    refine ⟨hd.length, hd.width, hd.small, hd.nose, hd.radius1, hd.radius2, ?_, ?_, hd.sect, hd.thick, hd.edge, hd.flap, hd.bend⟩
    · norm_num [hpd, waveriderDefault]
    · norm_num [hpd, waveriderDefault]
  have hf := fun t => defaultLike_fuse (p := p) (by norm_num [hpd, waveriderDefault]) rfl rfl rfl t
  obtain ⟨st, w, h1, -, h2, h3⟩ := C169_partial ieeeTan ieeeTan_float h id Function.injective_id 30 30 4 _ p a b (by
    rintro R ⟨r, hr, t, ht, hd, q, q', e1, e2, e3, e4⟩
    rw [hf] at e1 e3
    cases e1
    cases e3
    simp only at e2 e4
    have e2' : r = 0.05 := e2
    subst e2'
    show R ≤ 0.05
    rw [← e4]
    obtain ⟨d1, d2⟩ := abs_le.1 hd
    have e : 1 - (1 - t) ^ 4 - t ^ 4 = 2 * (t * (1 - t)) * (2 - t * (1 - t)) := by ring
    have k : t * (1 - t) ≤ 0.06 := by nlinarith
    have k' : 0 ≤ t * (1 - t) := mul_nonneg ht.1 (by linarith [ht.2])
    rw [e]
    nlinarith)
  obtain ⟨R, -, e⟩ := h3.edge
  refine ⟨p, st, w, a, b, h1, h2, ⟨_, e⟩, ?_⟩
  intro r hr q hq hx t ht hd q' hq'
  rw [hf] at hq hq'
  cases hq
  cases hq'
  simp only at hx ⊢
  have hx' : r = 0.5 := hx
  subst hx'
  obtain ⟨d1, d2⟩ := abs_le.1 hd
  have e : 1 - (1 - t) ^ 4 - t ^ 4 = 2 * (t * (1 - t)) * (2 - t * (1 - t)) := by ring
  have k : 0.24 ≤ t * (1 - t) := by nlinarith
  have k' : t * (1 - t) ≤ 0.25 := by nlinarith [sq_nonneg (t - 1 / 2)]
  rw [e]
  nlinarith

/-- The waverider with other positions of the control points of the upper surface. -/
noncomputable def waveriderU (u v : ℝ) : Dict String ℝ := [("u2x", u), ("u3x", v)]

example (h : Heap) (u v : ℝ) : Waverider.instanceOf bisect01 ieeeTan h id 30 30 4 [] = Waverider.instanceOf bisect01 ieeeTan h id 30 30 4 (waveriderU u v) := by
  refine C169_upper_violated bisect01 ieeeTan h id 30 30 4 _ _ waveriderDefault u v waveriderDefault_ok.1 ?_
  constructor <;> first | (refine .inr ⟨?_, rfl⟩; simp [waveriderU]; done) | (refine .inl ?_; simp [waveriderU]; done) | skip
  simp [waveriderU, Dict.keys]

/-- The waverider with other heights of the control points of the upper surface. -/
noncomputable def waveriderH (u v : ℝ) : Dict String ℝ := [("u1y", u), ("u3y", v)]

example (h : Heap) : Waverider.instanceOf bisect01 ieeeTan h id 30 30 4 [] =
    Waverider.instanceOf bisect01 ieeeTan h id 30 30 4 (waveriderH (2 * 0.1) (2 * (0.1 / 10))) := by
  refine C169_height_violated bisect01 ieeeTan h id 30 30 4 _ _ waveriderDefault 2 (by norm_num [waveriderDefault]) two_ne_zero waveriderDefault_ok.1 ?_
  constructor <;> first | decide | (refine .inr ⟨?_, rfl⟩; simp [waveriderH]; done) | (refine .inl ?_; simp [waveriderH, waveriderDefault]; done) | skip

end HV
