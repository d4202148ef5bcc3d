import Verif.Model.Hangar4

/-!
# `hangar/waverider.py`

`bis` and `ptan` as in `Model/Hangar2.lean`.
-/

namespace HV

/-- `np.rad2deg`. -/
noncomputable def rad2deg (x : ℝ) : ℝ := x * (180 / Real.pi)

namespace Waverider

/-- `waverider.py:15-16`, `114-155`: the class attributes and the attributes set before `super().__init__`, where `length` is 1 and `width` is 0.35.
The resolutions `fuse_stl_res`, `wing_stl_res` and `fin_stl_res` are separate arguments below; `_cf` and `curvatures` are not overridden; `densities`
is `None`, so that no analysis is asked for (`waverider.py:191-193`). -/
noncomputable def defaults : Dict String ℝ :=
  [("zero_offset", 1), ("curve_zero", 5), ("length", 1), ("width", 0.35), ("le_width", 0.003), ("LE_thickness", 0.003), ("aoa", 3),
   ("f1x", 0.25 * 1), ("f1y", 0.075), ("f2y", 0.075), ("p2x", 1 * 1 / 3), ("p2y", 2 * 0.35 / 2 / 3), ("p3x", 2.75 * 1 / 3), ("p3y", 1.5 * 0.35 / 2 / 3),
   ("u1y", 0.1), ("u2x", 0.35 / 2 / 3), ("u3x", 2 * 0.35 / 2 / 3), ("u3y", 0.1 / 10), ("flap_angle", 0), ("flap_height", 0.1), ("a0_t", 0.065),
   ("tt_t", 0.35), ("w1x", 0.1), ("w1y", 0 + 1), ("w2x", 0.1), ("w2y", 0 + 1), ("x_curve_mult", 0.001 + 5), ("y_curve_mult", 0.001 + 5)]

/-- The attributes as numbers. -/
structure Params where
  zero_offset : ℝ
  curve_zero : ℝ
  length : ℝ
  width : ℝ
  le_width : ℝ
  LE_thickness : ℝ
  aoa : ℝ
  f1x : ℝ
  f1y : ℝ
  f2y : ℝ
  p2x : ℝ
  p2y : ℝ
  p3x : ℝ
  p3y : ℝ
  u1y : ℝ
  u2x : ℝ
  u3x : ℝ
  u3y : ℝ
  flap_angle : ℝ
  flap_height : ℝ
  a0_t : ℝ
  tt_t : ℝ
  w1x : ℝ
  w1y : ℝ
  w2x : ℝ
  w2y : ℝ
  x_curve_mult : ℝ
  y_curve_mult : ℝ

/-- Reading the attributes. -/
def Params.of (attrs : Dict String ℝ) : Res Params := do
  let zero_offset ← attrOf attrs "zero_offset"
  let curve_zero ← attrOf attrs "curve_zero"
  let length ← attrOf attrs "length"
  let width ← attrOf attrs "width"
  let le_width ← attrOf attrs "le_width"
  let LE_thickness ← attrOf attrs "LE_thickness"
  let aoa ← attrOf attrs "aoa"
  let f1x ← attrOf attrs "f1x"
  let f1y ← attrOf attrs "f1y"
  let f2y ← attrOf attrs "f2y"
  let p2x ← attrOf attrs "p2x"
  let p2y ← attrOf attrs "p2y"
  let p3x ← attrOf attrs "p3x"
  let p3y ← attrOf attrs "p3y"
  let u1y ← attrOf attrs "u1y"
  let u2x ← attrOf attrs "u2x"
  let u3x ← attrOf attrs "u3x"
  let u3y ← attrOf attrs "u3y"
  let flap_angle ← attrOf attrs "flap_angle"
  let flap_height ← attrOf attrs "flap_height"
  let a0_t ← attrOf attrs "a0_t"
  let tt_t ← attrOf attrs "tt_t"
  let w1x ← attrOf attrs "w1x"
  let w1y ← attrOf attrs "w1y"
  let w2x ← attrOf attrs "w2x"
  let w2y ← attrOf attrs "w2y"
  let x_curve_mult ← attrOf attrs "x_curve_mult"
  let y_curve_mult ← attrOf attrs "y_curve_mult"
  return ⟨zero_offset, curve_zero, length, width, le_width, LE_thickness, aoa, f1x, f1y, f2y, p2x, p2y, p3x, p3y, u1y, u2x, u3x, u3y, flap_angle,
    flap_height, a0_t, tt_t, w1x, w1y, w2x, w2y, x_curve_mult, y_curve_mult⟩

/-- `waverider.py:199-207`: the line revolved for the fuselage. -/
noncomputable def fuseLine (p : Params) : PathObj :=
  Bezier [⟨0, 0, 0⟩, ⟨p.f1x, p.f1y, 0⟩, ⟨p.length / 2, p.f2y, 0⟩, ⟨p.length - p.f1x, p.f1y, 0⟩, ⟨p.length, 0, 0⟩]

/-- `waverider.py:129`: the clustering function of the fuselage. -/
noncomputable def cf : ℝ → Res ℝ := RobertsFunction.call true true 1.025

/-- `waverider.py:212-219` `modify_underside`. -/
noncomputable def underside : OffFn := fun _ _ z => if 0 < z then .ok ⟨-0, -0, -z⟩ else .ok ⟨0, 0, 0⟩

/-- `waverider.py:324-326` `_curv_x`. -/
noncomputable def curvX (p : Params) (x _y : ℝ) : ℝ := 5 * (p.x_curve_mult - p.curve_zero) * 0.05 * x ^ 2

/-- `waverider.py:328-329` `_curv_xd`. -/
noncomputable def curvXd (p : Params) (x _y : ℝ) : ℝ := 5 * (p.x_curve_mult - p.curve_zero) * 0.05 * 2 * x

/-- `waverider.py:331-333` `_curv_y`. -/
noncomputable def curvY (p : Params) (_x y : ℝ) : ℝ := 5 * (p.y_curve_mult - p.curve_zero) * 0.1 * y ^ 2

/-- `waverider.py:335-336` `_curv_yd`. -/
noncomputable def curvYd (p : Params) (_x y : ℝ) : ℝ := 5 * (p.y_curve_mult - p.curve_zero) * 0.1 * 2 * y

/-- `waverider.py:156-159`: the curvatures of all components. -/
noncomputable def curvatures (p : Params) : List Curvature :=
  [⟨"x", fun x y => .ok (curvX p x y), fun x y => .ok (curvXd p x y)⟩, ⟨"y", fun x y => .ok (curvY p x y), fun x y => .ok (curvYd p x y)⟩]

/-- `waverider.py:296-305` `_get_local_width` and `_get_local_height`: the `y` of the line at the given `x`. -/
noncomputable def localY (bis : (ℝ → Res ℝ) → Res ℝ) (line : PathObj) (x : ℝ) : Res ℝ := do
  let t ← bis fun t => do let q ← line.call t; return q.x - x
  let q ← line.call t
  return q.y

/-- `waverider.py:233`: a corner of the planform. -/
noncomputable def A1 (p : Params) : V := ⟨0.5 * p.length, 0, 0⟩

/-- `waverider.py:234`: a corner of the planform. -/
noncomputable def TT (p : Params) : V := ⟨p.length, 0, 0⟩

/-- `waverider.py:235`: a corner of the planform. -/
noncomputable def B0 (p : Params) : V := ⟨0, p.width / 2, 0⟩

/-- `waverider.py:237-247`: the leading edge. -/
noncomputable def edge (bis : (ℝ → Res ℝ) → Res ℝ) (p : Params) : Res PathObj := do
  let h2 ← localY bis (fuseLine p) p.p2x
  let h3 ← localY bis (fuseLine p) p.p2x
  return Bezier [B0 p, ⟨p.p2x, max p.p2y h2, 0⟩, ⟨p.p3x, max p.p3y h3, 0⟩, TT p]

/-- `waverider.py:251-258`: the line of the cross section. -/
noncomputable def contour (p : Params) : PathObj := Bezier [⟨0, p.u1y, 0⟩, ⟨p.u2x, p.u1y, 0⟩, ⟨p.u3x, p.u3y, 0⟩, ⟨p.width / 2, 0, 0⟩]

/-- `waverider.py:310-313` and `263-266`: the parameter of the section. -/
noncomputable def sectParam (local_width y : ℝ) : Res ℝ := if local_width = 0 then pure 0 else pdiv y local_width

/-- `waverider.py:307-321` `_wing1_tf_top`. -/
noncomputable def wingTop (bis : (ℝ → Res ℝ) → Res ℝ) (line : PathObj) (p : Params) : OffFn := fun x y _ => do
  let local_width ← localY bis line x
  let s ← sectParam local_width y
  let c ← (contour p).call s
  let h ← localY bis (fuseLine p) x
  let f ← pdiv |h| p.u1y
  return ⟨0, 0, -(c.y * f) - p.LE_thickness / 2⟩

/-- `waverider.py:260-271` `wing1_tf_bot`. -/
noncomputable def wingBot (bis : (ℝ → Res ℝ) → Res ℝ) (line : PathObj) (p : Params) : OffFn := fun x y _ => do
  let local_width ← localY bis line x
  let _s ← sectParam local_width y
  return ⟨0, 0, -0 + p.LE_thickness / 2⟩

/-- `waverider.py:292-294` `_lewf`. -/
def lewf (p : Params) : ℝ → Res ℝ := fun _ => .ok p.le_width

/-- `waverider.py:274-283`: the arguments of the wings. -/
noncomputable def wingArgs (bis : (ℝ → Res ℝ) → Res ℝ) (line : PathObj) (p : Params) : Wing.Args :=
  { A1 := A1 p, TT := TT p, B0 := B0 p, line := line, top_tf := wingTop bis line p, bot_tf := wingBot bis line p, LE_wf := some (lewf p) }

/-- `waverider.py:344-371`: the arguments of the flaps. -/
noncomputable def flapArgs (line : PathObj) (p : Params) : Res Wing.Args := do
  let A0 ← line.call p.a0_t
  let A1 ← line.call (p.a0_t + (p.tt_t - p.a0_t) / 2)
  let TT ← line.call p.tt_t
  let B0 := A0 + ⟨0, p.flap_height, 0⟩
  let cp1 := B0 + ⟨p.w1x, p.w1y - p.zero_offset, 0⟩
  let cp2 := TT - ⟨p.w2x, p.w2y - p.zero_offset, 0⟩
  return { A0 := A0, A1 := A1, TT := TT, B0 := B0, line := Bezier [B0, cp1, cp2, TT], top_tf := uniformThickness p.LE_thickness "top",
           bot_tf := uniformThickness p.LE_thickness "bot", flap_length := A0.x, flap_angle := p.flap_angle, LE_wf := some (lewf p), close_wing := true }

/-- `waverider.py:386-409`: the arguments of the fin. -/
noncomputable def finArgs : Fin.Args :=
  { p0 := ⟨0, 0, 0⟩, p1 := ⟨0.1 * 0.3, 0.7 * 0.1, 0⟩, p2 := ⟨0.6 * 0.3, 0.1, 0⟩, p3 := ⟨0.3, 0, 0⟩, fin_thickness := 0.005, fin_angle := deg2rad (-90),
    top_tf := uniformThickness 0.005 "top", bot_tf := uniformThickness 0.005 "bot", LE_wf := fun _ => .ok 0.01, pivot_point := ⟨0, 0, 0⟩ }

/-- `waverider.py:338-342` `_adjust_aoa`. -/
noncomputable def adjustAoa (p : Params) (nominal : ℝ) : ℝ := nominal + rad2deg (curvXd p p.length 0)

/-- `waverider.py:222-229`, `285-290`, `373-377`: the components added first and their options. -/
noncomputable def firstParts (p : Params) (ids : ℕ → ℕ) : List (ℕ × AddOpts) :=
  [(ids 0, { name := some "fuselage", clustering := some (some cf, none), curvatures := some (curvatures p), modifier := some underside }),
   (ids 1, { name := some "wings", reflection_axis := some "y", curvatures := some (curvatures p) }),
   (ids 2, { name := some "right_flap", curvatures := some (curvatures p) })]

/-- `waverider.py:378-384`, `410-414`: the other components and their options. -/
noncomputable def lastParts (p : Params) (ids : ℕ → ℕ) : List (ℕ × AddOpts) :=
  [(ids 3, { name := some "left_flap", reflection_axis := some "y", append_reflection := false, curvatures := some (curvatures p) }),
   (ids 4, { name := some "fin", curvatures := some (curvatures p) })]

/-- `waverider.py:167-195` `create_instance`.  `ids 0 .. ids 4` are the new components; `ids 3` is the deep copy of `ids 2`, made after that has been
added (a new object equal to it, C55).  `nf`, `nw` and `nt` are the resolutions of the fuselage, the wings and the fin. -/
noncomputable def createInstance (bis : (ℝ → Res ℝ) → Res ℝ) (ptan : ℝ → ℝ) (h : Heap) (ids : ℕ → ℕ) (nf nw nt : ℕ) (attrs : Dict String ℝ) :
    Res VState := do
  let p ← Params.of attrs
  let line ← edge bis p
  let wing ← Wing.init (rounded bis) (wingArgs bis line p)
  let a ← flapArgs line p
  let flap ← Wing.init (rounded bis) a
  let h := h.upd (ids 0) (RevolvedComponent (fuseLine p) nf)
  let h := h.upd (ids 1) (Wing.comp ptan wing nw)
  let h := h.upd (ids 2) (Wing.comp ptan flap nw)
  let st ← addAll ⟨h, ({} : Veh).configure (some "waverider") 1⟩ (firstParts p ids)
  let h := st.heap.upd (ids 3) (st.heap (ids 2))
  let h := h.upd (ids 4) (Fin.comp (rounded bis) ptan finArgs nt)
  let st ← addAll ⟨h, st.veh⟩ (lastParts p ids)
  let veh := st.veh.addVehicleTransformations (.many CART3D)
  return ⟨st.heap, veh.addVehicleTransformations (.one (.rotate (-adjustAoa p p.aoa) "z"))⟩

/-- `ParametricWaverider(**kwargs).create_instance()`. -/
noncomputable def instanceOf (bis : (ℝ → Res ℝ) → Res ℝ) (ptan : ℝ → ℝ) (h : Heap) (ids : ℕ → ℕ) (nf nw nt : ℕ) (kwargs : Dict String ℝ) :
    Res VState := createInstance bis ptan h ids nf nw nt (Generator.init defaults kwargs)

end Waverider
end HV
