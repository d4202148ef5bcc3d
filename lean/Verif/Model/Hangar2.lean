import Verif.Model.Hangar
import Verif.Model.Wing
import Verif.Model.Bisect
import Mathlib.Analysis.SpecialFunctions.Trigonometric.Arctan

/-!
# `hangar/x43.py`, `hangar/htv.py`

`bis` stands for `scipy.optimize.bisect(f, 0.0, 1.0)`, `ptan` for `np.tan` in the elliptical edges (as in `Model/Wing.lean`).
Elsewhere `np.tan` is the real tangent, which is 0 where numpy returns a very large number.
-/

namespace HV

/-- `np.deg2rad`. -/
noncomputable def deg2rad (x : ℝ) : ℝ := x * (Real.pi / 180)

/-- `round(bisect(f, 0.0, 1.0), 6)` (`wing.py:159`, `fin.py:205`). -/
noncomputable def rounded (bis : (ℝ → Res ℝ) → Res ℝ) (f : ℝ → Res ℝ) : Res ℝ := do return round6 (← bis f)

/-- The `y` coordinate of a Bezier curve, as in the leading edge width functions. -/
noncomputable def bezierY (pts : List V) (r : ℝ) : Res ℝ := do
  let p ← (Bezier pts).call r
  return p.y

namespace X43

/-- `x43.py:21-38`: the attributes set before `super().__init__`. -/
noncomputable def defaults : Dict String ℝ :=
  [("body_length", 3.7), ("body_width", 1), ("body_angle", 0), ("wing_span", 0.4), ("wing_length", 1), ("wing_TE_back", 0.25),
   ("flap_length", 0.3), ("engine_h", 0.1), ("fin_height", 0.3), ("fin_length", 1), ("rudder_length", 0.2), ("flap_angle", 0),
   ("rudder_angle", 0)]

/-- The attributes as numbers. -/
structure Params where
  body_length : ℝ
  body_width : ℝ
  body_angle : ℝ
  wing_span : ℝ
  wing_length : ℝ
  wing_TE_back : ℝ
  flap_length : ℝ
  engine_h : ℝ
  fin_height : ℝ
  fin_length : ℝ
  rudder_length : ℝ
  flap_angle : ℝ
  rudder_angle : ℝ

/-- Reading the attributes. -/
def Params.of (attrs : Dict String ℝ) : Res Params := do
  let body_length ← attrOf attrs "body_length"
  let body_angle ← attrOf attrs "body_angle"
  let body_width ← attrOf attrs "body_width"
  let flap_length ← attrOf attrs "flap_length"
  let wing_length ← attrOf attrs "wing_length"
  let wing_TE_back ← attrOf attrs "wing_TE_back"
  let wing_span ← attrOf attrs "wing_span"
  let flap_angle ← attrOf attrs "flap_angle"
  let engine_h ← attrOf attrs "engine_h"
  let fin_length ← attrOf attrs "fin_length"
  let rudder_length ← attrOf attrs "rudder_length"
  let fin_height ← attrOf attrs "fin_height"
  let rudder_angle ← attrOf attrs "rudder_angle"
  return ⟨body_length, body_width, body_angle, wing_span, wing_length, wing_TE_back, flap_length, engine_h, fin_height, fin_length,
    rudder_length, flap_angle, rudder_angle⟩

/-- `x43.py:60-65`, `152`, `275`: derived lengths and the slant angle. -/
noncomputable def L_nom : ℝ := 3.7
noncomputable def beta (p : Params) : ℝ := deg2rad p.body_angle
noncomputable def LE_height (p : Params) : ℝ := 0.05 * p.body_length / L_nom
noncomputable def TE_height (p : Params) : ℝ := 0.2 * p.body_length / L_nom
noncomputable def flap_thickness (p : Params) : ℝ := 0.03 * p.body_length / L_nom
noncomputable def fin_thickness (p : Params) : ℝ := 0.02 * p.body_length / L_nom

/-- `x43.py:67-72`: the planform points of the body. -/
noncomputable def A1 (p : Params) : V := ⟨1.8 * p.body_length / L_nom, 0, 0⟩
noncomputable def TT (p : Params) : V := ⟨p.body_length, 0, 0⟩
noncomputable def B0 (p : Params) : V := ⟨0, p.body_width / 2, 0⟩
noncomputable def B1 (p : Params) : V := ⟨(A1 p).x, (B0 p).y, 0⟩
noncomputable def B2 (p : Params) : V := ⟨(TT p).x, 0.4 * (B0 p).y, 0⟩

/-- `x43.py:81-85`: the Bezier curve of the rounding. -/
noncomputable def roundingBez (p : Params) : PathObj := Bezier [⟨0, 0, 0.025⟩, ⟨0, 0.9 * (B0 p).y, 0.025⟩, ⟨0, (B0 p).y, 0⟩]

/-- `x43.py:87-92` `get_local_y`. -/
noncomputable def localY (p : Params) (x : ℝ) : Res ℝ :=
  if x < (B1 p).x then .ok (B0 p).y
  else do
    let q ← pdiv ((x - (B2 p).x) * ((B2 p).y - (B1 p).y)) ((B2 p).x - (B1 p).x)
    return q + (B2 p).y

/-- `x43.py:94-108` `wing1_tf_top`. -/
noncomputable def wing1Top (p : Params) : OffFn := fun x y _ => do
  let L := p.body_length
  let z_m := -L * Real.tan (beta p)
  let z_u := z_m - 0.5 * TE_height p
  let s ← pdiv (z_u + 0.5 * LE_height p) L
  let beta_u := -Real.arctan s
  let z_1 := (x - L) * Real.tan beta_u - LE_height p / 2
  let local_y ← localY p x
  let r ← pdiv y local_y
  let b ← (roundingBez p).call r
  let z_2 := -(L - x) * b.z
  return ⟨0, 0, z_1 + z_2⟩

/-- `x43.py:110-115` `wing1_tf_bot`. -/
noncomputable def wing1Bot (p : Params) : OffFn := fun x _ _ => do
  let L := p.body_length
  let z_m := -L * Real.tan (beta p)
  let z_l := z_m + 0.5 * TE_height p
  let s ← pdiv (z_l - 0.5 * LE_height p) L
  let beta_l := -Real.arctan s
  return ⟨0, 0, (x - L) * Real.tan beta_l + LE_height p / 2⟩

/-- `x43.py:117-126` `leading_edge_width_function`. -/
noncomputable def leWidth : ℝ → Res ℝ := bezierY [⟨0, 0.02, 0⟩, ⟨0.75, 0.05, 0⟩, ⟨1, 0.05, 0⟩]

/-- `x43.py:78`, `128-138`: the arguments of the body. -/
noncomputable def bodyArgs (p : Params) : Res Wing.Args := do
  let line ← Polyline [Line (B0 p) (B1 p), Line (B1 p) (B2 p), Line (B2 p) (TT p)]
  return { A1 := A1 p, TT := TT p, B0 := B0 p, line := line, top_tf := wing1Top p, bot_tf := wing1Bot p, LE_wf := some leWidth }

/-- `x43.py:171-177`: the thickness functions of the flaps; `sgn` is -1 for the top and 1 for the bottom. -/
noncomputable def wing2Tf (p : Params) (sgn : ℝ) : OffFn := fun x _ _ =>
  let z_ba := -(x - p.body_length) * Real.tan (beta p)
  .ok ⟨0, 0, sgn * (flap_thickness p / 2) - z_ba⟩

/-- `x43.py:154-191`: the arguments of the flaps. -/
noncomputable def wingArgs (p : Params) : Res Wing.Args := do
  let fA0 : V := ⟨(B0 p).x + p.flap_length, (B0 p).y, 0⟩
  let y1 ← localY p (0 + 0.5 * p.wing_length)
  let fA1 : V := ⟨0 + 0.5 * p.wing_length, y1, 0⟩
  let yT ← localY p (0 + p.wing_length)
  let fTT : V := ⟨0 + p.wing_length, yT, 0⟩
  let fB0 : V := ⟨0 - p.wing_TE_back + p.flap_length, (B0 p).y + p.wing_span, 0⟩
  let fB1 : V := ⟨0 + 0.4 * p.wing_length, (B0 p).y + 0.75 * p.wing_span, 0⟩
  let line ← Polyline [Line fB0 fB1, Line fB1 fTT]
  return { A0 := fA0, A1 := fA1, TT := fTT, B0 := fB0, line := line, top_tf := wing2Tf p (-1), bot_tf := wing2Tf p 1,
           LE_wf := some leWidth, flap_length := p.flap_length, flap_angle := p.flap_angle, close_wing := true }

/-- `x43.py:201`: the tip of the inlet. -/
noncomputable def iTT (p : Params) : V := ⟨0.5 * ((TT p).x + (B1 p).x), 0, 0⟩

/-- `x43.py:217-219` `inlet_tf_top`. -/
noncomputable def inletTop (p : Params) : OffFn := fun x y z => do
  let v ← wing1Bot p x y z
  return ⟨0, 0, v.z - 0.05⟩

/-- `x43.py:225-230`: the height of the engine. -/
noncomputable def inletHeight (p : Params) (x : ℝ) : Res ℝ :=
  let inlet_start := 0.8 * (B1 p).x
  let exit_start := 0.3 * ((B1 p).x - (B0 p).x)
  if x < exit_start then do
    let q ← pdiv p.engine_h (exit_start - 0)
    return q * x
  else if inlet_start < x then do
    let q ← pdiv (-p.engine_h) ((iTT p).x - inlet_start)
    return q * (x - (iTT p).x)
  else .ok p.engine_h

/-- `x43.py:221-240` `inlet_tf_bot`. -/
noncomputable def inletBot (p : Params) : OffFn := fun x y z => do
  let v ← wing1Bot p x y z
  let z_val ← inletHeight p x
  let y_local ← localY p x
  let z_taper ← if 0.8 * y_local < y then do
      let q ← pdiv (5 * y) y_local
      pure ((q - 4) * z_val)
    else pure 0
  return ⟨0, 0, z_val + v.z - z_taper + 0.00001⟩

/-- `x43.py:242-251` `leading_edge_width_function2`. -/
noncomputable def leWidth2 : ℝ → Res ℝ := bezierY [⟨0, 0.001, 0⟩, ⟨0.5, 0.001, 0⟩, ⟨1, 0.001, 0⟩]

/-- `x43.py:199-212`, `253-263`: the arguments of the inlet. -/
noncomputable def inletArgs (p : Params) : Res Wing.Args := do
  let q ← pdiv (((iTT p).x - (B2 p).x) * ((B2 p).y - (B1 p).y)) ((B2 p).x - (B1 p).x)
  let iB0 : V := ⟨(B0 p).x, (B0 p).y, 0⟩
  let iB1 : V := ⟨(B1 p).x, (B1 p).y, 0⟩
  let iB2 : V := ⟨(iTT p).x, q + (B2 p).y, 0⟩
  let line ← Polyline [Line iB0 iB1, Line iB1 iB2, Line iB2 (iTT p)]
  return { A1 := A1 p, TT := iTT p, B0 := iB0, line := line, top_tf := inletTop p, bot_tf := inletBot p, LE_wf := some leWidth2 }

/-- `x43.py:274-341`: the arguments of the fins; `sgn` is 1 for the first and -1 for the second. -/
noncomputable def finArgs (p : Params) (sgn : ℝ) : Fin.Args :=
  let fin_offset := -(p.fin_length - p.body_length) * Real.tan (beta p)
  { p0 := ⟨p.rudder_length, fin_offset, 0⟩, p1 := ⟨p.rudder_length, fin_offset + p.fin_height, 0⟩,
    p2 := ⟨0.5 * p.fin_length, fin_offset + p.fin_height, 0⟩, p3 := ⟨p.fin_length, fin_offset, 0⟩,
    fin_thickness := fin_thickness p, fin_angle := deg2rad (-90), top_tf := uniformThickness (fin_thickness p) "top",
    bot_tf := uniformThickness (fin_thickness p) "bot", LE_wf := leWidth, rudder_type := "sharp",
    rudder_length := p.rudder_length, rudder_angle := deg2rad p.rudder_angle,
    offset_func := some fun _ _ _ => .ok ⟨0, sgn * (B0 p).y, 0⟩ }

/-- `x43.py:344-349`: the components, their names and options.  `ids 1` is the deep copy of `ids 2`. -/
def parts (ids : ℕ → ℕ) : List (ℕ × AddOpts) :=
  [(ids 0, { reflection_axis := some "y", name := some "body" }), (ids 1, { name := some "wing1" }),
   (ids 2, { reflection_axis := some "y", name := some "wing2" }), (ids 3, { reflection_axis := some "y", name := some "inlet" }),
   (ids 4, { name := some "fin1" }), (ids 5, { name := some "fin2" })]

/-- `x43.py:43-351` `create_instance`.  `ids 0 .. ids 5` are the new components.  The deep copy of the flap is a new object equal to
it (C55). -/
noncomputable def createInstance (bis : (ℝ → Res ℝ) → Res ℝ) (ptan : ℝ → ℝ) (h : Heap) (ids : ℕ → ℕ) (attrs : Dict String ℝ) :
    Res VState := do
  let p ← Params.of attrs
  let a ← bodyArgs p
  let body ← Wing.init (rounded bis) a
  let a ← wingArgs p
  let wing ← Wing.init (rounded bis) a
  let a ← inletArgs p
  let inlet ← Wing.init (rounded bis) a
  let h := h.upd (ids 0) (Wing.comp ptan body 4)
  let h := h.upd (ids 1) (Wing.comp ptan wing)
  let h := h.upd (ids 2) (Wing.comp ptan wing)
  let h := h.upd (ids 3) (Wing.comp ptan inlet 4)
  let h := h.upd (ids 4) (Fin.comp (rounded bis) ptan (finArgs p 1))
  let h := h.upd (ids 5) (Fin.comp (rounded bis) ptan (finArgs p (-1)))
  addAll ⟨h, ({} : Veh).configure (some "X-43A") 1⟩ (parts ids)

/-- `ParametricX43(**kwargs).create_instance()`. -/
noncomputable def instanceOf (bis : (ℝ → Res ℝ) → Res ℝ) (ptan : ℝ → ℝ) (h : Heap) (ids : ℕ → ℕ) (kwargs : Dict String ℝ) :
    Res VState := createInstance bis ptan h ids (Generator.init defaults kwargs)

end X43

namespace HTV

/-- `htv.py:22-32`: the attributes set before `super().__init__`. -/
noncomputable def defaults : Dict String ℝ :=
  [("L", 1), ("body_width", 0.5), ("h", 0.1), ("t_LE", 0.01), ("flap_angle", 15), ("L_nom", 1), ("body_width_nom", 0.8),
   ("h_nom", 0.2), ("t_LE_nom", 0.025)]

/-- The attributes used, as numbers. -/
structure Params where
  L : ℝ
  body_width : ℝ
  h : ℝ
  t_LE : ℝ
  flap_angle : ℝ
  L_nom : ℝ
  body_width_nom : ℝ

/-- Reading the attributes. -/
def Params.of (attrs : Dict String ℝ) : Res Params := do
  let L ← attrOf attrs "L"
  let body_width ← attrOf attrs "body_width"
  let L_nom ← attrOf attrs "L_nom"
  let body_width_nom ← attrOf attrs "body_width_nom"
  let t_LE ← attrOf attrs "t_LE"
  let flap_angle ← attrOf attrs "flap_angle"
  let h ← attrOf attrs "h"
  return ⟨L, body_width, h, t_LE, flap_angle, L_nom, body_width_nom⟩

/-- `htv.py:57-61` `get_local_width`. -/
noncomputable def localWidth (bis : (ℝ → Res ℝ) → Res ℝ) (line : PathObj) (x : ℝ) : Res ℝ := do
  let t ← bis fun t => do let q ← line.call t; return q.x - x
  let q ← line.call t
  return 2 * q.y

/-- `htv.py:63-80` `wing1_tf_top`; the second and the third case are the same. -/
noncomputable def bodyTop (bis : (ℝ → Res ℝ) → Res ℝ) (line : PathObj) (p : Params) : OffFn := fun x y _ => do
  let local_width ← localWidth bis line x
  let z_val ← if y < 0.5 * (local_width - 2 * p.t_LE) then do
      let q ← pdiv (2 * Real.pi * y) (local_width - 2 * p.t_LE)
      pure (0.5 * (p.h - p.t_LE) * Real.cos q + 0.5 * (p.h + p.t_LE))
    else pure p.t_LE
  return ⟨0, 0, -(z_val * ((p.L - x) + 0.05))⟩

/-- `htv.py:82-85` `wing1_tf_bot`. -/
noncomputable def bodyBot (p : Params) : OffFn := fun _ _ _ => .ok ⟨0, 0, 0.2 * p.t_LE⟩

/-- `htv.py:47-55`, `87-103`: the arguments of the body. -/
noncomputable def bodyArgs (bis : (ℝ → Res ℝ) → Res ℝ) (p : Params) : Res Wing.Args := do
  let A1 : V := ⟨0.15 * p.L, 0, 0⟩
  let TT : V := ⟨p.L, 0, 0⟩
  let B0 : V := ⟨0, p.body_width / 2, 0⟩
  let B1 : V := ⟨A1.x, B0.y, 0⟩
  let line ← Polyline [Line B0 B1, Line B1 TT]
  return { A1 := A1, TT := TT, B0 := B0, line := line, top_tf := bodyTop bis line p, bot_tf := bodyBot p,
           LE_wf := some fun _ => .ok 0.01 }

/-- `htv.py:108-143`: the arguments of the flaps. -/
noncomputable def flapArgs (p : Params) : Res Wing.Args := do
  let length_scaler ← pdiv p.L p.L_nom
  let width_scaler ← pdiv p.body_width p.body_width_nom
  let flap_length := 0.2 * length_scaler
  let flap_gap := 0.01 * width_scaler
  let offset := 0.1 * p.t_LE
  let A0f : V := ⟨flap_length, 0 + 0.5 * flap_gap, 0⟩
  let A1f : V := ⟨flap_length + 0.05 * p.L, 0 + 0.5 * flap_gap, 0⟩
  let TTf : V := ⟨flap_length + 0.1 * p.L, 0 + 0.5 * flap_gap, 0⟩
  let B0f : V := ⟨flap_length, 0.8 * p.body_width / 2 + 0.5 * flap_gap, 0⟩
  let B1f : V := ⟨A1f.x, 0.5 * B0f.y, 0⟩
  let line ← Polyline [Line B0f B1f, Line B1f TTf]
  return { A0 := A0f, A1 := A1f, TT := TTf, B0 := B0f, line := line, top_tf := fun _ _ _ => .ok ⟨0, 0, -p.t_LE - offset⟩,
           bot_tf := fun _ _ _ => .ok ⟨0, 0, 0.2 * p.t_LE - offset⟩, flap_length := flap_length,
           flap_angle := deg2rad p.flap_angle }

/-- `htv.py:104`, `144-145`: the components and their options.  `ids 1` is the deep copy of `ids 2`. -/
def parts (ids : ℕ → ℕ) : List (ℕ × AddOpts) :=
  [(ids 0, { reflection_axis := some "y" }), (ids 1, {}), (ids 2, { reflection_axis := some "y" })]

/-- `htv.py:37-147` `create_instance`.  `ids 0 .. ids 2` are the new components. -/
noncomputable def createInstance (bis : (ℝ → Res ℝ) → Res ℝ) (ptan : ℝ → ℝ) (h : Heap) (ids : ℕ → ℕ) (attrs : Dict String ℝ) :
    Res VState := do
  let p ← Params.of attrs
  let a ← bodyArgs bis p
  let wing ← Wing.init (rounded bis) a
  let a ← flapArgs p
  let flap_wing ← Wing.init (rounded bis) a
  let h := h.upd (ids 0) (Wing.comp ptan wing 5)
  let h := h.upd (ids 1) (Wing.comp ptan flap_wing 5)
  let h := h.upd (ids 2) (Wing.comp ptan flap_wing 5)
  addAll ⟨h, ({} : Veh).configure (some "Hypersonic Technology Vehicle") 1⟩ (parts ids)

/-- `ParametricHTV(**kwargs).create_instance()`. -/
noncomputable def instanceOf (bis : (ℝ → Res ℝ) → Res ℝ) (ptan : ℝ → ℝ) (h : Heap) (ids : ℕ → ℕ) (kwargs : Dict String ℝ) :
    Res VState := createInstance bis ptan h ids (Generator.init defaults kwargs)

end HTV
end HV
