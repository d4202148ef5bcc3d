import Verif.Model.Hangar2

/-!
# `hangar/hifire8.py`

`bis` and `ptan` as in `Model/Hangar2.lean`.
-/

namespace HV
namespace HIFiRE8

/-- `hifire8.py:34-37`: the attributes set before `super().__init__`. -/
noncomputable def defaults : Dict String ℝ := [("L", 1.2), ("R_base", 0.175), ("R_nose", 0.1), ("nozzle_length", 0.1)]

/-- The attributes as numbers. -/
structure Params where
  L : ℝ
  R_base : ℝ
  R_nose : ℝ
  nozzle_length : ℝ

/-- Reading the attributes. -/
def Params.of (attrs : Dict String ℝ) : Res Params := do
  let R_base ← attrOf attrs "R_base"
  let R_nose ← attrOf attrs "R_nose"
  let L ← attrOf attrs "L"
  let nozzle_length ← attrOf attrs "nozzle_length"
  return ⟨L, R_base, R_nose, nozzle_length⟩

/-- `hifire8.py:14-23` `leading_edge_width_function`. -/
noncomputable def leWidth : ℝ → Res ℝ := bezierY [⟨0, 0.01, 0⟩, ⟨0.5, 0.1, 0⟩, ⟨1, 0.01, 0⟩]

/-- `hifire8.py:53`: the slope of the fuselage. -/
noncomputable def slope (p : Params) : Res ℝ := do
  let q ← pdiv (p.R_base - p.R_nose) p.L
  return Real.arctan q

/-- `hifire8.py:95-97` `eval_r_at_x`. -/
noncomputable def radius (p : Params) (fuse_slope x : ℝ) : ℝ := p.R_base - x * Real.tan fuse_slope

/-- `hifire8.py:55-71`: the line of the fuselage. -/
noncomputable def fuseLine (p : Params) (fuse_slope : ℝ) : Res PathObj :=
  let X1 := 1 * p.L
  let X2 : ℝ := 0
  let X3 := -p.nozzle_length
  let R1 := p.R_base - X1 * Real.tan fuse_slope
  let R2 := p.R_base - X2 * Real.tan fuse_slope
  let R3 := R2
  Polyline [Line ⟨X1, R1, 0⟩ ⟨X2, R2, 0⟩, Line ⟨X2, R2, 0⟩ ⟨X3, R3, 0⟩, Line ⟨X3, R3, 0⟩ ⟨X3, 0, 0⟩]

/-- `hifire8.py:74`: the line of the front disc. -/
noncomputable def baseLine (p : Params) (fuse_slope : ℝ) : PathObj :=
  let X1 := 1 * p.L
  let R1 := p.R_base - X1 * Real.tan fuse_slope
  Line ⟨X1, 0, 0⟩ ⟨X1, R1, 0⟩

/-- `hifire8.py:72-80`: the composite and its children on the heap; `ids 0` is the composite, `ids 6` and `ids 7` the children. -/
noncomputable def fuselageHeap (h : Heap) (ids : ℕ → ℕ) (line0 line1 : PathObj) : Heap :=
  ((h.upd (ids 6) (RevolvedComponent line0)).upd (ids 7) (RevolvedComponent line1)).upd (ids 0)
    { componenttype := "composite", gen := .composite [], stl_resolution := .int 8 }

/-- `hifire8.py:90-102`: size and corners of the fins. -/
noncomputable def fin_length : ℝ := 0.4
noncomputable def fin_height : ℝ := 0.4 * fin_length
noncomputable def fin_thickness : ℝ := 0.02 * fin_length
noncomputable def p0 (p : Params) (s : ℝ) : V := ⟨0, radius p s 0, 0⟩
noncomputable def p1 (p : Params) (s : ℝ) : V := ⟨0.2 * fin_length, radius p s (0.2 * fin_length) + fin_height, 0⟩
noncomputable def p2 (p : Params) (s : ℝ) : V := ⟨0.7 * fin_length, radius p s (0.7 * fin_length) + fin_height, 0⟩
noncomputable def p3 (p : Params) (s : ℝ) : V := ⟨fin_length, radius p s fin_length, 0⟩

/-- `hifire8.py:104-159`: the arguments of the fins; `k` multiplies the corners `p1` and `p2`. -/
noncomputable def finArgs (p : Params) (s k angle : ℝ) : Fin.Args :=
  { p0 := p0 p s, p1 := p1 p s * k, p2 := p2 p s * k, p3 := p3 p s, fin_thickness := fin_thickness, fin_angle := angle,
    top_tf := uniformThickness fin_thickness "top", bot_tf := uniformThickness fin_thickness "bot", LE_wf := leWidth }

/-- `hifire8.py:172-207`: the arguments of the wing, which do not depend on the parameters. -/
noncomputable def wingArgs : Res Wing.Args := do
  let wing_L : ℝ := 1.3
  let wing_thickness : ℝ := 0.04
  let wing_width : ℝ := 0.4
  let wing_origin : ℝ := 0.2
  let A0 : V := ⟨wing_origin, 0, 0⟩
  let A1 : V := ⟨A0.x + 0.5 * wing_L, 0, 0⟩
  let TT : V := ⟨A0.x + wing_L, 0, 0⟩
  let B0 : V := ⟨A0.x, wing_width, 0⟩
  let B1 : V := ⟨A0.x + 0.1 * wing_L, B0.y, 0⟩
  let B2 : V := ⟨A1.x, 0.5 * wing_width, 0⟩
  let B3 : V := ⟨TT.x, 0.13 * wing_width, 0⟩
  let line ← Polyline [Line B0 B1, Line B1 B2, Line B2 B3, Line B3 TT]
  return { A0 := A0, A1 := A1, TT := TT, B0 := B0, line := line, top_tf := uniformThickness wing_thickness "top",
           bot_tf := uniformThickness wing_thickness "bot", LE_wf := some leWidth, flap_length := 0.2 }

/-- `hifire8.py:211-214`: the size of the nose. -/
noncomputable def L_n : ℝ := 0.5
noncomputable def t_n : ℝ := 0.005
noncomputable def w_n : ℝ := 0.15

/-- `hifire8.py:234-262` `nose_tf_top` (`sgn` is -1) and `nose_tf_bot` (`sgn` is 1). -/
noncomputable def noseTf (p : Params) (r_b sgn : ℝ) : OffFn := fun x y _ => do
  let circular_weighting := 1 - (1 / L_n) * (x - p.L)
  let flat_weighting := 1 - circular_weighting
  let z_circle ← psqrt (r_b ^ 2 - y ^ 2)
  return ⟨0, 0, sgn * (circular_weighting * z_circle + flat_weighting * t_n)⟩

/-- `hifire8.py:209-275`: the arguments of the nose. -/
noncomputable def noseArgs (p : Params) (s : ℝ) : Res Wing.Args := do
  let Xn := p.L
  let r_b := radius p s Xn
  let q ← pdiv (r_b - 0.5 * w_n) L_n
  let side_theta := Real.arctan q
  let A0n : V := ⟨Xn, 0, 0⟩
  let A1n : V := ⟨Xn + 0.5 * L_n, 0, 0⟩
  let TTn : V := ⟨Xn + L_n, 0, 0⟩
  let B0n : V := ⟨A0n.x, r_b, 0⟩
  let B1n : V := ⟨A1n.x, r_b - (A1n.x - Xn) * Real.tan side_theta, 0⟩
  let B2n : V := ⟨TTn.x, 0.5 * w_n, 0⟩
  let line ← Polyline [Line B0n B1n, Line B1n B2n, Line B2n TTn]
  return { A0 := A0n, A1 := A1n, TT := TTn, B0 := B0n, line := line, top_tf := noseTf p r_b (-1), bot_tf := noseTf p r_b 1,
           LE_wf := some leWidth, LE_type := "FLAT" }

/-- `hifire8.py:278-283`: the components, their names and options. -/
def parts (ids : ℕ → ℕ) : List (ℕ × AddOpts) :=
  [(ids 0, { name := some "fuselage" }), (ids 1, { reflection_axis := some "y", name := some "wing" }),
   (ids 2, { reflection_axis := some "y", name := some "nose" }), (ids 3, { name := some "fin1" }), (ids 4, { name := some "fin2" }),
   (ids 5, { name := some "fin3" })]

/-- `hifire8.py:42-285` `create_instance`.  `ids 0 .. ids 7` are the new components. -/
noncomputable def createInstance (bis : (ℝ → Res ℝ) → Res ℝ) (ptan : ℝ → ℝ) (h : Heap) (ids : ℕ → ℕ) (attrs : Dict String ℝ) :
    Res VState := do
  let p ← Params.of attrs
  let s ← slope p
  let line ← fuseLine p s
  let h ← Finner.addChildren (fuselageHeap h ids line (baseLine p s)) (ids 0) [ids 6, ids 7]
  let fin_angle := deg2rad (90 - 45)
  let a ← wingArgs
  let wing ← Wing.init (rounded bis) a
  let a ← noseArgs p s
  let nose ← Wing.init (rounded bis) a
  let h := h.upd (ids 1) (Wing.comp ptan wing 4)
  let h := h.upd (ids 2) (Wing.comp ptan nose 4)
  let h := h.upd (ids 3) (Fin.comp (rounded bis) ptan (finArgs p s 1 fin_angle) 3)
  let h := h.upd (ids 4) (Fin.comp (rounded bis) ptan (finArgs p s 1 (fin_angle + deg2rad 90)) 3)
  let h := h.upd (ids 5) (Fin.comp (rounded bis) ptan (finArgs p s 0.5 (deg2rad (-90))) 3)
  addAll ⟨h, ({} : Veh).configure (some "HIFiRE-8") 1⟩ (parts ids)

/-- `ParametricHIFiRE8(**kwargs).create_instance()`. -/
noncomputable def instanceOf (bis : (ℝ → Res ℝ) → Res ℝ) (ptan : ℝ → ℝ) (h : Heap) (ids : ℕ → ℕ) (kwargs : Dict String ℝ) :
    Res VState := createInstance bis ptan h ids (Generator.init defaults kwargs)

end HIFiRE8
end HV
