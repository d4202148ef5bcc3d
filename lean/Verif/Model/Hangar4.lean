import Verif.Model.Hangar3
import Verif.Model.Bisect

/-!
# `hangar/hifire4.py`

`bis` and `ptan` as in `Model/Hangar2.lean`.
-/

namespace HV
namespace HIFiRE4

/-- `hifire4.py:20-24`: the attributes set before `super().__init__`. -/
noncomputable def defaults : Dict String ℝ := [("x_curve_mult", 0.3), ("y_curve_mult", 0.5), ("R", 0.2), ("L_n", 2), ("L_b", 4)]

/-- The attributes as numbers. -/
structure Params where
  x_curve_mult : ℝ
  y_curve_mult : ℝ
  R : ℝ
  L_n : ℝ
  L_b : ℝ

/-- Reading the attributes. -/
def Params.of (attrs : Dict String ℝ) : Res Params := do
  let L_n ← attrOf attrs "L_n"
  let L_b ← attrOf attrs "L_b"
  let R ← attrOf attrs "R"
  let x_curve_mult ← attrOf attrs "x_curve_mult"
  let y_curve_mult ← attrOf attrs "y_curve_mult"
  return ⟨x_curve_mult, y_curve_mult, R, L_n, L_b⟩

/-- `hifire4.py:37`. -/
noncomputable def L_t (p : Params) : ℝ := p.L_n + p.L_b

/-- `hifire4.py:41`: the radius of the ogive. -/
noncomputable def rho (p : Params) : Res ℝ := pdiv (p.R ^ 2 + p.L_n ^ 2) (2 * p.R)

/-- `hifire4.py:42` `y_o`.  Simplified: it is only used where the radicand is a square, so the `nan` of a negative radicand is left out. -/
noncomputable def yOgive (p : Params) (rho x : ℝ) : ℝ := round6 (Real.sqrt (rho ^ 2 - (p.L_n - x) ^ 2) + p.R - rho)

/-- `hifire4.py:43-56`: the line of the fuselage. -/
noncomputable def fuseLine (p : Params) : Res PathObj := do
  let rho ← rho p
  let a_o : V := ⟨0, 0, 0⟩
  let b_o : V := ⟨-p.L_n, yOgive p rho p.L_n, 0⟩
  let c_o : V := ⟨b_o.x, b_o.y - rho, 0⟩
  let b1 : V := b_o - ⟨p.L_b, 0, 0⟩
  let b2 : V := b1 - ⟨0, p.R, 0⟩
  Polyline [Arc a_o b_o c_o, Line b_o b1, Line b1 b2]

/-- `hifire4.py:59-61` `curv_x`. -/
noncomputable def curvX (p : Params) (x _y : ℝ) : ℝ := p.x_curve_mult * 0.05 * x ^ 2

/-- `hifire4.py:63-64` `curv_xd`. -/
noncomputable def curvXd (p : Params) (x _y : ℝ) : ℝ := p.x_curve_mult * 0.05 * 2 * x

/-- `hifire4.py:66-68` `curv_y`. -/
noncomputable def curvY (p : Params) (_x y : ℝ) : ℝ := p.y_curve_mult * 0.1 * y ^ 2

/-- `hifire4.py:70-71` `curv_yd`. -/
noncomputable def curvYd (p : Params) (_x y : ℝ) : ℝ := p.y_curve_mult * 0.1 * 2 * y

/-- `hifire4.py:74`: the curvatures of fuselage and wing. -/
noncomputable def curvatures (p : Params) : List Curvature :=
  [⟨"x", fun x y => .ok (curvX p x y), fun x y => .ok (curvXd p x y)⟩, ⟨"y", fun x y => .ok (curvY p x y), fun x y => .ok (curvYd p x y)⟩]

/-- `hifire4.py:91-96`: dimensions of the wing. -/
noncomputable def wing_L (p : Params) : ℝ := 0.8 * L_t p
noncomputable def wing_thickness (p : Params) : ℝ := 0.25 * p.R
noncomputable def wing_span (p : Params) : ℝ := 3.5 * p.R
noncomputable def flap_length (p : Params) : ℝ := 0.1 * L_t p

/-- `hifire4.py:99-106`: corners of the wing. -/
noncomputable def A0 (p : Params) : V := ⟨0 - wing_L p, 0, 0⟩
noncomputable def A1 (p : Params) : V := ⟨(A0 p).x + 0.5 * wing_L p, 0, 0⟩
noncomputable def TT (p : Params) : V := ⟨(A0 p).x + wing_L p - 0.3, 0, 0⟩
noncomputable def B0 (p : Params) : V := ⟨(A0 p).x, wing_span p, 0⟩
noncomputable def B1 (p : Params) : V := ⟨(A1 p).x, 0.95 * (B0 p).y, 0⟩
noncomputable def B2 (p : Params) : V := ⟨(TT p).x, 0.15 * wing_span p, 0⟩

/-- `hifire4.py:108-125`: the arguments of the wing. -/
noncomputable def wingArgs (p : Params) : Res Wing.Args := do
  let line ← Polyline [Line (B0 p) (B1 p), Line (B1 p) (B2 p), Line (B2 p) (TT p)]
  return { A0 := A0 p, A1 := A1 p, TT := TT p, B0 := B0 p, line := line, top_tf := uniformThickness (wing_thickness p) "top",
           bot_tf := uniformThickness (wing_thickness p) "bot", flap_length := flap_length p, flap_angle := deg2rad 0 }

/-- `hifire4.py:135-148`: the corners of the fins, and their shift by the curvature of the fuselage. -/
noncomputable def fin_length (p : Params) : ℝ := 0.2 * wing_L p
noncomputable def flat0 (p : Params) : V := A0 p - ⟨flap_length p, 0, 0⟩
noncomputable def flat1 (p : Params) : V := flat0 p + ⟨0, p.R, 0⟩
noncomputable def flat2 (p : Params) : V := flat1 p + ⟨0.5 * fin_length p, -0.5 * p.R, 0⟩
noncomputable def flat3 (p : Params) : V := flat0 p + ⟨fin_length p, 0, 0⟩
noncomputable def shifted (p : Params) (v : V) : V := v + ⟨0, -curvX p v.x v.y, 0⟩

/-- `hifire4.py:151-208`: the arguments of the fins; `off` is the value of the offset function. -/
noncomputable def finArgs (p : Params) (off : V) : Fin.Args :=
  { p0 := shifted p (flat0 p), p1 := shifted p (flat1 p), p2 := shifted p (flat2 p), p3 := shifted p (flat3 p),
    fin_thickness := wing_thickness p, fin_angle := deg2rad (-90), top_tf := uniformThickness (wing_thickness p) "top",
    bot_tf := uniformThickness (wing_thickness p) "bot", rudder_type := "sharp", rudder_length := wing_thickness p,
    offset_func := some fun _ _ _ => .ok off }

/-- `hifire4.py:151-153`: the offsets of the fins. -/
noncomputable def offset1 (p : Params) : V := ⟨0, wing_span p, 0⟩
noncomputable def offset2 (p : Params) : V := ⟨0, -wing_span p, 0⟩
noncomputable def offset3 (p : Params) : V := ⟨0, 0, -0.95 * p.R⟩

/-- `hifire4.py:211-222`: the components and their options; none of them is named. -/
noncomputable def parts (p : Params) (ids : ℕ → ℕ) : List (ℕ × AddOpts) :=
  [(ids 0, { curvatures := some (curvatures p) }), (ids 1, { reflection_axis := some "y", curvatures := some (curvatures p) }),
   (ids 2, {}), (ids 3, {}), (ids 4, {})]

/-- `hifire4.py:29-224` `create_instance`.  `ids 0 .. ids 4` are the new components. -/
noncomputable def createInstance (bis : (ℝ → Res ℝ) → Res ℝ) (ptan : ℝ → ℝ) (h : Heap) (ids : ℕ → ℕ) (attrs : Dict String ℝ) :
    Res VState := do
  let p ← Params.of attrs
  let line ← fuseLine p
  let a ← wingArgs p
  let wing ← Wing.init (rounded bis) a
  let h := h.upd (ids 0) (RevolvedComponent line 20)
  let h := h.upd (ids 1) (Wing.comp ptan wing 3)
  let h := h.upd (ids 2) (Fin.comp (rounded bis) ptan (finArgs p (offset1 p)) 3)
  let h := h.upd (ids 3) (Fin.comp (rounded bis) ptan (finArgs p (offset2 p)) 3)
  let h := h.upd (ids 4) (Fin.comp (rounded bis) ptan (finArgs p (offset3 p)) 3)
  addAll ⟨h, ({} : Veh).configure (some "HIFiRE4") 1⟩ (parts p ids)

/-- `ParametricHIFiRE4(**kwargs).create_instance()`. -/
noncomputable def instanceOf (bis : (ℝ → Res ℝ) → Res ℝ) (ptan : ℝ → ℝ) (h : Heap) (ids : ℕ → ℕ) (kwargs : Dict String ℝ) :
    Res VState := createInstance bis ptan h ids (Generator.init defaults kwargs)

end HIFiRE4
end HV
