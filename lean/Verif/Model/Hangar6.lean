import Verif.Model.Hangar5

/-!
# `hangar/refex.py`

`bis` and `ptan` as in `Model/Hangar2.lean`.
-/

namespace HV
namespace ReFEX

/-- `refex.py:34-51`: the attributes set before `super().__init__`.  Simplified: the toggles are numbers, as `True == 1`; `cannard_shift`, a vector,
is a separate argument below. -/
noncomputable def defaults : Dict String ℝ :=
  [("generate_fuselage", 1), ("generate_wings", 1), ("generate_canards", 1), ("generate_tail", 1), ("h", 0.225), ("r_n", 0.075), ("r_o", 1.5),
   ("L_o", 0.05), ("L_b", 2.5), ("fin_thickness", 0.02), ("wing_length", 0.9), ("wing_span", 0.35), ("tail_height", 0.35), ("tail_thickness", 0.02),
   ("canard_angle", 0)]

/-- `refex.py:54`: the default of `cannard_shift`. -/
noncomputable def defaultShift : V := ⟨0.15, 0, 0⟩

/-- The attributes as numbers. -/
structure Params where
  generate_fuselage : ℝ
  generate_wings : ℝ
  generate_canards : ℝ
  generate_tail : ℝ
  h : ℝ
  r_n : ℝ
  r_o : ℝ
  L_o : ℝ
  L_b : ℝ
  fin_thickness : ℝ
  wing_length : ℝ
  wing_span : ℝ
  tail_height : ℝ
  tail_thickness : ℝ
  canard_angle : ℝ

/-- Reading the attributes. -/
def Params.of (attrs : Dict String ℝ) : Res Params := do
  let generate_fuselage ← attrOf attrs "generate_fuselage"
  let generate_wings ← attrOf attrs "generate_wings"
  let generate_canards ← attrOf attrs "generate_canards"
  let generate_tail ← attrOf attrs "generate_tail"
  let h ← attrOf attrs "h"
  let r_n ← attrOf attrs "r_n"
  let r_o ← attrOf attrs "r_o"
  let L_o ← attrOf attrs "L_o"
  let L_b ← attrOf attrs "L_b"
  let fin_thickness ← attrOf attrs "fin_thickness"
  let wing_length ← attrOf attrs "wing_length"
  let wing_span ← attrOf attrs "wing_span"
  let tail_height ← attrOf attrs "tail_height"
  let tail_thickness ← attrOf attrs "tail_thickness"
  let canard_angle ← attrOf attrs "canard_angle"
  return ⟨generate_fuselage, generate_wings, generate_canards, generate_tail, h, r_n, r_o, L_o, L_b, fin_thickness, wing_length, wing_span, tail_height,
    tail_thickness, canard_angle⟩

/-- The truth value of a number. -/
noncomputable def truth (x : ℝ) : Bool := decide (x ≠ 0)

/-- `refex.py:11-20` `leading_edge_width_function`. -/
noncomputable def leWidth : ℝ → Res ℝ := bezierY [⟨0, 0.01, 0⟩, ⟨0.5, 0.05, 0⟩, ⟨1, 0.01, 0⟩]

/-- `refex.py:74`: the end of the nose. -/
noncomputable def f1 (p : Params) : V := (⟨0, p.h, 0⟩ : V) - ⟨p.L_o, 0, 0⟩

/-- `refex.py:76-77`, `80`: the outer end of the body (`b1`, `bb0`). -/
noncomputable def bb0 (p : Params) : V := (⟨0, (f1 p).y, 0⟩ : V) - ⟨p.L_b, 0, 0⟩

/-- `refex.py:75-84`: the line revolved for the body. -/
noncomputable def bodyLine (p : Params) : Res PathObj :=
  Polyline [Line ⟨0, 0, 0⟩ ⟨0, (f1 p).y, 0⟩, Line ⟨0, (f1 p).y, 0⟩ (bb0 p), Line (bb0 p) ⟨(bb0 p).x, 0, 0⟩]

/-- `refex.py:99-101`, `183`: the size of the canards and the shift of a fin into the body. -/
noncomputable def fin_height (p : Params) : ℝ := 1.3 * p.h
noncomputable def fin_length (p : Params) : ℝ := 1.3 * fin_height p
noncomputable def shift_in (height : ℝ) : V := ⟨0, -0.02 * height, 0⟩

/-- `refex.py:103-107`: the corners and the pivot of the canards. -/
noncomputable def p0 (p : Params) (shift : V) : V := f1 p - ⟨fin_length p, 0, 0⟩ + shift_in (fin_height p) + shift
noncomputable def p1 (p : Params) (shift : V) : V := p0 p shift + ⟨0, fin_height p, 0⟩ + shift_in (fin_height p)
noncomputable def p2 (p : Params) (shift : V) : V := p1 p shift + ⟨0.3 * fin_length p, 0, 0⟩ + shift_in (fin_height p)
noncomputable def p3 (p : Params) (shift : V) : V := f1 p + shift_in (fin_height p) + shift
noncomputable def pivot (p : Params) (shift : V) : V := ⟨0.5 * ((p0 p shift).x + (p3 p shift).x), (p0 p shift).y, 0⟩

/-- `refex.py:112-132`: the arguments of canard number `i`. -/
noncomputable def canardArgs (p : Params) (shift : V) (i : ℕ) : Fin.Args :=
  { p0 := p0 p shift, p1 := p1 p shift, p2 := p2 p shift, p3 := p3 p shift, fin_thickness := p.fin_thickness,
    fin_angle := deg2rad (((i : ℝ) / 2) * 360), top_tf := uniformThickness p.fin_thickness "top", bot_tf := uniformThickness p.fin_thickness "bot",
    LE_wf := leWidth, pivot_angle := deg2rad ((-1) ^ i * p.canard_angle), pivot_point := pivot p shift, rudder_type := "sharp",
    rudder_length := p.fin_thickness }

/-- `refex.py:137-138`: the size of the wings. -/
noncomputable def wing_thickness (p : Params) : ℝ := 3 * p.fin_thickness
noncomputable def flap_length (p : Params) : ℝ := 0.1 * p.wing_length

/-- `refex.py:140-145`: the corners of the wings. -/
noncomputable def A0 (p : Params) : V := ⟨(bb0 p).x + flap_length p, 0, 0⟩
noncomputable def TT (p : Params) : V := A0 p + ⟨p.wing_length, 0, 0⟩
noncomputable def A1 (p : Params) : V := ⟨0.5 * ((A0 p).x + (TT p).x), 0, 0⟩
noncomputable def B0 (p : Params) : V := A0 p + ⟨0, p.wing_span + p.h, 0⟩
noncomputable def B1 (p : Params) : V := B0 p + ⟨0.5 * p.wing_length - flap_length p, 0, 0⟩

/-- `refex.py:147-170`: the arguments of the wings. -/
noncomputable def wingArgs (p : Params) : Res Wing.Args := do
  let line ← Polyline [Line (B0 p) (B1 p), Line (B1 p) (TT p)]
  return { A0 := A0 p, A1 := A1 p, TT := TT p, B0 := B0 p, line := line, top_tf := fun _ _ _ => .ok ⟨0, 0, p.h - wing_thickness p⟩,
           bot_tf := fun _ _ _ => .ok ⟨0, 0, p.h⟩, LE_wf := some leWidth, flap_length := flap_length p }

/-- `refex.py:218-236`, `239-257`: a rectangular section of the transition. -/
noncomputable def box (h x : ℝ) : List PathObj :=
  [Line ⟨x, h, 0⟩ ⟨x, h, h⟩, ReversedPath (Line ⟨x, -h, h⟩ ⟨x, h, h⟩), ReversedPath (Line ⟨x, -h, 0⟩ ⟨x, -h, h⟩), Line ⟨x, -h, 0⟩ ⟨x, h, 0⟩]

/-- `refex.py:260-295`: the round section of the transition. -/
noncomputable def round (h x : ℝ) : List PathObj :=
  let c : V := ⟨x, 0, 0⟩
  let l : V := ⟨x, -h * Real.cos (deg2rad 60), h * Real.sin (deg2rad 60)⟩
  let r : V := ⟨x, h * Real.cos (deg2rad 60), h * Real.sin (deg2rad 60)⟩
  [Arc ⟨x, h, 0⟩ r c, ReversedPath (Arc l r c), ReversedPath (Arc ⟨x, -h, 0⟩ l c), Line ⟨x, -h, 0⟩ ⟨x, h, 0⟩]

/-- `refex.py:218-297`: the sections of the transition. -/
noncomputable def sections (p : Params) (x_ref : ℝ) : List (List PathObj) :=
  [box p.h x_ref, box p.h (x_ref + 0.9 * p.wing_length), round p.h (x_ref + 1.3 * p.wing_length)]

/-- `refex.py:181-188`: the corners of the tail. -/
noncomputable def tail_length (p : Params) : ℝ := 1.2 * p.tail_height
noncomputable def t0 (p : Params) : V := bb0 p + shift_in p.tail_height + ⟨2 * p.tail_thickness, 0, 0⟩
noncomputable def t1 (p : Params) : V := t0 p + ⟨0, p.tail_height, 0⟩ + shift_in p.tail_height
noncomputable def t2 (p : Params) : V := t1 p + ⟨0.4 * tail_length p, 0, 0⟩ + shift_in p.tail_height
noncomputable def t3 (p : Params) : V := t0 p + ⟨tail_length p, 0, 0⟩ + shift_in p.tail_height

/-- `refex.py:190-209`: the arguments of the tail. -/
noncomputable def tailArgs (p : Params) : Fin.Args :=
  { p0 := t0 p, p1 := t1 p, p2 := t2 p, p3 := t3 p, fin_thickness := p.tail_thickness, fin_angle := deg2rad (-90),
    top_tf := uniformThickness p.tail_thickness "top", bot_tf := uniformThickness p.tail_thickness "bot", LE_wf := leWidth, rudder_type := "sharp",
    rudder_length := p.tail_thickness }

/-- No options. -/
def noOpts : AddOpts := { name := none }

/-- The components that the toggles ask for, in order, and their options (`refex.py:69-70`, `88-89`, `109-133`, `158-171`, `175-177`, `190-210`). -/
noncomputable def parts (p : Params) (ids : ℕ → ℕ) : List (ℕ × AddOpts) :=
  (if truth p.generate_fuselage then [(ids 0, noOpts), (ids 1, noOpts)] else []) ++ (if truth p.generate_canards then [(ids 2, noOpts), (ids 3, noOpts)] else []) ++
  (if truth p.generate_wings then [(ids 4, { reflection_axis := some "y" })] else []) ++
  (if truth p.generate_fuselage then [(ids 5, noOpts)] else []) ++ (if truth p.generate_tail then [(ids 6, noOpts)] else [])

/-- `refex.py:159-170`: the wing. -/
noncomputable def makeWing (bis : (ℝ → Res ℝ) → Res ℝ) (ptan : ℝ → ℝ) (h : Heap) (ids : ℕ → ℕ) (a : Wing.Args) : Res Heap := do
  let wing ← Wing.init (rounded bis) a
  return h.upd (ids 4) (Wing.comp ptan wing 3)

/-- `refex.py:176`, `217-302`: the transition. -/
noncomputable def makeTransition (h : Heap) (ids : ℕ → ℕ) (p : Params) : Res Heap := do
  let transition ← Swept.init (sections p (bb0 p).x) true (.int 20)
  return h.upd (ids 5) transition

/-- `refex.py:158`, `175`: `if toggle:` make a component. -/
noncomputable def onlyIf (toggle : ℝ) (made : Res Heap) (h : Heap) : Res Heap := if truth toggle then made else .ok h

/-- `refex.py:59-215` `create_instance`.  `ids 0 .. ids 6` are the nose, the body, the canards, the wing, the transition and the tail.  Simplified: the
components are made before the first is added, and the fins also if they are not asked for, which cannot fail and has no effect. -/
noncomputable def createInstance (bis : (ℝ → Res ℝ) → Res ℝ) (ptan : ℝ → ℝ) (h : Heap) (ids : ℕ → ℕ) (shift : V) (attrs : Dict String ℝ) :
    Res VState := do
  let p ← Params.of attrs
  let nose ← Ogive.comp p.h p.r_n p.r_o p.L_o 50
  let line ← bodyLine p
  let a ← wingArgs p
  let h := h.upd (ids 0) nose
  let h := h.upd (ids 1) (RevolvedComponent line 50)
  let h := h.upd (ids 2) (Fin.comp (rounded bis) ptan (canardArgs p shift 0) 3)
  let h := h.upd (ids 3) (Fin.comp (rounded bis) ptan (canardArgs p shift 1) 3)
  let h ← onlyIf p.generate_wings (makeWing bis ptan h ids a) h
  let h ← onlyIf p.generate_fuselage (makeTransition h ids p) h
  let h := h.upd (ids 6) (Fin.comp (rounded bis) ptan (tailArgs p) 3)
  let st ← addAll ⟨h, ({} : Veh).configure (some "ReFEX") 1⟩ (parts p ids)
  return ⟨st.heap, st.veh.addVehicleTransformations (.many CART3D)⟩

/-- `ParametricReFEX(**kwargs).create_instance()`. -/
noncomputable def instanceOf (bis : (ℝ → Res ℝ) → Res ℝ) (ptan : ℝ → ℝ) (h : Heap) (ids : ℕ → ℕ) (shift : V) (kwargs : Dict String ℝ) : Res VState :=
  createInstance bis ptan h ids shift (Generator.init defaults kwargs)

end ReFEX
end HV
