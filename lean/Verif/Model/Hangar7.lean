import Verif.Model.Hangar6

/-!
# `hangar/d21.py`

`bis` and `ptan` as in `Model/Hangar2.lean`.
-/

namespace HV
namespace D21

/-- `d21.py:21-25`: the attributes set before `super().__init__`.  Simplified: the resolutions (`d21.py:28-29`), which are whole numbers, are separate
arguments below. -/
noncomputable def defaults : Dict String ℝ := [("R_b", 1), ("L_b", 20), ("L_w", 16), ("W_w", 5), ("flap_angle", 0)]

/-- The attributes as numbers. -/
structure Params where
  R_b : ℝ
  L_b : ℝ
  L_w : ℝ
  W_w : ℝ
  flap_angle : ℝ

/-- Reading the attributes. -/
def Params.of (attrs : Dict String ℝ) : Res Params := do
  let R_b ← attrOf attrs "R_b"
  let L_b ← attrOf attrs "L_b"
  let L_w ← attrOf attrs "L_w"
  let W_w ← attrOf attrs "W_w"
  let flap_angle ← attrOf attrs "flap_angle"
  return ⟨R_b, L_b, L_w, W_w, flap_angle⟩

/-- `d21.py:44-47`: the corners of the fuselage. -/
noncomputable def b0 (p : Params) : V := ⟨0, p.R_b, 0⟩
noncomputable def b1 (p : Params) : V := b0 p - ⟨p.L_b, 0, 0⟩
noncomputable def b2 (p : Params) : V := b1 p - ⟨0, p.R_b, 0⟩

/-- `d21.py:44-52`: the line revolved for the fuselage. -/
noncomputable def fuseLine (p : Params) : Res PathObj := Polyline [Line ⟨0, 0, 0⟩ (b0 p), Line (b0 p) (b1 p), Line (b1 p) (b2 p)]

/-- `d21.py:58`. -/
noncomputable def shift : V := ⟨-0.1, 0, 0⟩

/-- `d21.py:59-61`: the points of the nose. -/
noncomputable def tip (p : Params) : V := (⟨0.15 * p.L_b, 0, 0⟩ : V) + shift
noncomputable def top (p : Params) : V := (⟨0, 1 * p.R_b, 0⟩ : V) + shift
noncomputable def midCp (p : Params) : V := (⟨0, 0.3 * p.R_b, 0⟩ : V) + shift

/-- `d21.py:63-66`: the line revolved for the nose. -/
noncomputable def noseLine (p : Params) : Res PathObj :=
  Polyline [Bezier [tip p, midCp p, top p], Line (top p) ((⟨-0.5, 0, 0⟩ : V) + shift)]

/-- `d21.py:80`, `82`: the size of the wings. -/
noncomputable def wing_thickness (p : Params) : ℝ := 0.15 * p.R_b
noncomputable def flap_length (p : Params) : ℝ := 0.1 * p.L_w

/-- `d21.py:83-94`: the corners of the wings. -/
noncomputable def A0 (p : Params) : V := (⟨0, 0, 0⟩ : V) - ⟨p.L_w, 0, 0⟩
noncomputable def A1 (p : Params) : V := ⟨(A0 p).x + 0.6 * p.L_w, 0, 0⟩
noncomputable def TT (p : Params) : V := (⟨(A0 p).x + p.L_w, 0, 0⟩ : V) - ⟨0.3, 0, 0⟩
noncomputable def B0 (p : Params) : V := ⟨(A0 p).x, p.W_w, 0⟩
noncomputable def B1 (p : Params) : V := ⟨(A1 p).x, 0.5 * (B0 p).y, 0⟩
noncomputable def B2 (p : Params) : V := ⟨(TT p).x, 0.15 * p.W_w, 0⟩

/-- `d21.py:97-107`: the leading edge. -/
noncomputable def edge (p : Params) : Res PathObj :=
  Polyline [Line (B0 p) (B1 p), Bezier [B1 p, ⟨0.5 * ((B1 p).x + (B2 p).x), (B1 p).y, 0⟩, B2 p], Line (B2 p) (TT p)]

/-- `d21.py:109-113` `local_ws`. -/
noncomputable def localWs (bis : (ℝ → Res ℝ) → Res ℝ) (line : PathObj) (x : ℝ) : Res ℝ := do
  let t ← bis fun t => do let q ← line.call t; return q.x - x
  let q ← line.call t
  return q.y

/-- `d21.py:118-119`: the span used by the thickness. -/
noncomputable def usedWs (lws : ℝ) : ℝ := if lws = 0 then 1e-3 else lws

/-- `d21.py:115-124` `wing_tf_top`. -/
noncomputable def wingTop (bis : (ℝ → Res ℝ) → Res ℝ) (line : PathObj) (p : Params) : OffFn := fun x y _ => do
  let lws ← localWs bis line x
  let q ← pdiv y (usedWs lws)
  return ⟨0, 0, -(wing_thickness p) / 2 - 0.5 * (1 - q)⟩

/-- `d21.py:126-127` `wing_tf_bot`. -/
noncomputable def wingBot (p : Params) : OffFn := fun _ _ _ => .ok ⟨0, 0, wing_thickness p / 2⟩

/-- `d21.py:129-140`: the arguments of the wings. -/
noncomputable def wingArgs (bis : (ℝ → Res ℝ) → Res ℝ) (line : PathObj) (p : Params) : Wing.Args :=
  { A0 := A0 p, A1 := A1 p, TT := TT p, B0 := B0 p, line := line, top_tf := wingTop bis line p, bot_tf := wingBot p,
    flap_length := flap_length p, flap_angle := deg2rad p.flap_angle }

/-- `d21.py:162-166` `fin_thickness_function_top`, `fin_thickness_function_bot`; `fin_thickness` (`d21.py:152`, `188`) is the thickness of the wings. -/
noncomputable def finTop (p : Params) : OffFn := fun _ _ _ => .ok ⟨0, 0, -(wing_thickness p) / 2⟩
noncomputable def finBot (p : Params) : OffFn := fun _ _ _ => .ok ⟨0, 0, wing_thickness p / 2⟩

/-- `d21.py:151-181`: the arguments of the tail. -/
noncomputable def tailArgs (p : Params) : Fin.Args :=
  let fin_height := 0.15 * p.W_w
  let fin_length := p.L_b - p.L_w
  { p0 := b2 p, p1 := b2 p + ⟨0, fin_height, 0⟩, p2 := b2 p + ⟨0, fin_height, 0⟩ + ⟨0.4 * fin_length, 0, 0⟩, p3 := b2 p + ⟨fin_length, 0, 0⟩,
    offset_func := some fun _ _ _ => .ok ⟨0, 0, -0.95 * p.R_b⟩, fin_thickness := wing_thickness p, fin_angle := deg2rad (-90),
    top_tf := finTop p, bot_tf := finBot p }

/-- `d21.py:187-220`: the arguments of a trailing wing at an angle in degrees. -/
noncomputable def trailArgs (p : Params) (angle : ℝ) : Fin.Args :=
  let fin_height := 0.45 * p.W_w
  let fin_length := 1.3 * (p.L_b - p.L_w)
  { p0 := b2 p, p1 := b2 p + ⟨0, fin_height, 0⟩, p2 := b2 p + ⟨0, fin_height, 0⟩ + ⟨fin_length, 0, 0⟩, p3 := b2 p + ⟨fin_length, 0, 0⟩,
    fin_thickness := wing_thickness p, fin_angle := deg2rad angle, top_tf := finTop p, bot_tf := finBot p }

/-- The components in order and their options (`d21.py:54`, `69`, `141`, `182`, `207`, `220`). -/
def parts (ids : ℕ → ℕ) : List (ℕ × AddOpts) :=
  [(ids 0, { name := none }), (ids 1, { name := none }), (ids 2, { reflection_axis := some "y" }), (ids 3, { name := none }),
   (ids 4, { name := none }), (ids 5, { name := none })]

/-- `d21.py:34-222` `create_instance`.  `ids 0 .. ids 5` are the fuselage, the nose, the wing, the tail and the trailing wings; `nw` and `nt` are the
resolutions `wing_stl_res` and `te_fin_stl_res`.  Simplified: the components are made before the first is added. -/
noncomputable def createInstance (bis : (ℝ → Res ℝ) → Res ℝ) (ptan : ℝ → ℝ) (h : Heap) (ids : ℕ → ℕ) (nw nt : ℕ) (attrs : Dict String ℝ) :
    Res VState := do
  let p ← Params.of attrs
  let fuse ← fuseLine p
  let nose ← noseLine p
  let line ← edge p
  let wing ← Wing.init (rounded bis) (wingArgs bis line p)
  let h := h.upd (ids 0) (RevolvedComponent fuse 20)
  let h := h.upd (ids 1) (RevolvedComponent nose 20)
  let h := h.upd (ids 2) (Wing.comp ptan wing nw)
  let h := h.upd (ids 3) (Fin.comp (rounded bis) ptan (tailArgs p) nt)
  let h := h.upd (ids 4) (Fin.comp (rounded bis) ptan (trailArgs p 0) nt)
  let h := h.upd (ids 5) (Fin.comp (rounded bis) ptan (trailArgs p 180) nt)
  addAll ⟨h, ({} : Veh).configure (some "Lockhead Martin D-21") 1⟩ (parts ids)

/-- `ParametricD21(**kwargs).create_instance()`. -/
noncomputable def instanceOf (bis : (ℝ → Res ℝ) → Res ℝ) (ptan : ℝ → ℝ) (h : Heap) (ids : ℕ → ℕ) (nw nt : ℕ) (kwargs : Dict String ℝ) : Res VState :=
  createInstance bis ptan h ids nw nt (Generator.init defaults kwargs)

end D21
end HV
