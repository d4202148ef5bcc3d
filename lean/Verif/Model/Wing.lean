import Verif.Model.Leaf

/-!
# `components/wing.py` and `components/fin.py`
-/

namespace HV

/-- Running the stages of a `generate_patches` method: each stage computes some patches and then assigns them; the first stage
that raises ends the run. -/
def runStages : List (Res (List (String × Surf))) → GenOut
  | [] => ⟨[], [], [], none⟩
  | .ok l :: rest => { runStages rest with items := l ++ (runStages rest).items }
  | .error e :: _ => ⟨[], [], [], some e⟩

/-- Calling a width function that may be `None`. -/
def widthFn (wf : Option (ℝ → Res ℝ)) : ℝ → Res ℝ := wf.getD fun _ => .error .type

/-- `common.py:7-16` `leading_edge_width_function`. -/
noncomputable def leadingEdgeWidth (r : ℝ) : Res ℝ := do
  let p ← (Bezier [⟨0, 0.01, 0⟩, ⟨0.5, 0.1, 0⟩, ⟨1, 0.01, 0⟩]).call r
  return p.y

namespace Wing

/-- `wing.py:29-50`: the constructor arguments.  The thickness functions are mandatory here; with the default `None` every use
raises. -/
structure Args where
  A0 : V := ⟨0, 0, 0⟩
  A1 : V := ⟨0, 0, 0⟩
  TT : V := ⟨0, 0, 0⟩
  B0 : V := ⟨0, 0, 0⟩
  line : PathObj
  lineType : String := "Bezier"
  t_B1 : Option ℝ := none
  t_B2 : Option ℝ := none
  top_tf : OffFn
  bot_tf : OffFn
  LE_wf : Option (ℝ → Res ℝ) := none
  LE_type : String := "custom"
  tail_option : String := "FLAP"
  flap_length : ℝ := 0
  flap_angle : ℝ := 0
  close_wing : Bool := false

/-- The attributes of a wing object used by `generate_patches`; `t_B2` may be `None`. -/
structure State where
  args : Args
  LE_wf : Option (ℝ → Res ℝ)
  LE_TYPE : String
  t_B1 : ℝ
  t_B2 : Option ℝ

/-- `wing.py:156-161`: the first break parameter.  `find` stands for `round(scipy.optimize.bisect(f, 0, 1), 6)` and may
raise. -/
noncomputable def breakB1 (find : (ℝ → Res ℝ) → Res ℝ) (a : Args) : Res ℝ :=
  match a.t_B1 with
  | none => find fun t => do let p ← a.line.call t; return p.x - a.A1.x
  | some t => .ok t

/-- `wing.py:163-166`: the second break parameter. -/
noncomputable def breakB2 (a : Args) (tB1 : ℝ) : Option ℝ :=
  match a.t_B2 with
  | none => some (0.5 * (1 + tB1))
  | some _ => a.t_B1

/-- `wing.py:117-171` `Wing.__init__`. -/
noncomputable def init (find : (ℝ → Res ℝ) → Res ℝ) (a : Args) : Res State := do
  let wf := if a.LE_wf.isNone ∧ a.LE_type = "custom" then some leadingEdgeWidth else a.LE_wf
  let tB1 ← breakB1 find a
  return ⟨a, wf, a.LE_type.toUpper, tB1, breakB2 a tB1⟩

/-- Using an attribute that may be `None` as a number. -/
def num (x : Option ℝ) : Res ℝ := match x with
  | some v => .ok v
  | none => .error .type

/-- `wing.py:186-239`: the planform patches and their flipped versions.  `t_B2` is first used when the second patch is
constructed. -/
noncomputable def planform (w : State) : Res (Surf × Surf × Surf × Surf) := do
  let a := w.args
  if a.lineType.toLower ≠ "bezier" then throw .exc
  let B1 ← a.line.call w.t_B1
  let B0B1 := SubRangedPath a.line 0 w.t_B1
  let p0 ← CoonsPatch B0B1 (Line a.A1 B1) (Line a.A0 a.A1) (Line a.A0 a.B0)
  let tB2 ← num w.t_B2
  let B1B2 := SubRangedPath a.line w.t_B1 tB2
  let TTB2 := SubRangedPath a.line 1 tB2
  let p1 ← CoonsPatch B1B2 TTB2 (Line a.A1 a.TT) (Line a.A1 B1)
  let f0 ← CoonsPatch (SubRangedPath B0B1 1 0) (Line a.A0 a.B0) (Line a.A1 a.A0) (Line a.A1 B1)
  let f1 ← CoonsPatch (SubRangedPath B1B2 1 0) (Line a.A1 B1) (Line a.TT a.A1) TTB2
  return (p0, p1, f0, f1)

/-- `wing.py:241-260`: the skins. -/
noncomputable def skins (w : State) : Res (List (String × Surf)) := do
  let (p0, p1, f0, f1) ← planform w
  return [("top_patch_0", OffsetPatchFunction f0 w.args.top_tf), ("top_patch_1", OffsetPatchFunction f1 w.args.top_tf),
    ("bot_patch_0", OffsetPatchFunction p0 w.args.bot_tf), ("bot_patch_1", OffsetPatchFunction p1 w.args.bot_tf)]

/-- `wing.py:267-272`: the upper leading edge path. -/
noncomputable def topEdge (w : State) : PathObj := OffsetPathFunction w.args.line w.args.top_tf

/-- `wing.py:267-272`: the lower leading edge path. -/
noncomputable def botEdge (w : State) : PathObj := OffsetPathFunction w.args.line w.args.bot_tf

/-- `wing.py:274-283`: the flat leading edge.  `t_B2` is a number here, otherwise `planform` has raised. -/
noncomputable def flatLE (w : State) (tB2 : ℝ) : List (String × Surf) :=
  [("LE_patch0", FlatLeadingEdgePatchFunction (topEdge w) (botEdge w) 0 w.t_B1),
   ("LE_patch1", FlatLeadingEdgePatchFunction (topEdge w) (botEdge w) w.t_B1 tB2),
   ("LE_patch2", FlatLeadingEdgePatchFunction (topEdge w) (botEdge w) w.t_B1 1)]

/-- `wing.py:285-349`: the elliptical leading edge. -/
noncomputable def ellipticLE (ptan : ℝ → ℝ) (w : State) (tB2 : ℝ) : List (String × Surf) :=
  let mean := GeometricMeanPathFunction (topEdge w) (botEdge w)
  let wf := widthFn w.LE_wf
  [("LE_top_patch_0", MeanLeadingEdgePatchFunction ptan mean (topEdge w) wf 0 w.t_B1 "top"),
   ("LE_top_patch_1", MeanLeadingEdgePatchFunction ptan mean (topEdge w) wf w.t_B1 tB2 "top"),
   ("LE_top_patch_2", MeanLeadingEdgePatchFunction ptan mean (topEdge w) wf tB2 1 "top"),
   ("LE_bot_patch_0", MeanLeadingEdgePatchFunction ptan mean (botEdge w) wf 0 w.t_B1 "bot"),
   ("LE_bot_patch_1", MeanLeadingEdgePatchFunction ptan mean (botEdge w) wf w.t_B1 tB2 "bot"),
   ("LE_bot_patch_2", MeanLeadingEdgePatchFunction ptan mean (botEdge w) wf tB2 1 "bot")]

/-- `wing.py:262-349` `_create_leading_edge`. -/
noncomputable def leadingEdge (ptan : ℝ → ℝ) (w : State) : Res (List (String × Surf)) := do
  let tB2 ← num w.t_B2
  return if w.LE_TYPE = "FLAT" then flatLE w tB2 else ellipticLE ptan w tB2

/-- `wing.py:363-369`: the upper trailing edge path. -/
noncomputable def teTop (w : State) : PathObj := TrailingEdgePath w.args.A0 w.args.B0 w.args.top_tf

/-- `wing.py:366-369`: the lower trailing edge path. -/
noncomputable def teBot (w : State) : PathObj := TrailingEdgePath w.args.A0 w.args.B0 w.args.bot_tf

/-- `wing.py:370`: the mean trailing edge path. -/
noncomputable def teMean (w : State) : PathObj := GeometricMeanPathFunction (teTop w) (teBot w)

/-- `wing.py:351-389`: the flap. -/
noncomputable def flap (w : State) : Res (List (String × Surf)) := do
  let a := w.args
  if a.tail_option ≠ "FLAP" then throw .exc
  let top ← MeanTrailingEdgePatch (teMean w) (teTop w) a.flap_length a.flap_angle "top"
  let bot ← MeanTrailingEdgePatch (teMean w) (teBot w) a.flap_length a.flap_angle "bot"
  return [("TE_top_patch", top), ("TE_bot_patch", bot)]

/-- `wing.py:391-424`: the north and west edges of the patch that closes the flap at the tip. -/
noncomputable def tipEdges (ptan : ℝ → ℝ) (w : State) (m t b : V) : Res (PathObj × PathObj) :=
  if w.LE_TYPE = "FLAT" then .ok (Line m b, Line t m)
  else do
    let thickness_top := m.z - t.z
    let thickness_bot := m.z - b.z
    if thickness_top = 0 ∨ thickness_bot = 0 then throw .exc
    let lt ← widthFn w.LE_wf 0
    let lb ← widthFn w.LE_wf 0
    let et ← ArcLengthParameterizedPath (ElipsePath ptan m thickness_top lt "top")
    let eb ← ArcLengthParameterizedPath (ElipsePath ptan m thickness_bot lb "bot")
    return (eb, et)

/-- `wing.py:391-459`: the patch that closes the flap at the tip. -/
noncomputable def tele (ptan : ℝ → ℝ) (w : State) : Res (List (String × Surf)) := do
  let a := w.args
  let m ← (teMean w).call 1
  let t ← (teTop w).call 1
  let b ← (teBot w).call 1
  let (north, west) ← tipEdges ptan w m t b
  let tip : V := ⟨m.x - a.flap_length * Real.cos a.flap_angle, m.y, m.z + a.flap_length * Real.sin a.flap_angle⟩
  let south := Line ⟨m.x, m.y, t.z⟩ tip
  let east := Line tip ⟨m.x, m.y, b.z⟩
  let p ← CoonsPatch north east south west
  return [("TELE_patch", p)]

/-- `wing.py:466-567` `_close_wing`, first part.  `top0`, `bot0` are the patches `top_patch_0` and `bot_patch_0`. -/
noncomputable def closeWing (ptan : ℝ → ℝ) (w : State) (top0 bot0 : Surf) : Res (List (String × Surf)) := do
  let a := w.args
  let ot ← a.top_tf a.TT.x a.TT.y a.TT.z
  let TT_top := a.TT + ot
  let ob ← a.bot_tf a.TT.x a.TT.y a.TT.z
  let TT_bot := a.TT + ob
  let TT_mid := (TT_top + TT_bot) * (0.5 : ℝ)
  let t0 ← (teTop w).call 0
  let b0 ← (teBot w).call 0
  let m0 ← (teMean w).call 0
  let tA ← top0 0 0
  let bA ← bot0 1 0
  let mm : V := ⟨bA.x, bA.y, (bA.z + tA.z) / 2⟩
  let mid0 := Line m0 mm
  let mid1 := Line mm TT_mid
  let vertTop := Line tA mm
  let vertBot := Line mm bA
  let p1 ← CoonsPatch mid0 vertTop (Line t0 tA) (Line t0 m0)
  let p2 ← CoonsPatch mid1 (Line TT_top TT_mid) (Line tA TT_top) vertTop
  let p3 ← CoonsPatch (Line b0 bA) vertBot mid0 (Line m0 b0)
  let p4 ← CoonsPatch (Line bA TT_bot) (Line TT_mid TT_bot) mid1 vertBot
  let lt ← widthFn w.LE_wf 1
  let lb ← widthFn w.LE_wf 1
  let et ← ArcLengthParameterizedPath (ElipsePath ptan TT_mid (TT_mid.z - TT_top.z) lt "top")
  let eb ← ArcLengthParameterizedPath (ElipsePath ptan TT_mid (TT_mid.z - TT_bot.z) lb "bot")
  let p5 ← CoonsPatch (SubRangedPath eb 1 0) et (Line TT_mid TT_top) (Line TT_mid TT_bot)
  return [("wing_close_top_patch0", p1), ("wing_close_top_patch1", p2), ("wing_close_bot_patch0", p3),
    ("wing_close_bot_patch1", p4), ("interior_ellip", RotatedPatch p5 (-90 * Real.pi / 180) "z" TT_mid)]

/-- `wing.py:569-586` `_close_wing`, second part. -/
noncomputable def closeFlap (w : State) : Res (List (String × Surf)) := do
  let a := w.args
  let m0 ← (teMean w).call 0
  let t0 ← (teTop w).call 0
  let b0 ← (teBot w).call 0
  let p : V := ⟨m0.x - a.flap_length * Real.cos a.flap_angle, m0.y, m0.z + a.flap_length * Real.sin a.flap_angle⟩
  let f ← CoonsPatch (Line t0 p) (Line b0 p) (Line m0 b0) (Line m0 t0)
  return [("interior_flap_patch", f)]

/-- `wing.py:473-502` reads the skins back from the patch dictionary. -/
noncomputable def closeFrom (ptan : ℝ → ℝ) (w : State) : Res (List (String × Surf)) := do
  let l ← skins w
  let top0 ← Dict.get l "top_patch_0"
  let bot0 ← Dict.get l "bot_patch_0"
  closeWing ptan w top0 bot0

/-- `wing.py:173-184` `generate_patches`. -/
noncomputable def stages (ptan : ℝ → ℝ) (w : State) : List (Res (List (String × Surf))) :=
  [skins w, leadingEdge ptan w, flap w, tele ptan w] ++ if w.args.close_wing then [closeFrom ptan w, closeFlap w] else []

/-- A new wing component. -/
noncomputable def comp (ptan : ℝ → ℝ) (w : State) (res : ℕ := 2) (name : Option String := none) : Comp :=
  { componenttype := "wing", gen := .into fun _ => runStages (stages ptan w), stl_resolution := .int res, name := name }

end Wing

namespace Fin

/-- `fin.py:28-49`: the constructor arguments, after the default leading edge width function has been filled in
(`fin.py:124-128`).  `mirror` is not used. -/
structure Args where
  p0 : V
  p1 : V
  p2 : V
  p3 : V
  fin_thickness : ℝ
  fin_angle : ℝ
  top_tf : OffFn
  bot_tf : OffFn
  LE_wf : ℝ → Res ℝ := leadingEdgeWidth
  rudder_type : String := "flat"
  rudder_length : ℝ := 0
  rudder_angle : ℝ := 0
  pivot_angle : ℝ := 0
  pivot_point : V := ⟨0, 0, 0⟩
  offset_func : Option OffFn := none

/-- `fin.py:175-187`: planform and flipped planform. -/
noncomputable def planform (a : Args) : Res (Surf × Surf) := do
  let p ← CoonsPatch (Line a.p1 a.p2) (Line a.p3 a.p2) (Line a.p0 a.p3) (Line a.p0 a.p1)
  let f ← CoonsPatch (Line a.p3 a.p2) (Line a.p1 a.p2) (Line a.p0 a.p1) (Line a.p0 a.p3)
  return (p, f)

/-- `fin.py:189-194`: the skins. -/
noncomputable def skins (a : Args) : Res (List (String × Surf)) := do
  let (p, f) ← planform a
  return [("top_patch", OffsetPatchFunction f a.top_tf), ("bot_patch", OffsetPatchFunction p a.bot_tf)]

/-- `fin.py:196-249`: the leading edge.  `find` stands for `round(scipy.optimize.bisect(f, 0, 1), 6)`. -/
noncomputable def leadingEdge (find : (ℝ → Res ℝ) → Res ℝ) (ptan : ℝ → ℝ) (a : Args) (line : PathObj) :
    Res (List (String × Surf)) := do
  let top := OffsetPathFunction line a.top_tf
  let bot := OffsetPathFunction line a.bot_tf
  let mean := GeometricMeanPathFunction top bot
  let tB1 ← find fun t => do let p ← line.call t; return p.x - a.p2.x
  return [("LE_top_patch_0", MeanLeadingEdgePatchFunction ptan mean top a.LE_wf 0 tB1 "top"),
    ("LE_top_patch_1", MeanLeadingEdgePatchFunction ptan mean top a.LE_wf tB1 1 "top"),
    ("LE_bot_patch_0", MeanLeadingEdgePatchFunction ptan mean bot a.LE_wf 0 tB1 "bot"),
    ("LE_bot_patch_1", MeanLeadingEdgePatchFunction ptan mean bot a.LE_wf tB1 1 "bot")]

/-- Half the thickness as a vector, `Vector3(0, 0, fin_thickness / 2)`. -/
noncomputable def half (a : Args) : V := ⟨0, 0, a.fin_thickness / 2⟩

/-- `fin.py:251-310`: the bottom face. -/
noncomputable def bottom (ptan : ℝ → ℝ) (a : Args) : Res (List (String × Surf)) := do
  let p0 := a.p0
  let p3 := a.p3
  let ht := half a
  let tt ← a.top_tf p3.x p3.y 0
  let tb ← a.bot_tf p3.x p3.y 0
  let lt ← a.LE_wf 1
  let lb ← a.LE_wf 1
  let et ← ArcLengthParameterizedPath (ElipsePath ptan p3 tt.z lt "top")
  let eb ← ArcLengthParameterizedPath (ElipsePath ptan p3 tb.z lb "bot")
  let p3p3_top := Line (p3 - ht) p3
  let p3p3_bot := Line p3 (p3 + ht)
  let ell ← CoonsPatch p3p3_bot eb et p3p3_top
  let bot1 ← CoonsPatch (Line (p3 - ht) (p0 - ht)) (Line p0 (p0 - ht)) (Line p3 p0) (ReversedPath p3p3_top)
  let bot2 ← CoonsPatch (Line p3 p0) (Line (p0 + ht) p0) (Line (p3 + ht) (p0 + ht)) (ReversedPath p3p3_bot)
  return [("bot_ellip", RotatedPatch ell (-90 * Real.pi / 180) "z" p3), ("bot_1", bot1), ("bot_2", bot2)]

/-- `fin.py:315-408`: the sharp trailing edge. -/
noncomputable def sharpTE (ptan : ℝ → ℝ) (a : Args) : Res (List (String × Surf)) := do
  let p0 := a.p0
  let p1 := a.p1
  let ht := half a
  let top ← TrailingEdgePatch p0 p1 (TrailingEdgePath p0 p1 a.top_tf) a.rudder_length a.rudder_angle "top"
  let bot ← TrailingEdgePatch p0 p1 (TrailingEdgePath p0 p1 a.bot_tf) a.rudder_length a.rudder_angle "bot"
  let tt ← a.top_tf p1.x p1.y 0
  let tb ← a.bot_tf p1.x p1.y 0
  let lt ← a.LE_wf 0
  let lb ← a.LE_wf 0
  let et ← ArcLengthParameterizedPath (ElipsePath ptan p1 tt.z lt "top")
  let eb ← ArcLengthParameterizedPath (ElipsePath ptan p1 tb.z lb "bot")
  let tip : V := ⟨p1.x - a.rudder_length, p1.y, a.rudder_length * Real.sin a.rudder_angle⟩
  let ell ← CoonsPatch eb (Line tip ⟨p1.x, p1.y, tb.z⟩) (Line ⟨p1.x, p1.y, tt.z⟩ tip) et
  let TE : V := ⟨p0.x - a.rudder_length, p0.y, a.rudder_length * Real.sin a.rudder_angle⟩
  let tri ← CoonsPatch (Line TE (p0 + ht)) (Line p0 (p0 + ht)) (Line (p0 - ht) p0) (Line (p0 - ht) TE)
  return [("TE_top", top), ("TE_bot", bot), ("TE_ellipse", ell), ("TE_triangle", tri)]

/-- `fin.py:410-463`: the flat trailing edge. -/
noncomputable def flatTE (ptan : ℝ → ℝ) (a : Args) : Res (List (String × Surf)) := do
  let p0 := a.p0
  let p1 := a.p1
  let ht := half a
  let tt ← a.top_tf p1.x p1.y 0
  let tb ← a.bot_tf p1.x p1.y 0
  let lt ← a.LE_wf 0
  let lb ← a.LE_wf 0
  let et ← ArcLengthParameterizedPath (ElipsePath ptan p1 tt.z lt "top")
  let eb ← ArcLengthParameterizedPath (ElipsePath ptan p1 tb.z lb "bot")
  let p1p1_top := Line p1 (p1 - ht)
  let p1_botp1 := Line (p1 + ht) p1
  let ell ← CoonsPatch p1p1_top (SubRangedPath et 1 0) (SubRangedPath eb 1 0) p1_botp1
  let b1 ← CoonsPatch (Line (p0 - ht) (p1 - ht)) p1p1_top (Line p0 p1) (Line p0 (p0 - ht))
  let b2 ← CoonsPatch (Line p0 p1) p1_botp1 (Line (p0 + ht) (p1 + ht)) (Line (p0 + ht) p0)
  return [("TE_ellip", ell), ("TE_1", b1), ("TE_2", b2)]

/-- `fin.py:312-463`: the trailing edge. -/
noncomputable def trailingEdge (ptan : ℝ → ℝ) (a : Args) : Res (List (String × Surf)) :=
  if a.rudder_type = "sharp" then sharpTE ptan a else flatTE ptan a

/-- `fin.py:153-463`: the fin before it is placed. -/
noncomputable def unplaced (find : (ℝ → Res ℝ) → Res ℝ) (ptan : ℝ → ℝ) (a : Args) : Res (List (String × Surf)) := do
  let line ← Polyline [Line a.p1 a.p2, Line a.p2 a.p3]
  let s ← skins a
  let le ← leadingEdge find ptan a line
  let b ← bottom ptan a
  let te ← trailingEdge ptan a
  return s ++ le ++ b ++ te

/-- `fin.py:465-491`: pivot, rotation and offset of one patch.  Simplified: `params` always has the key `pivot_angle`, as the
constructor sets it; Python applies each step to all patches in turn, which is the same since the patches are independent. -/
noncomputable def place (a : Args) (p : Surf) : Surf :=
  let p1 := RotatedPatch p a.pivot_angle "y" a.pivot_point
  let p2 := RotatedPatch p1 a.fin_angle
  match a.offset_func with
  | none => p2
  | some f => OffsetPatchFunction p2 f

/-- `fin.py:153-494` `generate_patches`; nothing is assigned if an exception occurs. -/
noncomputable def out (find : (ℝ → Res ℝ) → Res ℝ) (ptan : ℝ → ℝ) (a : Args) : GenOut :=
  match unplaced find ptan a with
  | .ok l => ⟨l.map fun e => (e.1, place a e.2), [], [], none⟩
  | .error e => ⟨[], [], [], some e⟩

/-- A new fin component. -/
noncomputable def comp (find : (ℝ → Res ℝ) → Res ℝ) (ptan : ℝ → ℝ) (a : Args) (res : ℕ := 2) (name : Option String := none) :
    Comp :=
  { componenttype := "fin", gen := .replace fun _ => out find ptan a, stl_resolution := .int res, name := name }

end Fin

/-- `common.py:19-26` `uniform_thickness_function`. -/
noncomputable def uniformThickness (thickness : ℝ) (side : String) : OffFn :=
  fun _ _ _ => .ok ⟨0, 0, (if side = "top" then -1 else 1) * thickness / 2⟩

/-- `common.py:29-47` `circle_patch`. -/
noncomputable def circlePatch (centre : V) (r : ℝ) : Res Surf :=
  let c := r * Real.cos (Real.pi / 4)
  let s := r * Real.sin (Real.pi / 4)
  let tr : V := ⟨centre.x + c, centre.y + s, 0⟩
  let tl : V := ⟨centre.x - c, centre.y + s, 0⟩
  let br : V := ⟨centre.x + c, centre.y - s, 0⟩
  let bl : V := ⟨centre.x - c, centre.y + -r * Real.sin (Real.pi / 4), 0⟩
  CoonsPatch (Arc tl tr centre) (Arc br tr centre) (Arc bl br centre) (Arc bl tl centre)

namespace Ogive

/-- `common.py:83-86`: the derived dimensions `x_o`, `y_t`, `x_t`, `x_a`. -/
noncomputable def dims (h r_n r_o : ℝ) : Res (ℝ × ℝ × ℝ × ℝ) := do
  let q ← psqrt ((r_o - r_n) ^ 2 - (r_o - h) ^ 2)
  let x_o := -q
  let y_t ← pdiv (r_n * (r_o - h)) (r_o - r_n)
  let q' ← psqrt (r_n ^ 2 - y_t ^ 2)
  let x_t := x_o - q'
  let x_a := x_o - r_n
  return (x_o, y_t, x_t, x_a)

/-- `common.py:88-108`: the segments of the revolve line. -/
noncomputable def segments (h r_n r_o L_o : ℝ) : Res (List PathObj) := do
  let (x_o, y_t, x_t, x_a) ← dims h r_n r_o
  let a_o : V := ⟨-x_t, y_t, 0⟩
  let b_o : V := ⟨0, h, 0⟩
  let c_o : V := ⟨0, -r_o + h, 0⟩
  let a_n : V := ⟨-x_a, 0, 0⟩
  let c_n : V := ⟨-x_o, 0, 0⟩
  let f1 := b_o - (⟨L_o, 0, 0⟩ : V)
  let fb1 : V := ⟨f1.x, 0, 0⟩
  return [Arc a_n a_o c_n, Arc a_o b_o c_o, Line b_o f1, Line f1 fb1]

/-- `common.py:110`: the revolve line. -/
noncomputable def line (h r_n r_o L_o : ℝ) : Res PathObj := do
  let segs ← segments h r_n r_o L_o
  Polyline segs

/-- `common.py:49-114` `OgiveNose`. -/
noncomputable def comp (h r_n r_o L_o : ℝ) (res : ℕ := 3) (name : Option String := none) : Res Comp := do
  let l ← line h r_n r_o L_o
  return RevolvedComponent l res name

end Ogive

end HV
