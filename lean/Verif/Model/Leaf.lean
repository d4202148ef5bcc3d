import Verif.Model.Component

/-!
# `components/swept.py`, `components/revolved.py`, `components/polygon.py`
-/

namespace HV

/-- One assignment made by a `generate_patches` method; the right-hand side may raise. -/
inductive GenStep
  | patch (name : String) (value : Res Surf)
  | resR (name : String) (value : Res ℕ)
  | resS (name : String) (value : Res ℕ)

/-- Executing assignments in order until one raises. -/
def runSteps : List GenStep → GenOut
  | [] => ⟨[], [], [], none⟩
  | .patch k (.ok v) :: l => { runSteps l with items := (k, v) :: (runSteps l).items }
  | .resR k (.ok v) :: l => { runSteps l with resR := (k, v) :: (runSteps l).resR }
  | .resS k (.ok v) :: l => { runSteps l with resS := (k, v) :: (runSteps l).resS }
  | .patch _ (.error e) :: _ => ⟨[], [], [], some e⟩
  | .resR _ (.error e) :: _ => ⟨[], [], [], some e⟩
  | .resS _ (.error e) :: _ => ⟨[], [], [], some e⟩

namespace Swept

/-- `swept.py:59-65`: the test of one joint of a cross section.  `ip` is the index of the next edge. -/
noncomputable def checkJoint (cs : List PathObj) (i : ℕ) : Res Unit := do
  let ip := if i + 1 < cs.length then i + 1 else 0
  let ei ← SweptPatch.getIdx cs i
  let p1 ← ei.call 1
  let ep ← SweptPatch.getIdx cs ip
  let p0 ← ep.call 0
  if |p0.x - p1.x| > 1e-12 ∨ |p0.y - p1.y| > 1e-12 ∨ |p0.z - p1.z| > 1e-12 then throw .exc
  return ()

/-- `swept.py:45-70`: the tests of one cross section. -/
noncomputable def checkSection (n_edges : ℕ) (cs : List PathObj) : Res Unit := do
  if cs.length ≠ n_edges then throw .exc
  (List.range cs.length).forM (checkJoint cs)

/-- `swept.py:77-86`: the test of a resolution dictionary. -/
def checkRes (close_ends : Bool) : Reso → Res Unit
  | .int _ => .ok ()
  | .dict d => if close_ends then do
      let e0 ← d.get "e0"
      let e2 ← d.get "e2"
      let e1 ← d.get "e1"
      let e3 ← d.get "e3"
      if e0 ≠ e2 ∨ e1 ≠ e3 then throw .exc
      return ()
    else .ok ()

/-- `swept.py:44-86` `_check_options`.  `close_ends` is a boolean. -/
noncomputable def checkOptions (sections : List (List PathObj)) (n_edges : ℕ) (close_ends : Bool) (res : Reso) : Res Unit := do
  sections.forM (checkSection n_edges)
  if close_ends ∧ n_edges ≠ 4 then throw .exc
  checkRes close_ends res

/-- `swept.py:96-101`, `112-117`, `126-131`: a resolution looked up under `key`. -/
def resOf (res : Reso) (key : String) : Res ℕ :=
  match res with
  | .int n => .ok n
  | .dict d => d.get key

/-- `swept.py:91-94`: the patch of edge number `ne`. -/
noncomputable def edgePatch (sections : List (List PathObj)) (ne : ℕ) : Res Surf := do
  let edges ← sections.mapM fun cs => SweptPatch.getIdx cs ne
  return SweptPatchfromEdges edges

/-- `swept.py:89-101`: the assignments for edge number `ne`. -/
noncomputable def edgeSteps (sections : List (List PathObj)) (res : Reso) (ne : ℕ) : List GenStep :=
  [.patch ("swept_patch_" ++ toString ne) (edgePatch sections ne),
   .resR ("swept_patch_" ++ toString ne) (resOf res "sweep"),
   .resS ("swept_patch_" ++ toString ne) (resOf res ("e" ++ toString ne))]

/-- `swept.py:104-111`: the front end patch. -/
noncomputable def frontPatch (sections : List (List PathObj)) : Res Surf := do
  let edges ← SweptPatch.getIdx sections 0
  let south ← SweptPatch.getIdx edges 0
  let east ← SweptPatch.getIdx edges 1
  let e2 ← SweptPatch.getIdx edges 2
  let e3 ← SweptPatch.getIdx edges 3
  CoonsPatch (ReversedPath e2) east south (ReversedPath e3)

/-- `swept.py:118-125`: the rear end patch. -/
noncomputable def rearPatch (sections : List (List PathObj)) : Res Surf := do
  let edges ← SweptPatch.getIdx sections (sections.length - 1)
  let e0 ← SweptPatch.getIdx edges 0
  let e3 ← SweptPatch.getIdx edges 3
  let north ← SweptPatch.getIdx edges 2
  let west ← SweptPatch.getIdx edges 1
  CoonsPatch north (ReversedPath e3) (ReversedPath e0) west

/-- `swept.py:103-131`: closing the ends. -/
noncomputable def endSteps (sections : List (List PathObj)) (res : Reso) : List GenStep :=
  [.patch "swept_patch_end_0" (frontPatch sections),
   .resR "swept_patch_end_0" (resOf res "e0"),
   .resS "swept_patch_end_0" (resOf res "e1"),
   .patch "swept_patch_end_1" (rearPatch sections),
   .resR "swept_patch_end_1" (resOf res "e0"),
   .resS "swept_patch_end_1" (resOf res "e1")]

/-- `swept.py:88-131` `generate_patches`. -/
noncomputable def steps (sections : List (List PathObj)) (n_edges : ℕ) (close_ends : Bool) (res : Reso) : List GenStep :=
  (List.range n_edges).flatMap (edgeSteps sections res) ++ if close_ends then endSteps sections res else []

/-- The attributes of a new swept component. -/
noncomputable def comp (sections : List (List PathObj)) (n_edges : ℕ) (close_ends : Bool) (res : Reso) (name : Option String) :
    Comp :=
  { componenttype := "swept", gen := .into fun res => runSteps (steps sections n_edges close_ends res),
    stl_resolution := res, name := name }

/-- `swept.py:11-42` `SweptComponent(...)`. -/
noncomputable def init (sections : List (List PathObj)) (close_ends : Bool) (res : Reso) (name : Option String := none) :
    Res Comp := do
  let first ← SweptPatch.getIdx sections 0
  checkOptions sections first.length close_ends res
  return comp sections first.length close_ends res name

end Swept

/-- `revolved.py:7-31` `RevolvedComponent`. -/
noncomputable def RevolvedComponent (line : PathObj) (res : ℕ := 4) (name : Option String := none) : Comp :=
  { componenttype := "revolved",
    gen := .into fun _ => runSteps ((List.range 4).map fun (i : ℕ) => .patch ("revolved_fuse_" ++ toString i)
      (.ok (RevolvedPatch line (i * Real.pi / 2) (((i : ℝ) + 1) * Real.pi / 2)))),
    stl_resolution := .int res, name := name }

/-- `polygon.py:32`, `62`. -/
def faceNames : List String := ["east", "west", "south", "north", "bottom", "top"]

/-- `polygon.py:7-34` `Cube`. -/
noncomputable def Cube (a : ℝ) (centre : V := ⟨0, 0, 0⟩) (res : ℕ := 2) (name : Option String := none) : Comp :=
  { componenttype := "cube",
    gen := .into fun _ => runSteps (faceNames.map fun f => .patch f (.ok (CubePatch a centre f))),
    stl_resolution := .int res, name := name }

/-- `polygon.py:37-65` `Sphere`. -/
noncomputable def Sphere (r : ℝ) (centre : V := ⟨0, 0, 0⟩) (res : ℕ := 2) (name : Option String := none) : Comp :=
  { componenttype := "sphere",
    gen := .into fun _ => runSteps (faceNames.map fun f => .patch f (.ok (SpherePatch r centre f))),
    stl_resolution := .int res, name := name }

end HV
