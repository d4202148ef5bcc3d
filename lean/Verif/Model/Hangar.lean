import Verif.Model.Leaf
import Verif.Model.Vehicle
import Verif.Model.Sensitivity

/-!
# `hangar/wedge.py`, `hangar/falcon9.py`, `hangar/finner.py`
-/

namespace HV
namespace Wedge

/-- `wedge.py:8-12`: the attributes set before `super().__init__`. -/
noncomputable def defaults : Dict String ℝ := [("wingspan", 1), ("chord", 1), ("thickness", 0.1)]

/-- `wedge.py:37-58`: the cross section at height `z_loc`.  Vectors are added before the lines are built. -/
noncomputable def section_ (chord thickness z_loc : ℝ) : List PathObj :=
  let NW : V := ⟨0, 0.5 * thickness, 0⟩
  let NE : V := ⟨-0.5 * chord, 0, 0⟩
  let SE : V := ⟨0, -0.5 * thickness, 0⟩
  let SW : V := ⟨0.5 * chord, 0, 0⟩
  let axial_shift : V := ⟨0, 0, z_loc⟩
  [Line (NW + axial_shift) (NE + axial_shift), Line (NE + axial_shift) (SE + axial_shift),
   Line (SE + axial_shift) (SW + axial_shift), Line (SW + axial_shift) (NW + axial_shift)]

/-- `wedge.py:46-59`: the two sections. -/
noncomputable def sections (wingspan chord thickness : ℝ) : List (List PathObj) :=
  [-1, 1].map fun i => section_ chord thickness (0.5 * i * wingspan)

/-- `wedge.py:17-67` `create_instance` of a generator with attributes `attrs`.  `id` is the identity of the new component,
whose place in the heap is overwritten.  Attributes are numbers; a missing attribute raises. -/
noncomputable def createInstance (h : Heap) (id : ℕ) (attrs : Dict String ℝ) : Res VState := do
  let attr (k : String) : Res ℝ := match attrs.get? k with | some v => .ok v | none => .error .attr
  let thickness ← attr "thickness"
  let chord ← attr "chord"
  let wingspan ← attr "wingspan"
  let fuselage ← Swept.init (sections wingspan chord thickness) true (.int 10)
  match Veh.addComponent ⟨h.upd id fuselage, ({} : Veh).configure (some "Wedge") 1⟩ id {} with
  | (.ok _, st) => .ok st
  | (.error e, _) => .error e

/-- `hangar/wedge.py` `ParametricWedge(**kwargs).create_instance()`.  A keyword argument named like a method is not modelled. -/
noncomputable def instanceOf (h : Heap) (id : ℕ) (kwargs : Dict String ℝ) : Res VState :=
  createInstance h id (Generator.init defaults kwargs)

end Wedge

/-- `self.<k>` of a generator with numeric attributes. -/
def attrOf (attrs : Dict String ℝ) (k : String) : Res ℝ :=
  match attrs.get? k with
  | some v => .ok v
  | none => .error .attr

/-- Adding components to a vehicle one after the other. -/
def addAll (st : VState) : List (ℕ × AddOpts) → Res VState
  | [] => .ok st
  | (id, o) :: l => match Veh.addComponent st id o with
    | (.ok _, st') => addAll st' l
    | (.error e, _) => .error e

namespace Falcon9

/-- `falcon9.py:18-23`: the attributes set before `super().__init__`. -/
noncomputable def defaults : Dict String ℝ :=
  [("D", 3.75), ("L_b", 60), ("h", 5 / 2), ("r_n", 0.75), ("r_o", 7), ("f_L", 6)]

/-- `np.sqrt`.  Simplified: for a negative number the code goes on with `nan`, the model raises. -/
noncomputable def npSqrt (x : ℝ) : Res ℝ := if x < 0 then .error .value else .ok (Real.sqrt x)

/-- `falcon9.py:37-69`: the line revolved for the fairing. -/
noncomputable def fairingLine (D h r_n r_o f_L : ℝ) : Res PathObj := do
  let x_o := -(← npSqrt ((r_o - r_n) ^ 2 - (r_o - h) ^ 2))
  let y_t ← pdiv (r_n * (r_o - h)) (r_o - r_n)
  let x_t := x_o - (← npSqrt (r_n ^ 2 - y_t ^ 2))
  let x_a := x_o - r_n
  let a_o : V := ⟨-x_t, y_t, 0⟩
  let b_o : V := ⟨0, h, 0⟩
  let c_o : V := ⟨0, -r_o + h, 0⟩
  let ogive_arc := Arc a_o b_o c_o
  let a_n : V := ⟨-x_a, 0, 0⟩
  let c_n : V := ⟨-x_o, 0, 0⟩
  let nose_arc := Arc a_n a_o c_n
  let f1 : V := b_o - ⟨f_L, 0, 0⟩
  let r_b := D / 2
  let fb1 : V := ⟨f1.x - 0.1 * f_L, r_b, 0⟩
  let fb2 : V := ⟨f1.x - 0.3 * f_L, 0, 0⟩
  let fb_line ← Polyline [Line f1 fb1, Line fb1 fb2]
  Polyline [nose_arc, ogive_arc, Line b_o f1, fb_line]

/-- `falcon9.py:55-86`: the line revolved for the body. -/
noncomputable def bodyLine (D L_b h f_L : ℝ) : Res PathObj :=
  let f1 : V := (⟨0, h, 0⟩ : V) - ⟨f_L, 0, 0⟩
  let r_b := D / 2
  let b00 : V := ⟨f1.x, 0, 0⟩
  let b0 : V := ⟨f1.x, r_b, 0⟩
  let b1 : V := b0 - ⟨L_b, 0, 0⟩
  let bb1 : V := ⟨b1.x, 0, 0⟩
  Polyline [Line b00 b0, Line b0 b1, Line b1 bb1]

/-- `falcon9.py:28-91` `create_instance`; `id1`, `id2` are the identities of the new components. -/
noncomputable def createInstance (hp : Heap) (id1 id2 : ℕ) (attrs : Dict String ℝ) : Res VState := do
  let r_o ← attrOf attrs "r_o"
  let r_n ← attrOf attrs "r_n"
  let h ← attrOf attrs "h"
  let f_L ← attrOf attrs "f_L"
  let D ← attrOf attrs "D"
  let fairing ← fairingLine D h r_n r_o f_L
  let L_b ← attrOf attrs "L_b"
  let body ← bodyLine D L_b h f_L
  addAll ⟨(hp.upd id1 (RevolvedComponent fairing 100)).upd id2 (RevolvedComponent body 50),
    ({} : Veh).configure (some "SpaceX Falcon 9") 1⟩ [(id1, {}), (id2, {})]

/-- `ParametricFalcon9(**kwargs).create_instance()`. -/
noncomputable def instanceOf (hp : Heap) (id1 id2 : ℕ) (kwargs : Dict String ℝ) : Res VState :=
  createInstance hp id1 id2 (Generator.init defaults kwargs)

end Falcon9

namespace Finner

/-- `finner.py:43-48`: the attributes set before `super().__init__`. -/
noncomputable def defaults : Dict String ℝ :=
  [("diameter", 1), ("total_length", 10), ("nose_length", 2.84), ("fin_height", 1), ("fin_length", 1), ("max_fin_thickness", 0.08)]

/-- The attributes as numbers. -/
structure Params where
  diameter : ℝ
  total_length : ℝ
  nose_length : ℝ
  fin_height : ℝ
  fin_length : ℝ
  max_fin_thickness : ℝ

/-- Reading the attributes, in the order of their use. -/
def Params.of (attrs : Dict String ℝ) : Res Params := do
  let nose_length ← attrOf attrs "nose_length"
  let diameter ← attrOf attrs "diameter"
  let total_length ← attrOf attrs "total_length"
  let fin_length ← attrOf attrs "fin_length"
  let max_fin_thickness ← attrOf attrs "max_fin_thickness"
  let fin_height ← attrOf attrs "fin_height"
  return ⟨diameter, total_length, nose_length, fin_height, fin_length, max_fin_thickness⟩

/-- `finner.py:62-64`: key points. -/
noncomputable def noseBase (p : Params) : V := (⟨0, 0, 0⟩ : V) + ⟨p.nose_length, p.diameter / 2, 0⟩
noncomputable def rocketBase (p : Params) : V := (⟨0, 0, 0⟩ : V) + ⟨p.total_length, p.diameter / 2, 0⟩

/-- `finner.py:67-71`: the three revolved lines. -/
noncomputable def noseLine (p : Params) : PathObj := Line ⟨0, 0, 0⟩ (noseBase p)
noncomputable def fuselageLine (p : Params) : PathObj := Line (noseBase p) (rocketBase p)
noncomputable def baseLine (p : Params) : PathObj := Line (rocketBase p) (rocketBase p - ⟨0, (rocketBase p).y, 0⟩)

/-- `finner.py:85-97`: the two cross sections of the fin. -/
noncomputable def finSections (p : Params) : List (List PathObj) :=
  let a : V := ⟨0, p.fin_length, 0⟩
  let b : V := ⟨0, 0, 0⟩
  let c : V := ⟨-0.5 * p.max_fin_thickness, 0, 0⟩
  let d : V := ⟨0.5 * p.max_fin_thickness, 0, 0⟩
  let cs : List (V × V) := [(a, d), (d, b), (b, c), (c, a)]
  [cs.map fun l => Line l.1 l.2, cs.map fun l => Line.add l.1 l.2 ⟨0, 0, p.fin_height⟩]

/-- `finner.py:102-106` and `111-112`: the transformations of fin number `i`. -/
noncomputable def finTransf (p : Params) (i : ℕ) : List Transf :=
  [.rotate 90 "z", .translate (.vector ⟨p.total_length, 0, p.diameter / 2⟩), .rotate ((i : ℝ) * 90) "x"]

/-- `finner.py:74-79`: the composite and its children on the heap; `ids 0` is the composite, `ids 1 .. ids 3` the children. -/
noncomputable def fuselageHeap (h : Heap) (ids : ℕ → ℕ) (p : Params) : Heap :=
  (((h.upd (ids 1) (RevolvedComponent (noseLine p))).upd (ids 2) (RevolvedComponent (fuselageLine p))).upd (ids 3)
    (RevolvedComponent (baseLine p))).upd (ids 0)
    { componenttype := "composite", gen := .composite [], stl_resolution := .int 8, name := some "fuselage" }

/-- Adding components to a composite one after the other, without options. -/
def addChildren (h : Heap) (self : ℕ) : List ℕ → Res Heap
  | [] => .ok h
  | k :: ks => match Composite.addComponent h self k {} with
    | (.ok _, h') => addChildren h' self ks
    | (.error e, _) => .error e

/-- `finner.py:53-117` `create_instance`.  `ids 4 .. ids 7` are the deep copies of the fin, which are new objects equal to the
fin (C55); the fin itself is not part of the vehicle. -/
noncomputable def createInstance (h : Heap) (ids : ℕ → ℕ) (attrs : Dict String ℝ) : Res VState := do
  let p ← Params.of attrs
  let h1 ← addChildren (fuselageHeap h ids p) (ids 0) [ids 1, ids 2, ids 3]
  let fin ← Swept.init (finSections p) true (.int 4)
  let h2 := (List.range 4).foldl (fun h i => h.upd (ids (4 + i)) fin) h1
  addAll ⟨h2, ({} : Veh).configure (some "Finner") 1⟩ ((ids 0, {}) :: (List.range 4).map fun i =>
    (ids (4 + i), { transformations := some (finTransf p i), name := some ("fin_" ++ toString (i + 1)) }))

/-- `ParametricFinner(**kwargs).create_instance()`. -/
noncomputable def instanceOf (h : Heap) (ids : ℕ → ℕ) (kwargs : Dict String ℝ) : Res VState :=
  createInstance h ids (Generator.init defaults kwargs)

end Finner
end HV
