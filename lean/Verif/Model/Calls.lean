import Verif.Model.Vehicle

/-!
# Sequences of calls of the API

A user's script is a sequence of calls on one vehicle and its components; a call that raises is caught and the script
goes on with the state reached.
-/

namespace HV.Veh

/-- One call of the API on the vehicle or on one of its composite components. -/
inductive Call
  /-- `vehicle.py:67-71` `configure(name, verbosity)` -/
  | configure (name : Option String) (verbosity : ℤ)
  /-- `vehicle.py:73-198` `add_component` -/
  | add (id : ℕ) (o : AddOpts)
  /-- `composite.py:48-119` `add_component` of a composite -/
  | addChild (self child : ℕ) (o : AddOpts)
  /-- `vehicle.py:245-267` `add_vehicle_transformations` -/
  | later (t : TransfArg)
  /-- `vehicle.py:269-282` `analyse_after_generating` -/
  | analyseLater (densities : Dict String ℝ)
  /-- `vehicle.py:482-486` `add_property` -/
  | property (name : String) (value : ℝ)
  /-- `vehicle.py:200-243` `generate` -/
  | generate
  /-- `vehicle.py:284-302` `transform` -/
  | transform (t : TransfArg)
  /-- `vehicle.py:424-480` `analyse` -/
  | analyse (densities : Dict String ℝ)
  /-- `vehicle.py:304-422` `to_stl` -/
  | toStl (pre : Option String) (merge : MergeArg)

/-- What the caller sees of one call: the exception or returned value (an analysis for `analyse`, nothing otherwise) and
the effects on the file system. -/
structure Outcome where
  result : Res (Option Analysis)
  events : List FsEv

/-- The outcome of a call that returns nothing and writes nothing. -/
def silent (r : Res Unit) : Outcome := ⟨match r with | .ok _ => .ok none | .error e => .error e, []⟩

/-- Executing one call.  `depth` bounds nested calls of `analyse` (see `Veh.analyse`). -/
noncomputable def exec (lib : Lib) (depth : ℕ) (st : VState) : Call → Outcome × VState
  | .configure n v => (silent (.ok ()), ⟨st.heap, st.veh.configure n v⟩)
  | .add id o => (silent (addComponent st id o).1, (addComponent st id o).2)
  | .addChild self child o =>
    (silent (Composite.addComponent st.heap self child o).1, ⟨(Composite.addComponent st.heap self child o).2, st.veh⟩)
  | .later t => (silent (.ok ()), ⟨st.heap, st.veh.addVehicleTransformations t⟩)
  | .analyseLater d => (silent (.ok ()), ⟨st.heap, st.veh.analyseAfterGenerating d⟩)
  | .property n x => (silent (.ok ()), ⟨st.heap, st.veh.addProperty n x⟩)
  | .generate => (silent (Veh.generate lib depth st).1, (Veh.generate lib depth st).2)
  | .transform t => (silent (Veh.transform st t).1, (Veh.transform st t).2)
  | .analyse d => (⟨match (Veh.analyse lib depth st d).1 with | .ok a => .ok (some a) | .error e => .error e, []⟩,
      (Veh.analyse lib depth st d).2)
  | .toStl p m => (⟨match (Veh.toStl st p m).1 with | .ok _ => .ok none | .error e => .error e, (Veh.toStl st p m).2.1⟩,
      (Veh.toStl st p m).2.2)

/-- Executing calls in turn. -/
noncomputable def execAll (lib : Lib) (depth : ℕ) (st : VState) : List Call → List Outcome × VState
  | [] => ([], st)
  | c :: cs => ((exec lib depth st c).1 :: (execAll lib depth (exec lib depth st c).2 cs).1,
      (execAll lib depth (exec lib depth st c).2 cs).2)

end HV.Veh
