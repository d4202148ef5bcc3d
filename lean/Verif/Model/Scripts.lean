import Verif.Model.Vehicle

/-!
# The scripts of the hangar
-/

namespace HV
open Veh

/-- `hangar/d21.py:229-230` and the same lines of `falcon9.py`, `finner.py`, `hifire4.py`, `hifire8.py`, `htv.py`, `waverider.py`, `wedge.py` and
`x43.py`: the vehicle of the generator is generated and written. -/
noncomputable def Veh.save (lib : Lib) (depth : ℕ) (pre : Option String) (merge : MergeArg) (st : VState) : Res Unit × List FsEv × VState :=
  match generate lib depth st with
  | (.error x, st') => (.error x, [], st')
  | (.ok _, st') => toStl st' pre merge

/-- `hangar/refex.py:309-311`: the vehicle of the generator is generated, transformed and written. -/
noncomputable def ReFEX.main (lib : Lib) (depth : ℕ) (st : VState) : Res Unit × List FsEv × VState :=
  match generate lib depth st with
  | (.error x, st') => (.error x, [], st')
  | (.ok _, st') =>
    match transform st' (.many CART3D) with
    | (.error x, st'') => (.error x, [], st'')
    | (.ok _, st'') => toStl st'' (some "refex") (.bool false)

end HV
