import Verif.Model.Component

/-!
# Structured grids of a component

Modelled: `components/component.py`, methods `grid` and `to_vtk`.
-/

namespace HV.Comp

/-- `component.py:251-257` `grid`.  For the first patch `self.vtk_resolution` is read, an attribute no class of the package sets (and
`self.grids`, `None` since `component.py:106`, would not accept the assignment either). -/
def grid (c : Comp) : Res Unit × Comp :=
  match c.patches with
  | [] => (.ok (), c)
  | _ :: _ => (.error .attr, c)

/-- `component.py:308-312` `to_vtk`. -/
def toVtk (c : Comp) : Res Unit × Comp := (.error .notImpl, c)

end HV.Comp
