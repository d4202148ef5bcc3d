import Verif.Lemmas.Assembly
import Verif.Lemmas.Bisect
import Verif.Lemmas.BisectEnd
import Verif.Lemmas.Broken
import Verif.Lemmas.ConvexFaces
import Verif.Lemmas.CubicEdge
import Verif.Lemmas.D21Edge
import Verif.Lemmas.D21Line
import Verif.Lemmas.D21Parts
import Verif.Lemmas.D21Spike
import Verif.Lemmas.D21Wing
import Verif.Lemmas.Dict
import Verif.Lemmas.Ellipse
import Verif.Lemmas.EllipseArc
import Verif.Lemmas.FinBounds
import Verif.Lemmas.FinParts
import Verif.Lemmas.FiniteDiff
import Verif.Lemmas.Flux
import Verif.Lemmas.GenerateTotal
import Verif.Lemmas.Glued
import Verif.Lemmas.GluedFin
import Verif.Lemmas.GluedWing
import Verif.Lemmas.Grid
import Verif.Lemmas.MeshLimit
import Verif.Lemmas.MeshVertex
import Verif.Lemmas.Moved
import Verif.Lemmas.Name
import Verif.Lemmas.Panels
import Verif.Lemmas.Planform
import Verif.Lemmas.PolylineRun
import Verif.Lemmas.Quads
import Verif.Lemmas.RectFin
import Verif.Lemmas.RefexParts
import Verif.Lemmas.Reflected
import Verif.Lemmas.Res
import Verif.Lemmas.RevolvedEnds
import Verif.Lemmas.Scale
import Verif.Lemmas.ScaleComp
import Verif.Lemmas.ScaleParts
import Verif.Lemmas.SphereMap
import Verif.Lemmas.Str
import Verif.Lemmas.Vec
import Verif.Lemmas.VehicleFrame
import Verif.Lemmas.Volume
import Verif.Lemmas.Watertight
import Verif.Lemmas.WaveriderBody
import Verif.Lemmas.WaveriderParts
import Verif.Lemmas.WingBounds
import Verif.Lemmas.WingClose
import Verif.Lemmas.WingGrid
import Verif.Lemmas.WingParts
import Verif.Model.Bisect
import Verif.Model.Calls
import Verif.Model.Component
import Verif.Model.Copy
import Verif.Model.Delaunay
import Verif.Model.Examples
import Verif.Model.Geometry
import Verif.Model.Grid
import Verif.Model.GridText
import Verif.Model.Hangar
import Verif.Model.Hangar2
import Verif.Model.Hangar3
import Verif.Model.Hangar4
import Verif.Model.Hangar5
import Verif.Model.Hangar6
import Verif.Model.Hangar7
import Verif.Model.Hangar8
import Verif.Model.Leaf
import Verif.Model.Mesh
import Verif.Model.Path
import Verif.Model.PathText
import Verif.Model.Py
import Verif.Model.Results
import Verif.Model.Scripts
import Verif.Model.Sensitivity
import Verif.Model.Storage
import Verif.Model.Structured
import Verif.Model.Studies
import Verif.Model.Surface
import Verif.Model.Text
import Verif.Model.Tools
import Verif.Model.Vec
import Verif.Model.Vehicle
import Verif.Model.Wing
import Verif.Props.AffineSweep
import Verif.Props.Arc
import Verif.Props.ArcLength
import Verif.Props.AreaError
import Verif.Props.AreaLimit
import Verif.Props.BentFin
import Verif.Props.Bezier
import Verif.Props.BezierVolume
import Verif.Props.BodyArea
import Verif.Props.Check
import Verif.Props.CheckFalcon
import Verif.Props.Clustering
import Verif.Props.Combined
import Verif.Props.Common
import Verif.Props.CompareMeshes
import Verif.Props.Component
import Verif.Props.Composite
import Verif.Props.Convergence
import Verif.Props.Coons
import Verif.Props.CoonsInit
import Verif.Props.Copy
import Verif.Props.Cover
import Verif.Props.Curved
import Verif.Props.D21
import Verif.Props.D21Size
import Verif.Props.Declared
import Verif.Props.DeclaredHtv
import Verif.Props.DeclaredRefex
import Verif.Props.DeclaredUsed
import Verif.Props.DeclaredX43
import Verif.Props.Degenerate
import Verif.Props.DegenerateHexa
import Verif.Props.DegenerateWing
import Verif.Props.Delaunay
import Verif.Props.Densities
import Verif.Props.Derivatives
import Verif.Props.Design
import Verif.Props.Edges
import Verif.Props.Examples
import Verif.Props.Extrusion
import Verif.Props.Failure
import Verif.Props.Falcon9
import Verif.Props.Fin
import Verif.Props.FinClosed
import Verif.Props.FinRect
import Verif.Props.FinRects
import Verif.Props.FinSize
import Verif.Props.FinSizes
import Verif.Props.Finner
import Verif.Props.FinnerCheck
import Verif.Props.FinnerMass
import Verif.Props.FinnerStudy
import Verif.Props.Flaps
import Verif.Props.FlatEdge
import Verif.Props.FlatSize
import Verif.Props.GridText
import Verif.Props.HangarDetails
import Verif.Props.Hifire4
import Verif.Props.Hifire4Fins
import Verif.Props.Hifire8
import Verif.Props.Hifire8Nose
import Verif.Props.Hifire8Size
import Verif.Props.Htv
import Verif.Props.HtvSize
import Verif.Props.Inertia
import Verif.Props.InertiaExact
import Verif.Props.InertiaLimit
import Verif.Props.Joined
import Verif.Props.Length
import Verif.Props.MassProps
import Verif.Props.Merge
import Verif.Props.Mesh
import Verif.Props.Mirror
import Verif.Props.MirrorPair
import Verif.Props.MirrorWedge
import Verif.Props.Motion
import Verif.Props.MovedMass
import Verif.Props.Nested
import Verif.Props.OneBody
import Verif.Props.Order
import Verif.Props.PassCheck
import Verif.Props.PatchText
import Verif.Props.Patches
import Verif.Props.PathText
import Verif.Props.PathsGeom
import Verif.Props.Physical
import Verif.Props.PhysicalFalcon
import Verif.Props.PhysicalFinner
import Verif.Props.PhysicalRevolved
import Verif.Props.Polygon
import Verif.Props.PolygonVolume
import Verif.Props.Polyline
import Verif.Props.Properties
import Verif.Props.Recorded
import Verif.Props.Refex
import Verif.Props.RefexSize
import Verif.Props.Regenerate
import Verif.Props.Repair
import Verif.Props.Results
import Verif.Props.Revolved
import Verif.Props.RevolvedComposite
import Verif.Props.RevolvedEnds
import Verif.Props.RevolvedVolume
import Verif.Props.Rigid
import Verif.Props.Roberts
import Verif.Props.ScalarFiles
import Verif.Props.ScalarSens
import Verif.Props.SensCsv
import Verif.Props.Sensitivity
import Verif.Props.Settings
import Verif.Props.Similar
import Verif.Props.SimilarHangar
import Verif.Props.SimilarHangar2
import Verif.Props.SimilarWaverider
import Verif.Props.Size
import Verif.Props.SizeRevolved
import Verif.Props.Spline
import Verif.Props.Storage
import Verif.Props.Structured
import Verif.Props.Studies
import Verif.Props.StudyOk
import Verif.Props.Sweep
import Verif.Props.Swept
import Verif.Props.Symmetric
import Verif.Props.SymmetricFalcon
import Verif.Props.Text
import Verif.Props.Tri
import Verif.Props.TriStudy
import Verif.Props.Vec
import Verif.Props.Vehicle
import Verif.Props.VehicleFiles
import Verif.Props.VehicleGen
import Verif.Props.Verbosity
import Verif.Props.VolumeError
import Verif.Props.Waverider
import Verif.Props.WaveriderAngle
import Verif.Props.WaveriderMass
import Verif.Props.WaveriderScript
import Verif.Props.WaveriderShape
import Verif.Props.WaveriderSize
import Verif.Props.Wedge
import Verif.Props.WedgeStudy
import Verif.Props.Wing
import Verif.Props.WingClosed
import Verif.Props.WingSize
import Verif.Props.WingSizes
import Verif.Props.X43
import Verif.Props.X43Fins
import Verif.Props.X43Inlet
import Verif.Props.X43Size
import Verif.Spec.Component
import Verif.Spec.Euclid
import Verif.Spec.Mesh
import Verif.Spec.Rigid
