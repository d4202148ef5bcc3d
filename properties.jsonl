{"id": "C01", "title": "Vector3 arithmetic obeys the vector-space and inner-product laws", "statement": "For all vectors and scalars, +, -, unary -, * and / act component-wise and satisfy the vector space laws; abs(v)**2 == v.dot(v); cross_product(a,b) is orthogonal to a and b, anti-commutative and has squared magnitude |a|^2|b|^2-(a.b)^2; division by zero never yields a vector.", "quantifier": "every pair/triple of vectors and every scalar", "why_tests_cant": "The claim ranges over a continuum of inputs; a test samples finitely many of them and a wrong formula can agree on the samples.", "anchors": ["src/hypervehicle/geometry/vector.py:Vector3.__add__/__sub__/__mul__/__truediv__/__neg__/__abs__/dot", "src/hypervehicle/geometry/vector.py:cross_product"]}
{"id": "C02", "title": "Normalising keeps direction and gives unit length", "statement": "For every non-zero vector v, v.unit and v.normalize() give a vector of magnitude exactly 1 with v = |v| * result; for the zero vector no finite result is produced.", "quantifier": "every vector", "why_tests_cant": "The claim ranges over a continuum of inputs; a test samples finitely many of them and a wrong formula can agree on the samples.", "anchors": ["src/hypervehicle/geometry/vector.py:Vector3.unit", "src/hypervehicle/geometry/vector.py:Vector3.normalize"]}
{"id": "C03", "title": "Changing to a local frame and back is the identity", "statement": "For every right-handed orthonormal frame (n,t1,t2), every origin c and every vector v, transform_to_local_frame followed by transform_to_global_frame returns v.", "quantifier": "every orthonormal frame, origin and vector", "why_tests_cant": "The claim ranges over a continuum of inputs; a test samples finitely many of them and a wrong formula can agree on the samples.", "anchors": ["src/hypervehicle/geometry/vector.py:Vector3.transform_to_global_frame", "src/hypervehicle/geometry/vector.py:Vector3.transform_to_local_frame"]}
{"id": "C04", "title": "Vector3 accepts exactly scalars and vectors as first argument", "statement": "Vector3(x,y,z) succeeds exactly when x is a Vector3 (copied, y and z ignored) or a real number (missing y or z become 0); anything else, including None and arrays, raises ValueError.", "quantifier": "every combination of argument kinds", "why_tests_cant": "The argument domain is open ended; tests check a few kinds.", "anchors": ["src/hypervehicle/geometry/vector.py:Vector3.__init__"]}
{"id": "C05", "title": "approximately_equal_vectors is a reflexive tolerance test", "statement": "The test holds exactly when each component satisfies |a-b| <= abs_tol + rel_tol*|b|; it is reflexive for non-negative tolerances, is monotone in both tolerances, and does not depend on argument order.", "quantifier": "every pair of vectors and tolerances", "why_tests_cant": "The claim ranges over a continuum of inputs; a test samples finitely many of them and a wrong formula can agree on the samples.", "anchors": ["src/hypervehicle/geometry/vector.py:approximately_equal_vectors"]}
{"id": "C06", "title": "A Line runs affinely from p0 to p1", "statement": "Line(p0,p1)(0)=p0, (1)=p1, every point divides the segment in the ratio t:(1-t), distances along it are |dt|*length(), length() equals |p1-p0|, and line+offset is the pointwise translate and leaves the original unchanged.", "quantifier": "every pair of end points, parameter and offset", "why_tests_cant": "The claim ranges over a continuum of inputs; a test samples finitely many of them and a wrong formula can agree on the samples.", "anchors": ["src/hypervehicle/geometry/path.py:Line"]}
{"id": "C07", "title": "A Bezier curve is the Bernstein combination of its control points", "statement": "For every non-empty control polygon Bezier(B)(t) equals sum_i C(n,i) t^i (1-t)^(n-i) B_i for every t; in particular it starts at the first and ends at the last control point; an empty control polygon raises.", "quantifier": "every control polygon of any length and every t", "why_tests_cant": "Degree is unbounded; tests fix a degree and sample t.", "anchors": ["src/hypervehicle/geometry/path.py:Bezier.__call__"]}
{"id": "C08", "title": "A Bezier curve stays in the hull of its control points and commutes with affine maps", "statement": "For t in [0,1] every linear functional of the curve point lies between its minimum and maximum over the control points, and applying an affine map to the control points applies it to the curve.", "quantifier": "every control polygon, affine map and t in [0,1]", "why_tests_cant": "The claim ranges over a continuum of inputs; a test samples finitely many of them and a wrong formula can agree on the samples.", "anchors": ["src/hypervehicle/geometry/path.py:Bezier.__call__"]}
{"id": "C09", "title": "A Polyline follows its segments one after the other", "statement": "For segments of positive length, break points start at 0, end at 1 and increase strictly, every t falls in exactly one segment, the value is that segment evaluated at the matching local parameter, the polyline starts at the start of the first and ends at the end of the last segment, and joins continuous segments continuously.", "quantifier": "every non-empty list of paths and every t in [0,1]", "why_tests_cant": "The number of segments is unbounded and the selection logic differs for first, middle and last.", "anchors": ["src/hypervehicle/geometry/path.py:Polyline.reset_breakpoints", "src/hypervehicle/geometry/path.py:Polyline.__call__"]}
{"id": "C10", "title": "A closed Polyline ends where it starts", "statement": "Polyline(segments, closed=True) evaluated at 1 returns (within the tolerance) its value at 0, whatever the segments.", "quantifier": "every list of segments", "why_tests_cant": "The claim ranges over a continuum of inputs; a test samples finitely many of them and a wrong formula can agree on the samples.", "anchors": ["src/hypervehicle/geometry/path.py:Polyline.__init__"]}
{"id": "C11", "title": "A Polyline with a zero-length segment still evaluates", "statement": "Polyline built from segments at least one of which has positive length can be evaluated for every t in [0,1] even if other segments have zero length.", "quantifier": "every list of segments with positive total length", "why_tests_cant": "The claim ranges over a continuum of inputs; a test samples finitely many of them and a wrong formula can agree on the samples.", "anchors": ["src/hypervehicle/geometry/path.py:Polyline.__call__", "src/hypervehicle/geometry/path.py:Polyline.reset_breakpoints"]}
{"id": "C12", "title": "A Spline interpolates its points smoothly", "statement": "Spline(points) passes through every given point in order, the weight-point iteration contracts, and when it has converged adjacent cubic segments agree in first and second derivative (in the segment parameter).", "quantifier": "every list of at least two points", "why_tests_cant": "The claim ranges over a continuum of inputs; a test samples finitely many of them and a wrong formula can agree on the samples.", "anchors": ["src/hypervehicle/geometry/path.py:Spline.__init__"]}
{"id": "C13", "title": "An Arc runs from a to b at constant distance from c", "statement": "For every admissible Arc(a,b,c), arc(0)=a, arc(1)=b and |arc(t)-c| equals the radius for all t.", "quantifier": "every admissible triple of points in any plane and every t", "why_tests_cant": "The claim ranges over a continuum of inputs; a test samples finitely many of them and a wrong formula can agree on the samples.", "anchors": ["src/hypervehicle/geometry/path.py:Arc.evaluate_position_and_length"]}
{"id": "C14", "title": "Arc rejects inconsistent definitions and reports its length", "statement": "Arc raises on evaluation exactly when the radii differ by more than 1e-5, or the three points are collinear; otherwise length() is radius times the angle subtended, which is in (0, pi).", "quantifier": "every triple of points", "why_tests_cant": "The claim ranges over a continuum of inputs; a test samples finitely many of them and a wrong formula can agree on the samples.", "anchors": ["src/hypervehicle/geometry/path.py:Arc.evaluate_position_and_length", "src/hypervehicle/geometry/path.py:Arc.length"]}
{"id": "C15", "title": "ArcLengthParameterizedPath is an endpoint-preserving monotone reparameterisation", "statement": "For every path and n>=1 with positive sampled length, the reparameterised path has the same end points, uses a non-decreasing parameter map into [0,1] (onto when no sampled step has zero length), and takes each sampled arc-length fraction to its sampled point (and sample parameter, when no step has zero length); n<1 raises.", "quantifier": "every path, sample count and t in [0,1]", "why_tests_cant": "The claim ranges over a continuum of inputs; a test samples finitely many of them and a wrong formula can agree on the samples.", "anchors": ["src/hypervehicle/geometry/path.py:ArcLengthParameterizedPath"]}
{"id": "C16", "title": "The default Path.length is a lower bound of path length", "statement": "For every path and n>=1 length(n) is the length of the inscribed polygon: it is at least the end-to-end distance, does not decrease when every step is subdivided, is translation invariant, and is exact for straight lines.", "quantifier": "every path and sample count", "why_tests_cant": "The claim ranges over a continuum of inputs; a test samples finitely many of them and a wrong formula can agree on the samples.", "anchors": ["src/hypervehicle/geometry/path.py:Path.length"]}
{"id": "C17", "title": "Sub-ranging and reversing a path", "statement": "SubRangedPath(p,t0,t1) starts at p(t0), ends at p(t1), sub-ranges compose, ReversedPath twice is the original, and its length() is the length of the part it covers.", "quantifier": "every path and every t0,t1", "why_tests_cant": "The claim ranges over a continuum of inputs; a test samples finitely many of them and a wrong formula can agree on the samples.", "anchors": ["src/hypervehicle/geometry/geometry.py:SubRangedPath", "src/hypervehicle/geometry/geometry.py:ReversedPath"]}
{"id": "C18", "title": "Roberts clustering is a monotone bijection of [0,1]", "statement": "For beta>1 clustered_roberts maps 0 to 0 and 1 to 1, is strictly increasing and stays in [0,1] for each combination of end flags; with no end selected or beta<1 it is the identity.", "quantifier": "every eta in [0,1], beta and flag combination", "why_tests_cant": "The claim ranges over a continuum of inputs; a test samples finitely many of them and a wrong formula can agree on the samples.", "anchors": ["src/hypervehicle/geometry/path.py:roberts", "src/hypervehicle/geometry/path.py:clustered_roberts"]}
{"id": "C19", "title": "distribute_points gives n+1 ordered points from t1 to t2", "statement": "For n>=1 distribute_points returns n+1 values, the first t1, the last t2, strictly increasing when t1<t2; RobertsFunction and LinearFunction distributions start at 0 and end at 1.", "quantifier": "every n, interval, flags and admissible beta", "why_tests_cant": "The claim ranges over a continuum of inputs; a test samples finitely many of them and a wrong formula can agree on the samples.", "anchors": ["src/hypervehicle/geometry/path.py:distribute_points", "src/hypervehicle/geometry/path.py:RobertsFunction", "src/hypervehicle/geometry/path.py:LinearFunction"]}
{"id": "C20", "title": "ElipsePath points lie on the ellipse", "statement": "Every point of ElipsePath satisfies the ellipse equation with semi-axes LE_width (in y) and |thickness| (in z), the side selects the sign of z, the 0-angle end is the nose point, and an unknown side raises.", "quantifier": "every centre, thickness, width and parameter", "why_tests_cant": "The claim ranges over a continuum of inputs; a test samples finitely many of them and a wrong formula can agree on the samples.", "anchors": ["src/hypervehicle/geometry/geometry.py:ElipsePath.__call__"]}
{"id": "C21", "title": "Offset and mean paths act pointwise", "statement": "OffsetPathFunction, TrailingEdgePath and GeometricMeanPathFunction evaluate to underlying point plus offset evaluated at that point, respectively the midpoint of the two underlying points; the mean of a path with itself is the path.", "quantifier": "every underlying path and offset function", "why_tests_cant": "The claim ranges over a continuum of inputs; a test samples finitely many of them and a wrong formula can agree on the samples.", "anchors": ["src/hypervehicle/geometry/geometry.py:OffsetPathFunction", "src/hypervehicle/geometry/geometry.py:GeometricMeanPathFunction", "src/hypervehicle/geometry/geometry.py:TrailingEdgePath"]}
{"id": "C22", "title": "A Coons patch reproduces its four edges", "statement": "Whenever the four edge paths meet exactly at the corners, patch(r,0)=south(r), patch(r,1)=north(r), patch(0,s)=west(s), patch(1,s)=east(s) (plus the offset); if corners only meet approximately the deviation is exactly the linearly blended corner mismatch.", "quantifier": "every four edge paths and every r, s", "why_tests_cant": "The claim ranges over a continuum of inputs; a test samples finitely many of them and a wrong formula can agree on the samples.", "anchors": ["src/hypervehicle/geometry/surface.py:CoonsPatch.__call__"]}
{"id": "C23", "title": "CoonsPatch accepts exactly closed corner loops", "statement": "Construction from edges succeeds exactly when each of the four corner pairs agrees within the tolerance; otherwise it raises; construction with neither four edges nor four corners raises.", "quantifier": "every combination of edges and corners", "why_tests_cant": "The claim ranges over a continuum of inputs; a test samples finitely many of them and a wrong formula can agree on the samples.", "anchors": ["src/hypervehicle/geometry/surface.py:CoonsPatch.__init__"]}
{"id": "C24", "title": "Corner-defined patches are bilinear, translation copies", "statement": "A CoonsPatch from corners is the bilinear interpolant of them; patch + v and patch - v translate every point, and evaluate the original patch unchanged.", "quantifier": "every corner quadruple, offset and r,s", "why_tests_cant": "The claim ranges over a continuum of inputs; a test samples finitely many of them and a wrong formula can agree on the samples.", "anchors": ["src/hypervehicle/geometry/surface.py:CoonsPatch.__init__", "src/hypervehicle/geometry/surface.py:CoonsPatch.__add__", "src/hypervehicle/geometry/surface.py:CoonsPatch.__sub__"]}
{"id": "C25", "title": "Rotation is a rigid motion", "statement": "RotatedPatch about x, y or z preserves all distances between surface points, fixes every point on the axis through the given point, and preserves orientation (triple products).", "quantifier": "every surface, angle, axis in {x,y,z}, point", "why_tests_cant": "The claim ranges over a continuum of inputs; a test samples finitely many of them and a wrong formula can agree on the samples.", "anchors": ["src/hypervehicle/geometry/geometry.py:RotatedPatch.__call__", "src/hypervehicle/components/component.py:Component.rotate"]}
{"id": "C26", "title": "Rotations about one axis compose additively", "statement": "Rotating by a and then by b about the same axis and point equals rotating by a+b; rotating by a and -a is the identity; the axis is case-insensitive; any other axis name fails on evaluation.", "quantifier": "every pair of angles, axis, point, surface", "why_tests_cant": "The claim ranges over a continuum of inputs; a test samples finitely many of them and a wrong formula can agree on the samples.", "anchors": ["src/hypervehicle/geometry/geometry.py:RotatedPatch.__call__"]}
{"id": "C27", "title": "Mirroring is an orientation-reversing involutive isometry", "statement": "MirroredPatch along x, y or z preserves distances, negates exactly one coordinate, mirrored twice is the original, reverses triple products; an unknown axis is reported as an error.", "quantifier": "every surface and axis", "why_tests_cant": "The claim ranges over a continuum of inputs; a test samples finitely many of them and a wrong formula can agree on the samples.", "anchors": ["src/hypervehicle/geometry/geometry.py:MirroredPatch.__call__"]}
{"id": "C28", "title": "Curving a patch places points at signed distance z from the curved mid-surface", "statement": "CurvedPatch in x (or y) moves a point so that it lies at distance |z| from the point of the curve fun above its own x (or y), along the normal given by fun_dash; zero curvature is the identity; missing functions raise.", "quantifier": "every surface, curvature function and derivative", "why_tests_cant": "The claim ranges over a continuum of inputs; a test samples finitely many of them and a wrong formula can agree on the samples.", "anchors": ["src/hypervehicle/geometry/geometry.py:CurvedPatch.__call__", "src/hypervehicle/components/component.py:Component.curve"]}
{"id": "C29", "title": "Revolved and cone patches preserve radius and close on themselves", "statement": "Every point of RevolvedPatch keeps the x and the distance to the x axis of the line point; adjacent angular quadrants share their seam; a full turn closes; a line point on the axis is fixed; ConePatch likewise interpolates radii linearly.", "quantifier": "every line, angles and r,s", "why_tests_cant": "The claim ranges over a continuum of inputs; a test samples finitely many of them and a wrong formula can agree on the samples.", "anchors": ["src/hypervehicle/geometry/geometry.py:RevolvedPatch.__call__", "src/hypervehicle/geometry/geometry.py:ConePatch.__call__"]}
{"id": "C30", "title": "SweptPatchfromEdges interpolates its edges", "statement": "The patch equals edge i at r=i/(n-1), is linear in r in between, and for r in [0,1] never fails when n>=2; r>1 raises.", "quantifier": "every list of edges and every r, s", "why_tests_cant": "The claim ranges over a continuum of inputs; a test samples finitely many of them and a wrong formula can agree on the samples.", "anchors": ["src/hypervehicle/geometry/geometry.py:SweptPatchfromEdges.__call__"]}
{"id": "C31", "title": "SweptPatch interpolates cross-section perimeters along the sweep axis", "statement": "For cross sections with strictly increasing origins the patch point has sweep coordinate min+r*(max-min), lies on the linear blend of the two bounding perimeters, and for each cross section is exactly its perimeter; identical origins are rejected.", "quantifier": "every list of cross sections, sweep axis and r,s", "why_tests_cant": "The claim ranges over a continuum of inputs; a test samples finitely many of them and a wrong formula can agree on the samples.", "anchors": ["src/hypervehicle/geometry/geometry.py:SweptPatch"]}
{"id": "C32", "title": "SurfacePerimeter walks once around the boundary", "statement": "For every t in [0,1] the point lies on the boundary of the parameter square, the path visits the corners (0,0),(1,0),(1,1),(0,1) in order at multiples of 1/4 and returns to the start.", "quantifier": "every surface and t", "why_tests_cant": "The claim ranges over a continuum of inputs; a test samples finitely many of them and a wrong formula can agree on the samples.", "anchors": ["src/hypervehicle/geometry/geometry.py:SurfacePerimeter.__call__"]}
{"id": "C33", "title": "Cube and sphere patches lie on the cube and sphere", "statement": "Every CubePatch point has maximum-norm distance a from the centre on the named face; every SpherePatch point has Euclidean distance exactly r; neighbouring faces share edges; unknown face raises.", "quantifier": "every size, centre, face and r,s in [0,1]", "why_tests_cant": "The claim ranges over a continuum of inputs; a test samples finitely many of them and a wrong formula can agree on the samples.", "anchors": ["src/hypervehicle/geometry/geometry.py:CubePatch", "src/hypervehicle/geometry/geometry.py:SpherePatch"]}
{"id": "C34", "title": "Leading-edge patches attach to the edges they join", "statement": "FlatLeadingEdgePatchFunction runs from path1 to path2 and adjacent sub-ranges share their seam; MeanLeadingEdgePatchFunction points project on the mean line, offset by a point of the local ellipse, and adjacent sub-ranges share their seam.", "quantifier": "every pair of edge paths, width function and parameters", "why_tests_cant": "The claim ranges over a continuum of inputs; a test samples finitely many of them and a wrong formula can agree on the samples.", "anchors": ["src/hypervehicle/geometry/geometry.py:FlatLeadingEdgePatchFunction", "src/hypervehicle/geometry/geometry.py:MeanLeadingEdgePatchFunction", "src/hypervehicle/geometry/geometry.py:LeadingEdgePatchFunction"]}
{"id": "C35", "title": "A flap keeps its length when deflected", "statement": "The trailing edge tip of TrailingEdgePatch and MeanTrailingEdgePatch is at distance flap_length from its hinge point for every flap_angle, and the patch starts on the trailing edge path.", "quantifier": "every hinge, flap length and angle", "why_tests_cant": "The claim ranges over a continuum of inputs; a test samples finitely many of them and a wrong formula can agree on the samples.", "anchors": ["src/hypervehicle/geometry/geometry.py:TrailingEdgePatch", "src/hypervehicle/geometry/geometry.py:MeanTrailingEdgePatch"]}
{"id": "C36", "title": "BluntConePatch can be evaluated", "statement": "BluntConePatch returns a point for every r,s in [0,1].", "quantifier": "every parameter set", "why_tests_cant": "The claim ranges over a continuum of inputs; a test samples finitely many of them and a wrong formula can agree on the samples.", "anchors": ["src/hypervehicle/geometry/geometry.py:BluntConePatch.__call__"]}
{"id": "C37", "title": "Meshing a patch gives four triangles per cell in a fixed layout", "statement": "surfce_to_stl with resolution ni x nj yields exactly 4*ni*nj triangles; cell (i,j) contributes (p00,p10,c),(p10,p11,c),(p11,p01,c),(p01,p00,c) at positions 4*(i*nj+j)+0..3.", "quantifier": "every surface, ni, nj>=1", "why_tests_cant": "The claim ranges over every mesh size and every surface; tests fix a resolution and a surface.", "anchors": ["src/hypervehicle/utilities.py:surfce_to_stl"]}
{"id": "C38", "title": "Patch meshes are conforming in their interior", "statement": "In the mesh of one patch every directed edge that is not on the patch boundary occurs with its reverse, so the unmatched directed edges are exactly the boundary loop; this holds for any arithmetic, in particular floating point.", "quantifier": "every surface, resolution, clustering and rounding", "why_tests_cant": "The claim ranges over every mesh size and every surface; tests fix a resolution and a surface.", "anchors": ["src/hypervehicle/utilities.py:surfce_to_stl"]}
{"id": "C39", "title": "Mesh vertices lie on the surface and cell centres are means", "statement": "Every corner vertex is the surface evaluated at a grid parameter, every centre vertex is the mean of its four corners and lies in their convex hull.", "quantifier": "every surface and resolution", "why_tests_cant": "The claim ranges over every mesh size and every surface; tests fix a resolution and a surface.", "anchors": ["src/hypervehicle/utilities.py:surfce_to_stl"]}
{"id": "C40", "title": "Default parameter spacing covers [0,1] monotonically", "statement": "With spacing>0 and at least one cell, parameters start at 0, end at 1, are strictly increasing, uniform for spacing 1; resolution 0 raises.", "quantifier": "every resolution and spacing", "why_tests_cant": "The claim ranges over a continuum of inputs; a test samples finitely many of them and a wrong formula can agree on the samples.", "anchors": ["src/hypervehicle/utilities.py:default_vertex_func"]}
{"id": "C41", "title": "Clustering functions apply to their own direction", "statement": "With j_clustering_func given, meshing succeeds for every ni,nj>=1 and the s parameters are the function on nj+1 uniform points, so that the mesh reaches both s=0 and s=1.", "quantifier": "every ni, nj and clustering function", "why_tests_cant": "The claim ranges over every mesh size and every surface; tests fix a resolution and a surface.", "anchors": ["src/hypervehicle/utilities.py:surfce_to_stl"]}
{"id": "C42", "title": "mirror_y reflects the mesh in the x-z plane", "statement": "With mirror_y the mesh is the original with all y negated, triangle by triangle, hence its signed volume is negated.", "quantifier": "every surface and resolution", "why_tests_cant": "The claim ranges over every mesh size and every surface; tests fix a resolution and a surface.", "anchors": ["src/hypervehicle/utilities.py:surfce_to_stl"]}
{"id": "C43", "title": "Vector area of a patch mesh depends only on its boundary", "statement": "Two patch meshes with the same boundary vertices have the same summed triangle normals, whatever the interior; the enclosed signed volume of a closed mesh is translation invariant.", "quantifier": "every pair of surfaces agreeing on the boundary", "why_tests_cant": "The claim ranges over every mesh size and every surface; tests fix a resolution and a surface.", "anchors": ["src/hypervehicle/utilities.py:surfce_to_stl", "src/hypervehicle/components/component.py:Component.stl_check"]}
{"id": "C44", "title": "stl_check's edge test accepts exactly consistently oriented closed meshes", "statement": "For meshes without degenerate edges, the matching-lines check passes exactly when all directed edges are distinct and each occurs together with its reverse.", "quantifier": "every triangle mesh", "why_tests_cant": "The space of meshes is infinite; soundness and completeness are universal claims.", "anchors": ["src/hypervehicle/components/component.py:Component.stl_check"]}
{"id": "C45", "title": "A closed mesh passes the projected-area test", "statement": "If every directed edge is matched by its reverse, the summed normals vanish, so stl_check's projected area test passes (in exact arithmetic).", "quantifier": "every closed triangle mesh", "why_tests_cant": "Universal over meshes.", "anchors": ["src/hypervehicle/components/component.py:Component.stl_check"]}
{"id": "C46", "title": "stl_check options can be switched off", "statement": "stl_check(project_area, matching_lines) returns a verdict for every combination of its boolean options.", "quantifier": "every mesh and option combination", "why_tests_cant": "Tests exercise the default options only.", "anchors": ["src/hypervehicle/components/component.py:Component.stl_check"]}
{"id": "C47", "title": "stl_repair moves no vertex far and keeps topology", "statement": "stl_repair keeps the number and order of triangles and moves every coordinate of every vertex by less than small_distance.", "quantifier": "every mesh and positive distance", "why_tests_cant": "Universal over meshes.", "anchors": ["src/hypervehicle/components/component.py:Component.stl_repair"]}
{"id": "C48", "title": "stl_repair merges close vertices", "statement": "After stl_repair any two vertices whose coordinates all differ by less than small_distance coincide.", "quantifier": "every mesh and positive distance", "why_tests_cant": "Universal over meshes.", "anchors": ["src/hypervehicle/components/component.py:Component.stl_repair"]}
{"id": "C49", "title": "Component transformations act pointwise on every patch and keep the patch names", "statement": "rotate, translate, apply_modifier and curve change every patch point by the documented map, keep the set and order of patch names and touch nothing else.", "quantifier": "every component and argument", "why_tests_cant": "The claim ranges over every sequence of API calls; a test exercises only a few histories.", "anchors": ["src/hypervehicle/components/component.py:Component.rotate", "src/hypervehicle/components/component.py:Component.translate", "src/hypervehicle/components/component.py:Component.curve", "src/hypervehicle/components/component.py:Component.apply_modifier"]}
{"id": "C50", "title": "reflect adds or replaces exactly the mirrored patches", "statement": "reflect(axis) with append adds one '<name>_mirrored' patch per patch and keeps the originals; without append the component consists of exactly the mirrored patches; without axis nothing happens; the stored axis wins.", "quantifier": "every component, axis and flag", "why_tests_cant": "The claim ranges over every sequence of API calls; a test exercises only a few histories.", "anchors": ["src/hypervehicle/components/component.py:Component.reflect"]}
{"id": "C51", "title": "A reflected component keeps a consistent outward orientation", "statement": "Appending the reflection of a component doubles its enclosed signed volume (for a body on one side of the mirror plane).", "quantifier": "every component and axis", "why_tests_cant": "The claim ranges over every mesh size and every surface; tests fix a resolution and a surface.", "anchors": ["src/hypervehicle/components/component.py:Component.reflect", "src/hypervehicle/geometry/geometry.py:MirroredPatch"]}
{"id": "C52", "title": "surface and mesh contain every patch exactly once in order", "statement": "The component mesh is the concatenation, in patch order, of the patch meshes at the requested resolution, so has 4*res^2 triangles per patch; a component without patches raises.", "quantifier": "every component and resolution", "why_tests_cant": "The claim ranges over every mesh size and every surface; tests fix a resolution and a surface.", "anchors": ["src/hypervehicle/components/component.py:Component.surface", "src/hypervehicle/components/component.py:Component.mesh"]}
{"id": "C53", "title": "Per-edge resolutions are honoured", "statement": "With a resolution dictionary each patch is meshed with its own r and s resolution, also after reflection.", "quantifier": "every swept component and resolution dictionary", "why_tests_cant": "The claim ranges over every mesh size and every surface; tests fix a resolution and a surface.", "anchors": ["src/hypervehicle/components/component.py:Component.surface", "src/hypervehicle/components/swept.py:SweptComponent.generate_patches"]}
{"id": "C54", "title": "The cached mesh always reflects the current patches", "statement": "At any time component.mesh is the mesh of the current patches.", "quantifier": "every history of component and vehicle calls", "why_tests_cant": "The claim ranges over every sequence of API calls; a test exercises only a few histories.", "anchors": ["src/hypervehicle/components/component.py:Component.mesh", "src/hypervehicle/vehicle.py:Vehicle.generate", "src/hypervehicle/vehicle.py:Vehicle.transform"]}
{"id": "C55", "title": "deepcopy of a component is independent", "statement": "After copy.deepcopy later operations on either copy do not change the patches, mesh or options of the other.", "quantifier": "every component and later operation", "why_tests_cant": "The claim ranges over every sequence of API calls; a test exercises only a few histories.", "anchors": ["src/hypervehicle/components/component.py:Component.__deepcopy__"]}
{"id": "C56", "title": "A composite contains all patches of all its children", "statement": "generate_patches of a composite yields for child number ix and patch key the patch '<key>_<ix>', all names distinct, nothing lost, order kept; only allowed types can be added and a rejected add changes nothing.", "quantifier": "every list of children", "why_tests_cant": "The claim ranges over every mesh size and every surface; tests fix a resolution and a surface.", "anchors": ["src/hypervehicle/components/composite.py:CompositeComponent"]}
{"id": "C57", "title": "Options given when adding to a composite take effect", "statement": "reflection_axis, curvatures and transformations passed to CompositeComponent.add_component change the generated patches accordingly.", "quantifier": "every child and option", "why_tests_cant": "The claim ranges over every sequence of API calls; a test exercises only a few histories.", "anchors": ["src/hypervehicle/components/composite.py:CompositeComponent.add_component", "src/hypervehicle/components/composite.py:CompositeComponent.generate_patches"]}
{"id": "C58", "title": "SweptComponent rejects malformed cross sections", "statement": "Construction succeeds exactly when all sections have the same number of edges, each section closes edge to edge within 1e-12, close_ends is only used with 4 edges, and dictionary resolutions match on opposite edges.", "quantifier": "every list of cross sections and options", "why_tests_cant": "The claim ranges over every mesh size and every surface; tests fix a resolution and a surface.", "anchors": ["src/hypervehicle/components/swept.py:SweptComponent._check_options"]}
{"id": "C59", "title": "A closed-ended swept component is watertight", "statement": "For exactly closed 4-edge cross sections and uniform resolution the mesh of a SweptComponent with closed ends has every directed edge matched by its reverse.", "quantifier": "every list of >=2 cross sections and every resolution>=1", "why_tests_cant": "The claim ranges over every mesh size and every surface; tests fix a resolution and a surface.", "anchors": ["src/hypervehicle/components/swept.py:SweptComponent.generate_patches", "src/hypervehicle/utilities.py:surfce_to_stl"]}
{"id": "C60", "title": "A revolved component is watertight when its line starts and ends on the axis", "statement": "If both ends of the revolve line lie on the x axis then the mesh of RevolvedComponent is closed and consistently oriented.", "quantifier": "every such line and resolution>=1", "why_tests_cant": "The claim ranges over every mesh size and every surface; tests fix a resolution and a surface.", "anchors": ["src/hypervehicle/components/revolved.py:RevolvedComponent.generate_patches", "src/hypervehicle/geometry/geometry.py:RevolvedPatch"]}
{"id": "C61", "title": "Cube and Sphere components are closed, consistently oriented surfaces", "statement": "The mesh of Cube and of Sphere has every directed edge matched by its reverse.", "quantifier": "every size, centre and resolution", "why_tests_cant": "The claim ranges over every mesh size and every surface; tests fix a resolution and a surface.", "anchors": ["src/hypervehicle/components/polygon.py:Cube", "src/hypervehicle/components/polygon.py:Sphere"]}
{"id": "C62", "title": "Wing honours t_B1 and t_B2", "statement": "The planform break parameters used by a Wing are those supplied by the user, and the leading edge patches cover [0,1] once without overlap for each leading edge type.", "quantifier": "every t_B1<=t_B2 in [0,1] and leading edge type", "why_tests_cant": "The claim ranges over a continuum of inputs; a test samples finitely many of them and a wrong formula can agree on the samples.", "anchors": ["src/hypervehicle/components/wing.py:Wing.__init__", "src/hypervehicle/components/wing.py:Wing._create_leading_edge"]}
{"id": "C63", "title": "Wing and Fin top and bottom planforms are the same surface with opposite orientation", "statement": "The flipped planform patch used for the top equals the bottom planform with one parameter reversed (Wing) or parameters exchanged (Fin), so upper and lower skins have the same outline and opposite normals.", "quantifier": "every planform and r,s", "why_tests_cant": "The claim ranges over a continuum of inputs; a test samples finitely many of them and a wrong formula can agree on the samples.", "anchors": ["src/hypervehicle/components/wing.py:Wing._create_planform_patches", "src/hypervehicle/components/fin.py:Fin.generate_patches"]}
{"id": "C64", "title": "A Fin is pivoted, then rotated about x, then offset", "statement": "Every fin patch point is obtained from the unplaced fin by rotation by pivot_angle about the y axis through pivot_point, then rotation by fin_angle about the x axis, then the offset function; patch names depend only on rudder_type.", "quantifier": "every fin definition", "why_tests_cant": "The claim ranges over a continuum of inputs; a test samples finitely many of them and a wrong formula can agree on the samples.", "anchors": ["src/hypervehicle/components/fin.py:Fin.generate_patches"]}
{"id": "C65", "title": "add_component rejects unknown component types without side effects", "statement": "Vehicle.add_component raises for any component type other than fin, wing, swept, revolved, composite and then neither the vehicle nor the component changes.", "quantifier": "every vehicle state and component", "why_tests_cant": "The claim ranges over every sequence of API calls; a test exercises only a few histories.", "anchors": ["src/hypervehicle/vehicle.py:Vehicle.add_component"]}
{"id": "C66", "title": "Component bookkeeping is exact", "statement": "After any sequence of add_component calls the vehicle lists the components in order, counts per type are exact, and the enumerated names '<type>_<k>' for k=1..count are all present and distinct and name the k-th added component of that type.", "quantifier": "every sequence of add_component calls", "why_tests_cant": "The claim ranges over every sequence of API calls; a test exercises only a few histories.", "anchors": ["src/hypervehicle/vehicle.py:Vehicle.add_component"]}
{"id": "C67", "title": "Options of add_component are stored on that component only", "statement": "add_component sets on the given component exactly the options provided, leaves other options and all other components unchanged, and sets verbosity to 0 if the vehicle is silent and else to the maximum.", "quantifier": "every vehicle state, component and option combination", "why_tests_cant": "The claim ranges over every sequence of API calls; a test exercises only a few histories.", "anchors": ["src/hypervehicle/vehicle.py:Vehicle.add_component"]}
{"id": "C68", "title": "Every added component stays reachable by name", "statement": "After any sequence of add_component calls every component of the vehicle is found under some name and takes part in analysis.", "quantifier": "every sequence of add_component calls", "why_tests_cant": "The claim ranges over every sequence of API calls; a test exercises only a few histories.", "anchors": ["src/hypervehicle/vehicle.py:Vehicle.add_component"]}
{"id": "C69", "title": "Ghost components are exactly the ones excluded", "statement": "get_non_ghost_components returns exactly the named non-ghost components; to_stl writes no file for a ghost component and one write for each other component.", "quantifier": "every vehicle state", "why_tests_cant": "The claim ranges over every sequence of API calls; a test exercises only a few histories.", "anchors": ["src/hypervehicle/vehicle.py:Vehicle.get_non_ghost_components", "src/hypervehicle/vehicle.py:Vehicle.to_stl", "src/hypervehicle/components/component.py:Component.to_stl"]}
{"id": "C70", "title": "generate applies the steps in the documented order", "statement": "After generate each component's patches are: own patches, modifier, curvatures, rotation by vehicle_angle_offset about y, reflection, component transformations, vehicle transformations, in this order.", "quantifier": "every vehicle", "why_tests_cant": "The claim ranges over every sequence of API calls; a test exercises only a few histories.", "anchors": ["src/hypervehicle/vehicle.py:Vehicle.generate"]}
{"id": "C71", "title": "generate is repeatable", "statement": "Calling generate a second time yields the same patches and meshes as calling it once.", "quantifier": "every vehicle", "why_tests_cant": "The claim ranges over every sequence of API calls; a test exercises only a few histories.", "anchors": ["src/hypervehicle/vehicle.py:Vehicle.generate"]}
{"id": "C72", "title": "Vehicle.transform composes and refreshes meshes", "statement": "transform raises before generate; afterwards applying A then B equals applying A followed by B in one list, a single tuple acts as a one-element list, and the meshes read afterwards are those of the transformed patches.", "quantifier": "every vehicle state and transformation lists", "why_tests_cant": "The claim ranges over every sequence of API calls; a test exercises only a few histories.", "anchors": ["src/hypervehicle/vehicle.py:Vehicle.transform", "src/hypervehicle/vehicle.py:Vehicle.add_vehicle_transformations"]}
{"id": "C73", "title": "A failing transformation leaves the vehicle unchanged", "statement": "If Vehicle.transform raises because of an unknown transformation then no component has been modified.", "quantifier": "every vehicle state and transformation list", "why_tests_cant": "The claim ranges over every sequence of API calls; a test exercises only a few histories.", "anchors": ["src/hypervehicle/vehicle.py:Vehicle.transform"]}
{"id": "C74", "title": "Each component gets its own STL file", "statement": "to_stl writes each non-ghost component to a file of its own: file names of different components are distinct.", "quantifier": "every vehicle and prefix", "why_tests_cant": "The claim ranges over every sequence of API calls; a test exercises only a few histories.", "anchors": ["src/hypervehicle/vehicle.py:Vehicle.to_stl"]}
{"id": "C75", "title": "Merging uses the files just written", "statement": "With merge=True the files passed to the merge step are exactly the files written for non-ghost components.", "quantifier": "every vehicle and prefix", "why_tests_cant": "The claim ranges over every sequence of API calls; a test exercises only a few histories.", "anchors": ["src/hypervehicle/vehicle.py:Vehicle.to_stl"]}
{"id": "C76", "title": "Vehicle volume, mass and area are the sums over components", "statement": "analyse returns the sums of the component volumes, masses and areas, does not depend on the order in which components were added, and raises if a density is missing.", "quantifier": "every vehicle and density assignment", "why_tests_cant": "The claim ranges over a continuum of inputs; a test samples finitely many of them and a wrong formula can agree on the samples.", "anchors": ["src/hypervehicle/utilities.py:assess_inertial_properties", "src/hypervehicle/vehicle.py:Vehicle.analyse"]}
{"id": "C77", "title": "The vehicle centre of gravity is the mass-weighted mean", "statement": "analyse's cog is the mass weighted mean of component cogs: it moves with a common translation, lies in the convex hull for positive masses, and equals a common component cog; a vehicle without mass raises.", "quantifier": "every vehicle", "why_tests_cant": "The claim ranges over a continuum of inputs; a test samples finitely many of them and a wrong formula can agree on the samples.", "anchors": ["src/hypervehicle/utilities.py:assess_inertial_properties"]}
{"id": "C78", "title": "The vehicle inertia obeys the parallel axis theorem", "statement": "analyse's moi is the sum of I_k + m_k(|r_k|^2 E - r_k r_k^T) with r_k the cog offset of component k; in particular it is symmetric when component inertias are.", "quantifier": "every vehicle", "why_tests_cant": "The claim ranges over a continuum of inputs; a test samples finitely many of them and a wrong formula can agree on the samples.", "anchors": ["src/hypervehicle/utilities.py:assess_inertial_properties"]}
{"id": "C79", "title": "Analysis on generation uses the generated geometry and terminates", "statement": "With analyse_after_generating, generate stores results under volume, mass, cog, moi equal to those of a subsequent analyse, and analysing an ungenerated vehicle generates it exactly once.", "quantifier": "every vehicle", "why_tests_cant": "The claim ranges over every sequence of API calls; a test exercises only a few histories.", "anchors": ["src/hypervehicle/vehicle.py:Vehicle.generate", "src/hypervehicle/vehicle.py:Vehicle.analyse", "src/hypervehicle/utilities.py:assess_inertial_properties"]}
{"id": "C80", "title": "The CART3D transformation is the stated rigid axis change", "statement": "Transforming by CART3D maps every point (x,y,z) to (-x,-z,-y), preserving distances and orientation.", "quantifier": "every point of every vehicle", "why_tests_cant": "The claim ranges over a continuum of inputs; a test samples finitely many of them and a wrong formula can agree on the samples.", "anchors": ["src/hypervehicle/transformations.py:CART3D", "src/hypervehicle/vehicle.py:Vehicle.transform"]}
{"id": "C81", "title": "A sensitivity study perturbs exactly one parameter at a time and leaves its inputs alone", "statement": "dvdp builds the nominal vehicle from the given parameters and for each parameter one vehicle in which only this parameter is scaled by 1+perturbation/100; the caller's dictionary is unchanged; parameters are visited in order.", "quantifier": "every parameter dictionary and perturbation", "why_tests_cant": "The claim ranges over every sequence of API calls; a test exercises only a few histories.", "anchors": ["src/hypervehicle/utilities.py:SensitivityStudy.dvdp"]}
{"id": "C82", "title": "Sensitivities are exact for affine dependence", "statement": "If vertices depend affinely on the parameter the reported sensitivities are the exact derivative for every perturbation; a zero-valued parameter or zero perturbation never gives finite results.", "quantifier": "every affine family of meshes and perturbation", "why_tests_cant": "The claim ranges over a continuum of inputs; a test samples finitely many of them and a wrong formula can agree on the samples.", "anchors": ["src/hypervehicle/utilities.py:SensitivityStudy._compare_meshes", "src/hypervehicle/utilities.py:SensitivityStudy.dvdp"]}
{"id": "C83", "title": "Duplicate removal in sensitivities loses nothing", "statement": "_compare_meshes reports each distinct (vertex, displacement) row exactly once, in order of first occurrence.", "quantifier": "every pair of meshes", "why_tests_cant": "The claim ranges over every mesh size and every surface; tests fix a resolution and a surface.", "anchors": ["src/hypervehicle/utilities.py:SensitivityStudy._compare_meshes"]}
{"id": "C84", "title": "Combined sensitivities have a value for every vertex and parameter", "statement": "The combined table of a component has one row per distinct vertex with finite sensitivities for every parameter.", "quantifier": "every set of parameters and meshes", "why_tests_cant": "The claim ranges over every mesh size and every surface; tests fix a resolution and a surface.", "anchors": ["src/hypervehicle/utilities.py:SensitivityStudy._combine"]}
{"id": "C85", "title": "Sensitivity CSV output", "statement": "to_csv before dvdp raises; afterwards one file per component is written and the combined file contains all rows of all components in order.", "quantifier": "every study", "why_tests_cant": "The claim ranges over every sequence of API calls; a test exercises only a few histories.", "anchors": ["src/hypervehicle/utilities.py:SensitivityStudy.to_csv"]}
{"id": "C86", "title": "Point matching uses the first sensitivity row within tolerance", "statement": "append_sensitivities_to_tri gives each point the first row all of whose coordinates are within tolerance, small values rounded to zero, zeros if there is none; the returned fraction is matched/total and lies in [0,1].", "quantifier": "every point list and sensitivity table", "why_tests_cant": "The claim ranges over every mesh size and every surface; tests fix a resolution and a surface.", "anchors": ["src/hypervehicle/utilities.py:append_sensitivities_to_tri"]}
{"id": "C87", "title": "Parameter names survive the CSV round trip", "statement": "The parameter names attached to the .tri file are those used in the study.", "quantifier": "every parameter name", "why_tests_cant": "The set of names is infinite.", "anchors": ["src/hypervehicle/utilities.py:append_sensitivities_to_tri", "src/hypervehicle/utilities.py:SensitivityStudy._compare_meshes"]}
{"id": "C88", "title": "append_sensitivities_to_tri emits one line per point and does not touch its arguments", "statement": "The data array of each parameter has exactly one line per point; the list of file names passed in is not modified.", "quantifier": "every point list, table and file list", "why_tests_cant": "The claim ranges over every mesh size and every surface; tests fix a resolution and a surface.", "anchors": ["src/hypervehicle/utilities.py:append_sensitivities_to_tri"]}
{"id": "C89", "title": "Generator keyword arguments override defaults", "statement": "After construction every attribute named in kwargs has the given value and all other attributes keep their default.", "quantifier": "every set of keyword arguments and defaults", "why_tests_cant": "The claim ranges over every sequence of API calls; a test exercises only a few histories.", "anchors": ["src/hypervehicle/generator.py:Generator.__init__"]}
{"id": "C90", "title": "The parametric wedge is a closed body of the right volume", "statement": "For every chord, thickness, wingspan and resolution the generated wedge mesh is watertight and its enclosed volume is chord*thickness*wingspan/2.", "quantifier": "every parameter set and resolution", "why_tests_cant": "The claim ranges over a continuum of inputs; a test samples finitely many of them and a wrong formula can agree on the samples.", "anchors": ["src/hypervehicle/hangar/wedge.py:ParametricWedge.create_instance"]}
{"id": "C91", "title": "Default width and thickness functions", "statement": "leading_edge_width_function stays between 0.01 and 0.055 on [0,1] and is symmetric; uniform_thickness_function offsets by -thickness/2 for the top and +thickness/2 otherwise so that the two skins are thickness apart.", "quantifier": "every r in [0,1], thickness and point", "why_tests_cant": "The claim ranges over a continuum of inputs; a test samples finitely many of them and a wrong formula can agree on the samples.", "anchors": ["src/hypervehicle/components/common.py:leading_edge_width_function", "src/hypervehicle/components/common.py:uniform_thickness_function"]}
{"id": "C92", "title": "circle_patch is a disc of radius r around centre", "statement": "The boundary of circle_patch(centre,r) is the circle of radius r around centre in the plane of the centre.", "quantifier": "every centre and radius", "why_tests_cant": "The claim ranges over a continuum of inputs; a test samples finitely many of them and a wrong formula can agree on the samples.", "anchors": ["src/hypervehicle/components/common.py:circle_patch"]}
{"id": "C93", "title": "The ogive nose profile is continuous and tangent", "statement": "For admissible dimensions the ogive nose profile starts on the axis, its arcs join at a common point with common tangent, reaches height h and returns to the axis.", "quantifier": "every admissible h, r_n, r_o, L_o", "why_tests_cant": "The claim ranges over a continuum of inputs; a test samples finitely many of them and a wrong formula can agree on the samples.", "anchors": ["src/hypervehicle/components/common.py:OgiveNose"]}
{"id": "C94", "title": "An open-ended swept component is bounded by its two end sections", "statement": "With close_ends=False the mesh of a SweptComponent has no free edges except those of the loops of the first and of the last cross section.", "quantifier": "every list of >=2 exactly closed cross sections with any number of edges and every resolution>=1", "why_tests_cant": "The claim ranges over every number of sections, edges and cells and every edge shape; tests fix all of them.", "anchors": ["src/hypervehicle/components/swept.py:SweptComponent.generate_patches", "src/hypervehicle/geometry/geometry.py:SweptPatchfromEdges.__call__"]}
{"id": "C95", "title": "A swept component with per-edge resolutions is watertight", "statement": "For every resolution dictionary that the constructor of a closed-ended SweptComponent accepts, the mesh has every directed edge matched by its reverse.", "quantifier": "every list of >=2 exactly closed 4-edge cross sections and every accepted dictionary", "why_tests_cant": "The claim ranges over all resolutions per edge; a test with equal entries passes although different entries leave gaps.", "anchors": ["src/hypervehicle/components/swept.py:SweptComponent.generate_patches", "src/hypervehicle/components/component.py:Component.surface"]}
{"id": "C96", "title": "An extruded section encloses height times base area", "statement": "A swept component whose cross-sections are one polygonal outline repeated at increasing z meshes to a closed surface whose signed volume is minus (z_last - z_first) times the signed area of the outline sampled on the mesh grid; for a quadrilateral section this is exactly the area of the quadrilateral at every resolution.", "quantifier": "every section of four curves, every number of sections and every resolution n>=1", "why_tests_cant": "The claim ranges over every outline, number of sections and mesh size; a test fixes a shape and a resolution.", "anchors": ["src/hypervehicle/components/swept.py:SweptComponent.generate_patches", "src/hypervehicle/geometry/geometry.py:SweptPatchfromEdges"]}
{"id": "C97", "title": "The mesh of a body of revolution encloses the right volume", "statement": "The mesh of a RevolvedComponent whose line starts and ends on the x axis is closed, its signed volume is the volume of the stack of regular-polygon frusta given by the line's samples, and with increasing resolution it converges to pi times the integral of x'(t) (y(t)^2+z(t)^2).", "quantifier": "every line that evaluates on [0,1] with both ends on the x axis (for the limit: continuous, x differentiable outside a countable set with bounded derivative), every resolution n>=1", "why_tests_cant": "The exact formula ranges over all lines and resolutions and the limit over all tolerances; a test compares one body at one resolution with a tolerance of its own.", "anchors": ["src/hypervehicle/components/revolved.py:RevolvedComponent.generate_patches", "src/hypervehicle/geometry/geometry.py:RevolvedPatch.__call__"]}
{"id": "C98", "title": "Cube and sphere meshes bound the cube and the sphere", "statement": "The mesh of Cube(a, centre) has the surface area 6 (2a)^2 of the cube it shows and encloses its volume (2a)^3; the mesh of Sphere(r, centre) encloses a positive volume.", "quantifier": "every size, centre and resolution n>=1", "why_tests_cant": "Viewers draw both sides of a triangle and tests look at file existence; the enclosed volume depends on the orientation of all six faces at every resolution and centre.", "anchors": ["src/hypervehicle/components/polygon.py:Cube.generate_patches", "src/hypervehicle/components/polygon.py:Sphere.generate_patches", "src/hypervehicle/geometry/geometry.py:CubePatch.__call__", "src/hypervehicle/geometry/geometry.py:SpherePatch.__call__"]}
{"id": "C99", "title": "Options and transformations keep bodies watertight, rigid motions keep volume and area", "statement": "If the patches a component generates form a watertight mesh, then the mesh after Vehicle.generate is watertight for every modifier, curvature, vehicle angle, reflection and list of component and vehicle transformations that does not raise. Rotations and translations by fixed amounts move the whole mesh by one proper rigid motion, so they leave surface area and enclosed volume unchanged.", "quantifier": "every component, every resolution n>=1, every modifier, curvature and translation function, every list of transformations", "why_tests_cant": "The claim ranges over arbitrary deformation functions and arbitrary lists of transformations of arbitrary bodies.", "anchors": ["src/hypervehicle/vehicle.py:Vehicle.generate", "src/hypervehicle/components/component.py:Component.transform", "src/hypervehicle/components/component.py:Component.reflect", "src/hypervehicle/components/component.py:Component.curve", "src/hypervehicle/components/component.py:Component.apply_modifier"]}
{"id": "C100", "title": "Clustering options keep bodies watertight", "statement": "Passing clustering functions that map [0,1] to itself and keep both ends (add_component(..., clustering={...}) or add_clustering_options) only moves the sample points: a body whose patches are glued edge to edge still gets a closed, consistently oriented mesh.", "quantifier": "every glued component, every pair of clustering functions, every resolution n>=1", "why_tests_cant": "Clustering functions are arbitrary; a test with symmetric or identical functions does not notice that adjoining patches sample their common edge with different parameters.", "anchors": ["src/hypervehicle/components/component.py:Component.add_clustering_options", "src/hypervehicle/utilities.py:surfce_to_stl", "src/hypervehicle/components/swept.py:SweptComponent.generate_patches", "src/hypervehicle/components/revolved.py:RevolvedComponent.generate_patches"]}
{"id": "C101", "title": "Meshes converge to the surface as the resolution grows", "statement": "For a component whose patches depend continuously on their parameters, the STL mesh approximates the surface in both directions: for every eps>0 there is a resolution from which on every point of every triangle is within eps of the surface and every surface point is within eps of the mesh; for Lipschitz patches with constant L the distance is at most L*(1/n + 1/m). For a RevolvedComponent the surface is the line turned about the x axis.", "quantifier": "every continuous patch/component, every eps>0, all resolutions from some N on", "why_tests_cant": "A limit statement over all resolutions and all points of the triangles, not only of vertices.", "anchors": ["src/hypervehicle/utilities.py:surfce_to_stl", "src/hypervehicle/components/component.py:Component.mesh", "src/hypervehicle/components/revolved.py:RevolvedComponent"]}
{"id": "C102", "title": "The parametric Falcon 9 is built of closed bodies of positive volume", "statement": "For keyword arguments with 0 < r_n < h <= r_o, D, L_b, f_L > 0, ParametricFalcon9(**kwargs).create_instance() returns a vehicle named 'SpaceX Falcon 9' with components revolved_1 (fairing) and revolved_2 (body); generate() succeeds at every STL resolution; the meshes of both components are closed and oriented outwards, so each encloses a positive volume; with growing resolution the volume of the body tends to pi*(D/2)^2*L_b.", "quantifier": "all keyword arguments with these inequalities, all resolutions, all libraries", "why_tests_cant": "The reference test compares one STL file for the default dimensions; it cannot show the fairing is drawn consistently (tangent arcs, no gap, no crossing of the axis) for all dimensions, nor the limit.", "anchors": ["src/hypervehicle/hangar/falcon9.py:ParametricFalcon9", "src/hypervehicle/components/revolved.py:RevolvedComponent", "src/hypervehicle/geometry/path.py:Arc", "src/hypervehicle/geometry/path.py:Polyline"]}
{"id": "C103", "title": "The parametric Finner: a closed rocket body and four equal fins a quarter turn apart", "statement": "For all keyword arguments, ParametricFinner(**kwargs).create_instance() returns a vehicle named 'Finner' with components fuselage, fin_1, ..., fin_4; generate() succeeds; the mesh of the fuselage is closed and encloses the volume (4n/2)*sin(2*pi/(4n))*(diameter/2)^2*(nose_length/3 + total_length - nose_length) at resolution n (8 as created); every fin is the mesh of the triangular section of the given length and thickness extruded to fin_height, with its trailing edge at total_length and its root at diameter/2 from the axis, and fin k+1 is fin k turned by 90 degrees about the x axis; every fin mesh is closed and encloses fin_height*fin_length*max_fin_thickness/2.", "quantifier": "all keyword arguments, all resolutions of the fuselage, all libraries, all objects in memory", "why_tests_cant": "The reference STL files show the default dimensions only.", "anchors": ["src/hypervehicle/hangar/finner.py:ParametricFinner", "src/hypervehicle/components/composite.py:CompositeComponent", "src/hypervehicle/components/swept.py:SweptComponent"]}
{"id": "C104", "title": "A composite of revolved parts laid end to end is one closed body", "statement": "Let a CompositeComponent hold RevolvedComponents whose lines are laid end to end, the first beginning and the last ending on the x axis. Although none of the parts need be closed, the mesh of the composite is closed at every STL resolution n, and the volume it encloses is the sum over the parts of the volumes of the polygonal frusta between the sampled rings.", "quantifier": "all numbers of parts, all lines, all resolutions, all objects in memory", "why_tests_cant": "Tests mesh particular composites; they cannot show that the rings of neighbouring parts agree for all lines and resolutions.", "anchors": ["src/hypervehicle/components/composite.py:CompositeComponent.generate_patches", "src/hypervehicle/components/revolved.py:RevolvedComponent", "src/hypervehicle/components/component.py:Component.mesh"]}
{"id": "C105", "title": "A fin is watertight up to rounding", "statement": "Let a Fin have uniform positive thickness, a positive leading edge width and corners p1, p2, p3. generate_patches() succeeds, and at every STL resolution n the mesh is closed up to a small gap: moving every vertex by at most L*eta + g closes it exactly (every edge is met by its reverse), where L is the length of the leading edge, eta the error of the break parameter (6e-7 for the rounded bisection of the code) and g the distance of the elliptical edges from the skins caused by the finite tangent of a right angle (of the order of 1e-16 times the thickness). It holds for flat and sharp rudders, all fin and pivot angles, pivot points and constant offsets.", "quantifier": "all corners, thicknesses, width functions, rudders, angles, offsets, all resolutions, all root finders with error at most eta", "why_tests_cant": "The reference STL files show a handful of fins at one resolution; exact closedness never holds in floating point, so that a test must choose a tolerance and a shape.", "anchors": ["src/hypervehicle/components/fin.py:Fin.generate_patches", "src/hypervehicle/geometry/geometry.py:MeanLeadingEdgePatchFunction", "src/hypervehicle/geometry/geometry.py:ElipsePath", "src/hypervehicle/components/component.py:Component.mesh"]}
{"id": "C106", "title": "A wing with elliptical leading edge is watertight, with close_wing by itself, otherwise together with its mirror image", "statement": "Let a Wing have skins at heights ht < hb above its planform (thickness functions that depend on x and y), a leading edge line from B0 to TT, a positive leading edge width and the flap tail. generate_patches() succeeds at every STL resolution. With close_wing=True the mesh is closed after moving its vertices by at most g + delta, g being the gap at the poles of the edge ellipses caused by the finite tangent of a right angle and delta the largest distance between the skins along the root and straight lines. With close_wing=False and a root in the plane y=0, after moving vertices by at most g every edge without a partner lies in that plane, and the wing together with its mirror image is closed. The same is expected of the other leading edge type (FLAT).", "quantifier": "all corner points, leading edge lines, thickness functions, width functions, break parameters in [0,1], flap lengths and angles, all resolutions, all root finders", "why_tests_cant": "The reference STL files show one wing per example vehicle at one resolution; they do not show which edges may be unmatched for other planforms.", "anchors": ["src/hypervehicle/components/wing.py:Wing.generate_patches", "src/hypervehicle/geometry/geometry.py:MeanLeadingEdgePatchFunction", "src/hypervehicle/geometry/geometry.py:TrailingEdgePath", "src/hypervehicle/components/component.py:Component.mesh"]}
{"id": "C107", "title": "Control surfaces deflect by the documented angle in the documented direction", "statement": "ParametricX43(flap_angle=d): the trailing edge of the elevons is the hinge line rotated by d degrees, upwards (towards -z) for positive d. ParametricX43(rudder_angle=d): the trailing edge of both rudders is rotated by d degrees towards +y. Other generators with a flap_angle in degrees deflect by that many degrees. In every case the chord of the control surface is preserved.", "quantifier": "all parameters of the generators, every point of the trailing edge", "why_tests_cant": "The reference STL files are made with zero deflection, where unit and sign of the angle cannot be seen.", "anchors": ["src/hypervehicle/hangar/x43.py:ParametricX43.create_instance", "src/hypervehicle/hangar/htv.py:ParametricHTV.create_instance", "src/hypervehicle/geometry/geometry.py:MeanTrailingEdgePatch", "src/hypervehicle/geometry/geometry.py:TrailingEdgePatch"]}
{"id": "C108", "title": "A vehicle contains each part and its mirror image once", "statement": "A pair of parts added as a component and a reflected copy of it makes up one part and its mirror image: the triangles of the two meshes together are those of the first and their mirror images, each once. This holds for the pairs of flaps of the example vehicles X-43, HTV and waverider, whatever their parameters.", "quantifier": "all parameters, all generators of components, all resolutions", "why_tests_cant": "The tests compare each component with a stored file; duplicated triangles in different files are not seen, and totals are not tested.", "anchors": ["src/hypervehicle/hangar/x43.py:ParametricX43.create_instance", "src/hypervehicle/hangar/htv.py:ParametricHTV.create_instance", "src/hypervehicle/components/component.py:Component.reflect", "src/hypervehicle/hangar/waverider.py:ParametricWaverider._create_flaps"]}
{"id": "C109", "title": "The wing-bodied example vehicles generate watertight parts for all sensible parameters", "statement": "ParametricX43(**kwargs).create_instance() returns the six named parts for every positive body length (up to 1000) and width, all body, flap and rudder angles, all engine and fin heights, nonzero wing span, positive wing and fin lengths, hinge lines behind the middle of wing and fin. After setting any mesh resolutions, Vehicle.generate() succeeds and every part has a mesh that, after moving vertices by at most 1e-12 (fins: plus 6e-7 of the length of the leading edge) and turning over mirrored triangles, is closed. The same for the HTV, except that its flaps stay open at their inner end. The same for the HIFiRE 8 for every positive length, base radius and nozzle length and every nose radius of at least 0.075; its nose has a flat leading edge, see C110. The same for the HIFiRE 4 for every positive radius up to 800, every positive nose and body length and every wing longer than 0.75: the bent fuselage is closed (up to the digits of the radius after the sixth decimal), the bent wing is closed up to 1e-12 times the factor by which its curvature stretches lengths. The same for the waverider: for all dimensions in a range around the usual ones (length, width, nose, leading edge, section and flap parameters, curvature multipliers, angle of attack, resolutions) the five named parts generate, the fuselage with flattened underside is closed, the wings, flaps and fin are closed up to the factor of the curvatures times 1e-12 (fin: 2e-7).", "quantifier": "all parameters in these ranges, all mesh resolutions", "why_tests_cant": "Tests generate the vehicles with default parameters at one resolution only.", "anchors": ["src/hypervehicle/hangar/x43.py:ParametricX43.create_instance", "src/hypervehicle/hangar/htv.py:ParametricHTV.create_instance", "src/hypervehicle/components/wing.py:Wing.generate_patches", "src/hypervehicle/components/fin.py:Fin.generate_patches", "src/hypervehicle/vehicle.py:Vehicle.generate", "src/hypervehicle/hangar/hifire8.py:ParametricHIFiRE8.create_instance", "src/hypervehicle/hangar/hifire4.py:ParametricHIFiRE4.create_instance", "src/hypervehicle/hangar/waverider.py:ParametricWaverider.create_instance"]}
{"id": "C110", "title": "Wings with a flat leading edge are watertight away from the root", "statement": "A wing with LE_type=\"flat\" generates, and every edge of its mesh away from the plane of the root is shared by triangles on both sides, so that the wing together with its mirror image (append_reflection=True) bounds a solid: no part of the leading edge is missing, covered twice, or joined to its neighbour with different subdivisions. This holds for the nose of the example vehicle HIFiRE 8, whatever its parameters.", "quantifier": "all planforms, leading edge curves, thickness functions, break parameters and mesh resolutions", "why_tests_cant": "The only flat leading edge in the tests is compared with a stored file which has the same defect; a gap or double surface at one resolution says nothing of other shapes.", "anchors": ["src/hypervehicle/components/wing.py:Wing._create_leading_edge", "src/hypervehicle/components/wing.py:Wing._create_trailing_edge", "src/hypervehicle/geometry/geometry.py:FlatLeadingEdgePatchFunction", "src/hypervehicle/hangar/hifire8.py:ParametricHIFiRE8.create_instance"]}
{"id": "C111", "title": "analyse() reports the volume, mass and centre of gravity of the solids the components bound", "statement": "After generate(), Vehicle.analyse(densities) reports as volume and mass of each component, of the vehicle, and as centre of gravity, those of the solids enclosed by the meshes: volumes and masses are positive for positive densities, volume is the integral of 1 and the centre of gravity the mean of the position over the solid, whichever origin the coordinates have. This holds for components with an appended reflection, and for the example vehicles wedge, HIFiRE 8 and ReFEX whatever their parameters.", "quantifier": "all meshes, densities, vehicles; all parameters and mesh resolutions of the example vehicles", "why_tests_cant": "Mass properties are not tested; a test on one vehicle cannot tell which combinations of orientation, reflection and closure give meaningful numbers.", "anchors": ["src/hypervehicle/vehicle.py:Vehicle.analyse", "src/hypervehicle/utilities.py:assess_inertial_properties", "src/hypervehicle/components/component.py:Component.reflect", "src/hypervehicle/components/component.py:Component.mesh", "src/hypervehicle/hangar/hifire8.py:ParametricHIFiRE8.create_instance", "src/hypervehicle/hangar/wedge.py:ParametricWedge.create_instance"]}
{"id": "C112", "title": "A generated component can be discretised into structured grids", "statement": "After generate_patches, Component.grid() creates a structured grid for every patch and to_vtk() writes them.", "quantifier": "all components with patches", "why_tests_cant": "No test calls these methods; that they cannot succeed for any component is a statement about all of them.", "anchors": ["src/hypervehicle/components/component.py:Component.grid", "src/hypervehicle/components/component.py:Component.to_vtk"]}
{"id": "C113", "title": "A failed attempt at meshing leaves nothing behind", "statement": "If computing the mesh of a component raises because one of its patches cannot be evaluated, using the mesh again computes it anew: it raises the same error as long as the cause persists, contains all patches once it is removed, and never consists of part of the patches. Calling surface() again is independent of earlier failures.", "quantifier": "all components, failing patches, both multiprocessing modes", "why_tests_cant": "Tests do not exercise failing patches; the property is about all continuations after a failure.", "anchors": ["src/hypervehicle/components/component.py:Component.mesh", "src/hypervehicle/components/component.py:Component.surface"]}
{"id": "C114", "title": "Bending a wing does not tear it", "statement": "A wing (with an elliptical leading edge) added to a vehicle with curvatures generates, and the mesh is as free of gaps as without the curvatures: gaps between patches grow by at most the Lipschitz factor of the curvature functions over the box of the wing. This holds for a wing with its root in the plane of symmetry added with its reflection, if curvature in y is level at that plane, and for a closed wing, added as is or replaced by its reflection.", "quantifier": "all wing shapes, all sequences of Lipschitz curvatures, all mesh resolutions", "why_tests_cant": "Two reference vehicles use curvature, each with one set of functions and dimensions; the statement is about all functions, shapes and resolutions.", "anchors": ["src/hypervehicle/geometry/geometry.py:CurvedPatch", "src/hypervehicle/components/component.py:Component.curve", "src/hypervehicle/components/wing.py:Wing.generate_patches", "src/hypervehicle/vehicle.py:Vehicle.generate"]}
{"id": "C115", "title": "A body of revolution is watertight exactly if its profile starts and ends on the axis", "statement": "For a RevolvedComponent(revolve_line) whose line evaluates on [0,1] and whose two ends do not describe the same circle: at every mesh resolution the mesh is closed exactly if both ends of the line lie on the x axis. A line that comes back to its first point makes a closed ring. If both ends are within delta of the axis, the mesh is closed after moving vertices by at most delta; if the component is bent by curvatures, by at most delta times the factor by which the curvatures stretch lengths.", "quantifier": "all lines, all mesh resolutions, all curvatures of bounded slope", "why_tests_cant": "Tests mesh a few lines at one resolution; that every line with an end off the axis leaves a hole is a statement about all lines.", "anchors": ["src/hypervehicle/components/revolved.py:RevolvedComponent.generate_patches", "src/hypervehicle/geometry/geometry.py:RevolvedPatch", "src/hypervehicle/components/component.py:Component.curve"]}
{"id": "C116", "title": "The analysis files written with the STL files report one analysis", "statement": "When to_stl writes analysis results, <prefix>_volmass.csv lists mass, volume and area of every named component and their sums, and <prefix>_cog.txt holds the mean of the components' centres weighted with the masses in that table: the files report one analysis of the vehicle's components. Results computed by analyse() are written. Writing never fails for want of a result, whatever calls were made before.", "quantifier": "all vehicles, all densities, all sequences of API calls", "why_tests_cant": "Tests compare STL files only; the files depend on the order of generate, analyse and transform calls, of which there are infinitely many.", "anchors": ["src/hypervehicle/vehicle.py:Vehicle.to_stl", "src/hypervehicle/vehicle.py:Vehicle.analyse", "src/hypervehicle/vehicle.py:Vehicle.generate", "src/hypervehicle/utilities.py:assess_inertial_properties"]}
{"id": "C117", "title": "Vehicle transformations move the vehicle as one rigid body", "statement": "Rotations and translations given to add_vehicle_transformations or Vehicle.transform move the meshes of all components by one and the same rigid motion: the positions of the components relative to each other, the gaps in their meshes, areas and volumes are those of the vehicle generated without them.", "quantifier": "all vehicles, all lists of rotations and translations, every component", "why_tests_cant": "Infinitely many vehicles and lists of transformations; relative positions of components are not compared by any test.", "anchors": ["src/hypervehicle/vehicle.py:Vehicle.transform", "src/hypervehicle/vehicle.py:Vehicle.generate", "src/hypervehicle/vehicle.py:Vehicle.add_vehicle_transformations"]}
{"id": "C118", "title": "A generated waverider meets the flow at the nominal angle of attack", "statement": "After Vehicle.generate() on ParametricWaverider(aoa=a, ...).create_instance(), the keel (the line y = 0 of the flat underside, i.e. patch revolved_fuse_3 of the fuselage at s = 0) has at the nose exactly the angle a (in degrees) against the x axis, whatever the curvature of the body (x_curve_mult, curve_zero, length).", "quantifier": "for all keyword arguments of the generator in a range of all dimensions, all resolutions, all heaps", "why_tests_cant": "Tests generate one vehicle with the default curvature, for which the error is below 1e-10 rad; the angle at the nose is a derivative, no triangle of the mesh shows it.", "anchors": ["src/hypervehicle/hangar/waverider.py:ParametricWaverider._adjust_aoa", "src/hypervehicle/hangar/waverider.py:ParametricWaverider._curv_xd", "src/hypervehicle/hangar/waverider.py:ParametricWaverider.create_instance"]}
{"id": "C119", "title": "ParametricReFEX generates exactly the parts asked for, each watertight, for all sensible parameters", "statement": "ParametricReFEX(**kwargs).create_instance() returns a vehicle with exactly the parts that the toggles generate_fuselage, generate_canards, generate_wings and generate_tail ask for, under the names revolved_1, revolved_2, fin_1, fin_2, wing_1, swept_1, fin_3 (the tail is fin_1 without canards), for every ogive with 0 < r_n < h < r_o, positive fairing, body, wing, span and tail dimensions, fin thickness up to 60, tail thickness up to 200, every canard angle and every canard shift with z = 0. After setting any mesh resolutions, Vehicle.generate() succeeds; in the Cart3D frame nose, body and transition have closed meshes, canards and tail are closed up to 6e-7 of the length of the leading edge plus 1e-12, and the wing and its reflection have no gaps wider than 1e-12.", "quantifier": "all parameters in these ranges, all 16 combinations of toggles, all mesh resolutions", "why_tests_cant": "The test generates the default vehicle at the default resolutions with all parts; parameters and toggles combine in infinitely many ways.", "anchors": ["src/hypervehicle/hangar/refex.py:ParametricReFEX.create_instance", "src/hypervehicle/hangar/refex.py:ParametricReFEX._define_fuselage", "src/hypervehicle/hangar/refex.py:leading_edge_width_function", "src/hypervehicle/vehicle.py:Vehicle.add_component", "src/hypervehicle/vehicle.py:Vehicle.generate"]}
{"id": "C120", "title": "ParametricD21 generates six parts, each watertight, for all sensible parameters and resolutions", "statement": "ParametricD21(**kwargs).create_instance() returns a vehicle of the parts revolved_1 (fuselage), revolved_2 (nose), wing_1, fin_1 (tail), fin_2 and fin_3 (trailing wings) for every body radius from 0.001 to 1000, every wing length above 0.75 and below the body length, and every positive wing width of at least 1/100000 of the wing length. At all mesh resolutions Vehicle.generate() succeeds, every part has a closed mesh up to rounding of the root finder (the wing together with its reflection), and no vertex lies far off the vehicle.", "quantifier": "all parameters in these ranges, all flap angles, all mesh resolutions of wing and fins", "why_tests_cant": "The test generates the default vehicle at wing_stl_res = te_fin_stl_res = 3 and compares with a stored file; whether meshes are closed, and other dimensions and resolutions, are not tested. The result changes qualitatively at wing_stl_res = 5.", "anchors": ["src/hypervehicle/hangar/d21.py:ParametricD21.create_instance", "src/hypervehicle/components/wing.py:Wing.generate_patches", "src/hypervehicle/components/fin.py:Fin.generate_patches", "src/hypervehicle/vehicle.py:Vehicle.generate"]}
{"id": "C121", "title": "Vertex sensitivities approximate the derivatives of the vertices", "statement": "When the vertices of a component depend differentiably on a parameter, the sensitivities returned by SensitivityStudy.dvdp() tend to the derivatives of the vertices with respect to the parameter as the perturbation tends to 0; and when the derivatives are Lipschitz with constant K, each coordinate of each sensitivity is off by at most K/2 times the change of the parameter.", "quantifier": "all vehicles, parameters with non-zero values, components whose vertices are differentiable functions of the parameter, all perturbations", "why_tests_cant": "No test runs a study; and a limit is a statement about all small perturbations.", "anchors": ["src/hypervehicle/utilities.py:SensitivityStudy.dvdp", "src/hypervehicle/utilities.py:SensitivityStudy._compare_meshes"]}
{"id": "C122", "title": "A sensitivity study succeeds whenever its vehicles can be generated", "statement": "SensitivityStudy.dvdp() of numeric parameters returns whenever the nominal vehicle and each vehicle with one parameter perturbed can be constructed and generated, have components of the same names, and corresponding meshes of the same numbers of triangles (and comparable analysis results and user-defined properties).", "quantifier": "all vehicles, all dictionaries of numeric parameters (with no name among the overrides), all perturbations (also 0), with or without writing the nominal geometry", "why_tests_cant": "That nothing else in the code can raise concerns all inputs; no test runs a study.", "anchors": ["src/hypervehicle/utilities.py:SensitivityStudy.dvdp", "src/hypervehicle/utilities.py:SensitivityStudy._combine"]}
{"id": "C123", "title": "Affine maps of the sections of a swept component map its mesh", "statement": "When the cross sections of a swept component with closed ends are replaced by their images under an affine map (a scaling along an axis, a shear, a rotation, a shift), each vertex of the generated mesh is replaced by its image, and the enclosed volume is multiplied by the determinant of the map.", "quantifier": "all affine maps, all lists of at least two sections of four edges that close exactly, all mesh resolutions", "why_tests_cant": "A statement about all sections, maps and resolutions; the tests generate three swept components.", "anchors": ["src/hypervehicle/components/swept.py:SweptComponent.generate_patches", "src/hypervehicle/geometry/geometry.py:SweptPatchfromEdges", "src/hypervehicle/geometry/surface.py:CoonsPatch"]}
{"id": "C124", "title": "The documented sensitivity study of the wedge returns the exact sensitivities", "statement": "SensitivityStudy(ParametricWedge).dvdp(parameters) succeeds for all numeric parameters and overrides with distinct names. For non-zero parameters and perturbations, the table of each parameter tells exactly how each vertex moves: by x/chord in x for the chord, y/thickness in y for the thickness, z/wingspan in z for the wingspan, and not at all for other names; and the combined table has one row for each distinct vertex of the nominal geometry with its exact sensitivities to all parameters.", "quantifier": "all parameter and override values, all perturbations, with or without writing the nominal geometry", "why_tests_cant": "No test runs a study; exactness for all values, and that no vertex is missing or doubled, cannot be sampled.", "anchors": ["src/hypervehicle/hangar/wedge.py:ParametricWedge.create_instance", "src/hypervehicle/utilities.py:SensitivityStudy.dvdp", "src/hypervehicle/utilities.py:SensitivityStudy._combine"]}
{"id": "C125", "title": "A study written to CSV gives the points of a .tri file their own sensitivities", "statement": "After SensitivityStudy.dvdp() and to_csv(), append_sensitivities_to_tri() with the files of the components returns the fraction of the points of the .tri file that lie within match_tolerance of a vertex of the nominal geometry, and gives each such point the sensitivities of that vertex (values below the rounding tolerance as 0) and all other points zeros.", "quantifier": "all vehicles and numeric parameters, all lists of component files, all points, all tolerances; for the wedge the sensitivities are the exact ones", "why_tests_cant": "No test runs the pipeline; which row is picked when several lie within the tolerance depends on the geometry.", "anchors": ["src/hypervehicle/utilities.py:SensitivityStudy.dvdp", "src/hypervehicle/utilities.py:SensitivityStudy.to_csv", "src/hypervehicle/utilities.py:append_sensitivities_to_tri"]}
{"id": "C126", "title": "The shape of a vehicle does not depend on the unit of length", "statement": "If every length in the description of a vehicle (points, thicknesses, widths, radii, translations, curvature functions) is converted to another unit, then every patch, every triangle and every STL file is converted likewise, nothing else changes: the same calls succeed, file names, component names, resolutions and watertightness verdicts are the same, areas scale with the square, volumes and masses (at equal density numbers) with the cube, moments of inertia with the fifth power of the conversion factor.", "quantifier": "for all conversion factors, all components and their arguments, all vehicles, all transformations, all resolutions", "why_tests_cant": "Reference meshes fix one vehicle in one unit. Hidden absolute constants (tolerances, default widths, bisection limits) only show for other units, and no test builds the same vehicle twice.", "anchors": ["src/hypervehicle/components/swept.py:44-86", "src/hypervehicle/components/common.py:7-16", "src/hypervehicle/components/wing.py:115-452", "src/hypervehicle/geometry/path.py", "src/hypervehicle/geometry/surface.py", "src/hypervehicle/vehicle.py:180-300"]}
{"id": "C127", "title": "Multiplying all dimensions of a hangar vehicle gives the vehicle at another size", "statement": "Each parametric generator of the hangar, called with every length parameter multiplied by k (angles and resolutions unchanged), returns the same vehicle multiplied by k: same components and names, every patch and mesh multiplied by k.", "quantifier": "for all values of all dimensions, all factors k > 0", "why_tests_cant": "The reference meshes are those of the default dimensions; that a constant in a generator is really a fraction of a parameter and not a length in metres does not show at one size.", "anchors": ["src/hypervehicle/hangar/wedge.py", "src/hypervehicle/hangar/falcon9.py", "src/hypervehicle/hangar/finner.py", "src/hypervehicle/hangar/d21.py:56-69"]}
{"id": "C128", "title": "Bodies that look alike after a quarter turn are reported as balanced", "statement": "For a component with a closed mesh the reported tensor of inertia is that of the solid about its centre. Every revolved component and composite of revolved components has a mesh that is mapped to itself by a quarter turn about the x axis; for such bodies the analysis reports a centre of gravity on the axis, no products of inertia and equal inertia about y and z. A vehicle that looks the same after a quarter turn (revolved bodies, or four equal fins) is reported with its centre of gravity on the axis and without products of inertia.", "quantifier": "for all lines, resolutions, densities and dimensions of Finner and Falcon 9", "why_tests_cant": "The tests compare the sums of numpy-stl with stored numbers for a few shapes; that an asymmetry is never introduced by meshing, at any resolution, is a statement about all revolved shapes.", "anchors": ["src/hypervehicle/components/revolved.py", "src/hypervehicle/utilities.py:180-215", "src/hypervehicle/vehicle.py:400-500"]}
{"id": "C129", "title": "Vehicles that are their own mirror image are reported with the centre of gravity in the plane of symmetry", "statement": "If the vehicle, as a solid with its densities, is its own mirror image in a coordinate plane, the analysis reports a centre of gravity in that plane, and for a single symmetric component no products of inertia with the axis orthogonal to the plane. Swept components whose sections are mirrored into each other, or each into itself, have meshes with the same symmetry at every resolution; the wedge is reported with its centre of gravity at the origin. A pair made by adding a part twice, the second time with a reflection axis and append_reflection=False, counts as a part and its mirror image.", "quantifier": "for all closed meshes, sections, resolutions, densities and dimensions", "why_tests_cant": "Symmetry at every resolution and for every profile is a statement about all meshes; the tests analyse a few fixed vehicles and compare with stored numbers, which also contain the asymmetry introduced by inside-out reflections.", "anchors": ["src/hypervehicle/components/swept.py", "src/hypervehicle/components/component.py:230-262", "src/hypervehicle/vehicle.py:400-500", "src/hypervehicle/hangar/wedge.py"]}
{"id": "C130", "title": "Verbosity changes nothing but the messages", "statement": "Two scripts that make the same calls on a vehicle and its components, and differ only in the verbosity passed to configure() or held by the components, see the same results: every call returns or raises the same, writes the same files and returns the same analysis, and the vehicles they end with differ in no attribute but verbosity. configure(name) sets the name if one is given and the verbosity, to 1 unless asked otherwise, and nothing else.", "quantifier": "all sequences of API calls, all vehicles and components, all verbosities", "why_tests_cant": "It compares two executions of every script; tests run a handful of scripts with one verbosity each.", "anchors": ["src/hypervehicle/vehicle.py:Vehicle.configure", "src/hypervehicle/vehicle.py:Vehicle.add_component", "src/hypervehicle/components/composite.py:CompositeComponent.add_component"]}
{"id": "C131", "title": "What is recorded on a vehicle stays recorded", "statement": "generate, transform, analyse, to_stl and changes of composite components, successful or not, leave everything recorded about the vehicle by other calls as it was: components, names, numbering, properties, transformations, analysis request, name, verbosity. After any script each property has the value last given to add_property. A successful to_stl writes, besides STL files, exactly the three analysis files if generate analysed the vehicle and <prefix>_properties.csv, with one row per property, if there are properties.", "quantifier": "all sequences of API calls, including ones that raise", "why_tests_cant": "It is about every sequence of calls, including failing ones; tests check the STL files of a few successful runs.", "anchors": ["src/hypervehicle/vehicle.py:Vehicle.add_property", "src/hypervehicle/vehicle.py:Vehicle.to_stl", "src/hypervehicle/vehicle.py:Vehicle.generate", "src/hypervehicle/vehicle.py:Vehicle.analyse"]}
{"id": "C132", "title": "Cubes, spheres and bodies of revolution are covered once", "statement": "After generate_patches the patches of a Cube with positive half-size, a Sphere with positive radius and a RevolvedComponent cover the surface they stand for once: every patch point for parameters in the unit square is on the surface, every point of the surface is a patch point, and the same point for two different patches or parameter pairs occurs only on patch borders. For bodies of revolution the profile must meet the axis, and repeat a pair of length and radius, at its ends only.", "quantifier": "all sizes, centres, resolutions, profiles and parameters", "why_tests_cant": "That nothing of the surface is left out and nothing is covered twice is a statement about all points of the surface; no sample of points shows it.", "anchors": ["src/hypervehicle/geometry/geometry.py:CubePatch", "src/hypervehicle/geometry/geometry.py:SpherePatch", "src/hypervehicle/geometry/geometry.py:RevolvedPatch", "src/hypervehicle/components/polygon.py:Cube", "src/hypervehicle/components/polygon.py:Sphere", "src/hypervehicle/components/revolved.py:RevolvedComponent"]}
{"id": "C133", "title": "Refining a mesh keeps its grid points", "statement": "If a component is meshed with resolution n and with resolution k*n, with the same patches, clustering functions, spacings and mirroring, all patch points that are corners of the coarser mesh are corners of the finer mesh, and the coarser mesh lies in the convex hull of the finer one, so that no extent of the body shrinks on refining.", "quantifier": "all components, resolutions, factors, clusterings", "why_tests_cant": "It is about all pairs of resolutions and all surfaces and clustering functions; tests mesh at one resolution.", "anchors": ["src/hypervehicle/utilities.py:surfce_to_stl", "src/hypervehicle/utilities.py:default_vertex_func", "src/hypervehicle/components/component.py:Component.mesh"]}
{"id": "C134", "title": "The options of a component stay as set, and other objects are left alone", "statement": "generate, transform, analyse, to_stl and the configuration calls of a vehicle, successful or not, change nothing of what is set on any component: its type, resolution, curvatures, clustering, transformations, modifier, reflection, ghost flag, name, verbosity and the parts of a composite stay until an add_component call names the component again. Objects that are neither components of the vehicle nor parts of them, such as the components of another vehicle, are not touched at all, not even their patches and meshes.", "quantifier": "all scripts of API calls, all vehicles including composites and shared parts, all densities, all libraries and all outcomes", "why_tests_cant": "A test compares some attributes after one successful sequence of calls; that no call in any script, in particular one that raises halfway, changes any option of any component or touches an object of another vehicle is a statement about all executions.", "anchors": ["src/hypervehicle/vehicle.py:Vehicle.add_component", "src/hypervehicle/vehicle.py:Vehicle.generate", "src/hypervehicle/vehicle.py:Vehicle.transform", "src/hypervehicle/vehicle.py:Vehicle.to_stl", "src/hypervehicle/vehicle.py:Vehicle.analyse", "src/hypervehicle/components/component.py:Component", "src/hypervehicle/components/composite.py:CompositeComponent.generate_patches"]}
{"id": "C135", "title": "The waverider is analysed with the documented densities and its fuselage is a ghost", "statement": "ParametricWaverider(densities=d, **kwargs).create_instance().generate() stores analysis_results covering exactly the parts fuselage, wings, right_flap, left_flap and fin, each with the density d gives for its name, whenever d has these five keys; it raises KeyError when one of them is missing; with densities None or empty it conducts no analysis. The fuselage is included in the analysis but not written by to_stl.", "quantifier": "all parameters within the sensible range, all mesh resolutions, all dictionaries of densities, all libraries of mass properties that do not raise", "why_tests_cant": "The documented keys must fit the names given to the parts for every set of parameters and every dictionary; a test runs one dictionary at one set of parameters, and the repository runs none.", "anchors": ["src/hypervehicle/hangar/waverider.py:ParametricWaverider.__init__", "src/hypervehicle/hangar/waverider.py:ParametricWaverider.create_instance", "src/hypervehicle/vehicle.py:Vehicle.analyse_after_generating", "src/hypervehicle/utilities.py:assess_inertial_properties"]}
{"id": "C136", "title": "The documented dimensions of the Finner and the wedge are the dimensions of their meshes", "statement": "For all keyword arguments with non-negative dimensions and every mesh resolution: the mesh of the generated Finner fuselage reaches from 0 to total_length along x and from -diameter/2 to diameter/2 along y and z, lies within the cylinder of the given diameter and within the cone of the nose, and reaches the full diameter at x = nose_length; every fin reaches from total_length - fin_length to total_length along x, from diameter/2 to diameter/2 + fin_height away from the axis, and is max_fin_thickness thick. The mesh of the generated wedge is chord long, thickness high and wingspan wide and centred at the origin. All bounds are attained by vertices. More generally the mesh of a closed body swept between two straight-edged sections lies in every half-space that contains its eight corners, and the corners are vertices.", "quantifier": "for all keyword arguments, all resolutions n >= 1, all heaps and libraries", "why_tests_cant": "Tests check one size at one resolution; that no vertex at any resolution leaves the documented box, including the centre points of mesh cells and end patches, needs a convexity argument for all of them.", "anchors": ["src/hypervehicle/hangar/finner.py:ParametricFinner", "src/hypervehicle/hangar/wedge.py:ParametricWedge", "src/hypervehicle/components/swept.py:SweptComponent", "src/hypervehicle/utilities.py:surfce_to_stl"]}
{"id": "C137", "title": "The documented dimensions of the ogive nose and the Falcon 9 are the dimensions of their meshes", "statement": "The mesh of a revolved component lies between the planes and within the distance from the axis that bound its profile, and contains the profile at evenly spaced parameters on four sides of the axis. For all admissible arguments the mesh of an OgiveNose has its tip at sqrt((r_o-r_n)^2-(r_o-h)^2)+r_n, lies within h of the axis, measures 2h across once fine enough, and is L_o, 'the ogive length', long. For all sensible keyword arguments the body of the Falcon 9 reaches from -f_L to -f_L-L_b and measures D across, and its fairing reaches from the tip to -1.3 f_L and measures 2h across.", "quantifier": "for all dimensions, resolutions, heaps and libraries", "why_tests_cant": "The extents are asserted for every vertex at every resolution, including centre points and points on the arcs; tests measure a few meshes.", "anchors": ["src/hypervehicle/components/common.py:OgiveNose", "src/hypervehicle/components/revolved.py:RevolvedComponent", "src/hypervehicle/hangar/falcon9.py:ParametricFalcon9", "src/hypervehicle/geometry/path.py:Polyline"]}
{"id": "C138", "title": "A structured grid samples its surface with the cluster functions of its edges", "statement": "StructuredGrid(surface, niv, njv, cf_list, tags, label) with niv, njv >= 2 has the niv x njv vertices surface(r,s) with parameters that run strictly increasing from 0 to 1 along every grid line and follow the cluster function of each of the four edges along that edge (uniformly without one); it keeps tags and label; subgrid returns a copy of the block of vertices asked for. Fewer than two vertices in a direction and anything but a surface are refused.", "quantifier": "for all surfaces, numbers of vertices and cluster functions", "why_tests_cant": "It ranges over all surfaces, sizes and cluster functions; a test samples one grid, and the project has no test of grids.", "anchors": ["src/hypervehicle/geometry/surface.py:StructuredGrid", "src/hypervehicle/geometry/surface.py:StructuredGrid.generate", "src/hypervehicle/geometry/surface.py:StructuredGrid.subgrid", "src/hypervehicle/geometry/path.py:RobertsFunction"]}
{"id": "C139", "title": "The dimensions given for a fin are those of its mesh", "statement": "The mesh of Fin(p0, p1, p2, p3, thickness, angle, offset, ...) of uniform thickness has vertices half the thickness above and below each of its four corners, and the outermost point of the rounded edge at p1 and p3 at the leading edge width; apart from the leading edge width it stays within the outline given by the corners (and the tips of a sharp rudder), and within half the thickness of its plane, all moved by the angle, pivot and offset. So the tail and trailing wings of ParametricD21 and the tail and canards of ParametricReFEX have the height, length, thickness and position that follow from the parameters.", "quantifier": "for all corners in a plane, thicknesses, angles, offsets, leading edge widths with a positive lower bound, rudders and resolutions; for all parameters of the two vehicles with positive dimensions", "why_tests_cant": "It ranges over all outlines, thicknesses and resolutions and over every vertex; the tests check no dimension of any fin.", "anchors": ["src/hypervehicle/components/fin.py:Fin.generate_patches", "src/hypervehicle/components/common.py:leading_edge_width_function", "src/hypervehicle/hangar/d21.py:ParametricD21.create_instance", "src/hypervehicle/hangar/refex.py:ParametricReFEX.create_instance"]}
{"id": "C140", "title": "The dimensions given for a wing are those of its mesh", "statement": "For a Wing with a Bezier line type, a rounded leading edge and a planform in the plane z = 0, whether its root is closed (close_wing) or not, every vertex of the mesh of the component lies on the wing's side of every plane that has the two skins (the graphs of the two thickness functions over the planform) and the two ends of the flap on one side, except for the width of the leading edge horizontally and the pole allowance vertically. The four corners A0, A1, B0, TT are vertices at the heights of both thickness functions, the two ends of the flap (flap_length behind A0 and B0, turned by flap_angle) are vertices, and the rounded edge stands exactly the width given by LE_wf to the side of B0 and in front of TT. In particular the wings of the ReFEX end with their flaps at the base of the body, reach wing_span beyond its side, are wing_length long, three fin_thickness thick and stay behind the line from the kink of the leading edge to the front; the wings of the D-21 are W_w wide, reach from L_w to 0.3 behind the nose and have flaps of 0.1 L_w.", "quantifier": "for all wing arguments of that kind, all thickness and width functions, all resolutions n >= 1; for all sensible ReFEX and D-21 attributes (D-21: the resolutions below the limit of C120)", "why_tests_cant": "The bounds hold for the mesh at every resolution and for every planform and thickness function; a test measures one mesh at one resolution, and a wing that bulges between the sample points of that mesh, or whose flap has the wrong length for another flap angle, passes it.", "anchors": ["src/hypervehicle/components/wing.py:Wing.generate_patches", "src/hypervehicle/hangar/d21.py:ParametricD21.create_instance", "src/hypervehicle/hangar/refex.py:ParametricReFEX.create_instance"]}
{"id": "C141", "title": "The printed description of a vehicle, component or patch is true of it", "statement": "After any sequence of calls on a new vehicle, repr(vehicle) is \"Parameterised <name> with <N> components (<n1> <type1>, <n2> <type2>, ...)\" where name is the name last given to configure, N the number of add_component calls that did not raise, the types are those of the added components in the order of first use and each n is the number added of that type (so they add up to N); without components it says so. str(vehicle) is the same without the list. A component is described by its type and its non-empty name, also after generating, moving, analysing and writing the vehicle. The description of a patch shows the data it was made from.", "quantifier": "for all scripts (including calls that raise), all component types and names, all patches", "why_tests_cant": "The description has to agree with the whole history of calls, including rejected components and repeated types in any order; a test prints the description of one history.", "anchors": ["src/hypervehicle/vehicle.py:Vehicle.__repr__", "src/hypervehicle/vehicle.py:Vehicle.__str__", "src/hypervehicle/components/component.py:Component.__repr__", "src/hypervehicle/geometry/surface.py:CoonsPatch.__repr__", "src/hypervehicle/geometry/geometry.py:CubePatch.__repr__"]}
{"id": "C142", "title": "The assembled vehicle has the dimensions given to its generator", "statement": "A D-21 made by ParametricD21(**dims).create_instance() and generated consists of six named parts whose meshes, as they stand after generating, have the dimensions passed: the fuselage is L_b long and 2 R_b wide and high (as a polygonal body of revolution reaching its radius), the nose reaches forward to 0.15 L_b - 0.1, the wings reach W_w plus the leading-edge width on both sides, and tail and trailing wings their heights. Therefore the whole vehicle is between 1.15 L_b - 0.1 and 1.15 L_b - 0.04 long and between 2 (W_w + 0.01) and 2 (W_w + 0.06) wide. Likewise every part of a ReFEX made by ParametricReFEX(**dims) has, in the axes of Cart3D, the dimensions passed: the body is L_b long and 2 h wide and high, the nose is the ogive of the radii given, and the wing reaches wing_span beyond the body on both sides. The wings of a waverider without curvature, made by ParametricWaverider(**dims), are width plus twice le_width wide and reach length plus le_width ahead of their tail, measured along the vehicle at its angle of attack.", "quantifier": "for all sensible dimensions and keyword arguments, all wing resolutions low enough that no mesh point falls strictly within the part of the leading edge that runs across the nose, all heaps and tangent implementations within rounding", "why_tests_cant": "Extreme points of the assembled meshes depend on how sampling, mirroring, merging and the per-part constructions combine for every set of dimensions; a test measures one vehicle at one resolution.", "anchors": ["src/hypervehicle/hangar/d21.py:ParametricD21.create_instance", "src/hypervehicle/vehicle.py:Vehicle.generate", "src/hypervehicle/components/revolved.py:RevolvedComponent", "src/hypervehicle/components/wing.py:Wing", "src/hypervehicle/components/fin.py:Fin", "src/hypervehicle/hangar/refex.py:ParametricReFEX.create_instance", "src/hypervehicle/hangar/waverider.py:ParametricWaverider.create_instance"]}
{"id": "C143", "title": "The hangar scripts write the vehicle in the frame its generator chose", "statement": "Running a hangar module as a script writes one STL file per part of the vehicle, each holding the part in the frame the generator asked for with add_vehicle_transformations. In particular the ReFEX, whose generator adds the CART3D transformations, is written in the axes of Cart3D: the body reaches from x = 0 back to x = L_b.", "quantifier": "for all sensible dimensions, toggles and keyword arguments of the generator, all heaps, libraries and tangent implementations within rounding", "why_tests_cant": "Both frames give valid, watertight files of the right size; only the position of every vertex for every choice of dimensions tells them apart.", "anchors": ["src/hypervehicle/hangar/refex.py:__main__", "src/hypervehicle/hangar/refex.py:ParametricReFEX.create_instance", "src/hypervehicle/vehicle.py:Vehicle.generate", "src/hypervehicle/vehicle.py:Vehicle.transform", "src/hypervehicle/vehicle.py:Vehicle.to_stl"]}
{"id": "C144", "title": "Merging writes one file with the surface of all parts beside the files of the parts", "statement": "to_stl(merge=True) writes, for every component that is not a ghost, a file with the mesh of that component, and one further file '<prefix or vehicle name>.stl', the surface of which is the union of the surfaces of those components. The result does not depend on files that were in the directory before, and no other STL file is touched. Without PyMesh an exception is raised after the component files have been written.", "quantifier": "for all vehicles with any number of components, all meshes, all contents of the directory beforehand, all prefixes and every PyMesh whose clean-up steps keep the surface", "why_tests_cant": "PyMesh is rarely installed, so the step is not exercised at all; and stale files of an earlier run make the call succeed with the wrong geometry, which only shows for particular contents of the directory.", "anchors": ["src/hypervehicle/utilities.py:merge_stls", "src/hypervehicle/vehicle.py:Vehicle.to_stl"]}
{"id": "C145", "title": "Every CSV file of a directory is converted to a file of its own", "statement": "convert_all_csv_to_delaunay(directory) converts every CSV file of the directory, and writes the result of each beside it under the same name with the ending .vtu; no two of them share a file and nothing else is changed. If there is no CSV file the program ends without writing.", "quantifier": "for all directories, all sets of file names in them, all contents and every behaviour of the ParaView filters", "why_tests_cant": "ParaView is not available to the tests, and whether two names collide depends on the names in the directory.", "anchors": ["src/hypervehicle/utilities.py:csv_to_delaunay", "src/hypervehicle/utilities.py:convert_all_csv_to_delaunay"]}
{"id": "C146", "title": "The hypersonic technology vehicle as assembled has the length, width and height given", "statement": "An HTV made by ParametricHTV(**dims).create_instance() and generated has the dimensions passed, at every mesh resolution. The body reaches from its rear at x = 0 to L and body_width / 2 to either side, beyond both only by the rounded edge of 0.01, with a flat underside; it is h high. The flaps lie on either side of the gap of 0.01 body_width / body_width_nom, are 0.4 body_width wide, and their trailing edge stands 0.2 L / L_nom behind their hinge, turned by flap_angle degrees.", "quantifier": "for all keyword arguments with positive length, width, height and edge thickness (length up to 100, height and edge up to 1), nominal length positive and nominal width at least 0.0125, every flap angle, all mesh resolutions, all heaps", "why_tests_cant": "The extremes of the mesh depend on the dimensions, on a bisection for the local width at every point of the top and on the mesh resolution; a test measures one vehicle, and with the default length of 1 the height of the body agrees with h to five per cent, which hides that h scales with the length.", "anchors": ["src/hypervehicle/hangar/htv.py:ParametricHTV.create_instance", "src/hypervehicle/components/wing.py:Wing.generate_patches", "src/hypervehicle/vehicle.py:Vehicle.generate"]}
{"id": "C147", "title": "The X-43 as assembled has the dimensions given", "statement": "An X-43 made by ParametricX43(**dims).create_instance() and generated has the dimensions passed, at every mesh resolution and for every slant of the body. The body reaches from x = 0 to body_length and body_width / 2 to either side, between two planes whose slopes follow body_angle. Each wing reaches wing_span out of the body, from wing_TE_back behind its rear (less what the turn of the flap takes off) to wing_length in front of it, and lies in the plane of the body. The inlet is as wide as the body, ends halfway between the break of the outline and the nose, and is at most engine_h below the underside, which it reaches when its mesh resolution is two or more. The fins stand at the sides of the body, fin_length long at the foot and fin_height high, with the tips of the rudders turned by rudder_angle degrees. Only the rounded edges, at most 0.05 wide, reach further.", "quantifier": "for all keyword arguments with positive lengths, span and height (body up to a kilometre long), wings no longer than the body, flaps at most 0.4 times the wing, rudders ending behind the middle of the fin, every body, flap and rudder angle, all mesh resolutions, all heaps", "why_tests_cant": "Thirteen dimensions act together on six meshes, whose extremes also depend on the resolution and on the ellipses of the leading edges; a test measures one vehicle, by default with all angles zero, where a wrong slope or turn does not show.", "anchors": ["src/hypervehicle/hangar/x43.py:ParametricX43.create_instance", "src/hypervehicle/components/wing.py:Wing.generate_patches", "src/hypervehicle/components/fin.py:Fin.generate_patches", "src/hypervehicle/vehicle.py:Vehicle.generate"]}
{"id": "C148", "title": "The HIFiRE 8 as assembled has the dimensions given", "statement": "A HIFiRE 8 made by ParametricHIFiRE8(**dims).create_instance() and generated has the dimensions passed, at every mesh resolution. The fuselage reaches from -nozzle_length to L, is nowhere wider than the cone from R_base to R_nose, has the radius R_nose in front and, if the mesh is fine enough, R_base behind. The nose continues it by 0.5, with the same width and height where they meet and a height of 0.01 at the tip. The wings reach 0.41 to either side and from the ends of their flaps to 1.51. The first and second fin have their feet on the fuselage and stand 0.16 out of it, at 45 and 135 degrees, the third points the other way and stands half as far out. Only the rounded edges, at most 0.055 wide, reach further.", "quantifier": "for all keyword arguments with positive L, R_base and nozzle_length, 0.075 <= R_nose <= R_base and L >= 0.4, all mesh resolutions, all heaps", "why_tests_cant": "The extremes of six meshes depend on four dimensions and on the resolution, the fins on the local radius of the cone under them; a test measures one vehicle, and the height of a fin over a slanted surface cannot be read off a bounding box.", "anchors": ["src/hypervehicle/hangar/hifire8.py:ParametricHIFiRE8.create_instance", "src/hypervehicle/components/composite.py:CompositeComponent", "src/hypervehicle/components/wing.py:Wing.generate_patches", "src/hypervehicle/components/fin.py:Fin.generate_patches"]}
{"id": "C149", "title": "Generated meshes contain no triangles without area", "statement": "After generate() the mesh of a component contains no degenerate triangle, that is none whose three corners lie on one line, so that every facet written to an STL file has a normal. Programs that read the file divide by the area of a facet.", "quantifier": "for all cubes and spheres of non-zero size, all bodies of revolution with an injective profile in the half plane y >= 0, all wings with a flat leading edge, all convex bodies swept between two quadrilaterals, all dimensions of the Finner, all centres, all resolutions", "why_tests_cant": "A degenerate facet is caused by one parameter value or by one patch of a component; a test inspects finitely many meshes, while the claim concerns every cell of every grid at every resolution.", "anchors": ["src/hypervehicle/components/polygon.py:Cube.generate_patches", "src/hypervehicle/components/polygon.py:Sphere.generate_patches", "src/hypervehicle/components/revolved.py:RevolvedComponent.generate_patches", "src/hypervehicle/components/wing.py:Wing.generate_patches", "src/hypervehicle/utilities.py:surfce_to_stl"]}
{"id": "C150", "title": "The example scripts for single components write the bodies described", "statement": "The scripts in examples/components each write one STL file with the body described in the documentation of the generic components: cube.py a cube with the given side length, sphere.py a sphere with the given radius, revolved.py the closed body of revolution of the Bezier curve with clustering, swept.py the wedge swept along z.", "quantifier": "for all side lengths, radii, control points that start and end on the axis, clustering strengths above 1, sections and resolutions", "why_tests_cant": "The scripts are run by hand; a test would run them for the one set of values they contain, while a user copies them with other values.", "anchors": ["examples/components/cube.py", "examples/components/sphere.py", "examples/components/revolved.py", "examples/components/swept.py", "docs/source/documentation/components/generic.md"]}
{"id": "C151", "title": "Analysing a component reports the mesh that is written", "statement": "component.analyse() reports the mass properties of exactly the mesh that component.to_stl() writes, whichever is called first and however often; and after vehicle.analyse(densities) it reports, for every named component, the volume and centre of gravity that the analysis of the vehicle has for it, and the inertia divided by the density.", "quantifier": "for all components with a mesh, all vehicles, heaps and densities, every library whose mass properties scale with the density", "why_tests_cant": "The claim concerns every order of calls and the sharing of cached meshes between vehicle and components.", "anchors": ["src/hypervehicle/components/component.py:Component.analyse", "src/hypervehicle/components/component.py:Component.mesh", "src/hypervehicle/utilities.py:assess_inertial_properties"]}
{"id": "C152", "title": "The order in which named components are added does not matter", "statement": "Adding the same components under the same, pairwise different names in another order succeeds as well; generate() then succeeds as well, every component ends with the same patches and options, analyse() gives the same volume, mass, area, centre of gravity, inertia and the same entry for each component, and to_stl() writes the same files with the same contents. Only the numbered default names depend on the order.", "quantifier": "for all lists of additions with distinct objects and distinct names, all options, all permutations, all vehicles whose components share no children, all vehicle transformations, angles, densities and mass-property libraries", "why_tests_cant": "The claim is about all permutations of any number of components with any geometry; a test compares two orders of one vehicle.", "anchors": ["src/hypervehicle/vehicle.py:Vehicle.add_component", "src/hypervehicle/vehicle.py:Vehicle.generate", "src/hypervehicle/vehicle.py:Vehicle.to_stl", "src/hypervehicle/utilities.py:assess_inertial_properties"]}
{"id": "C153", "title": "Areas, volumes and centres of gravity of the meshes converge to those of the surface", "statement": "When stl_resolution grows, the surface area, the enclosed volume and the first moment of component.mesh converge to the area, the flux volume and the first moment of the exact surface, for every component whose patches have continuous partial derivatives (such as Coons patches between lines and Bezier curves); if the volume is not zero, so does the centre of gravity. The area of a Sphere converges to 4 pi r^2 and that of a RevolvedComponent to 2 pi times the integral of the radius over the length of the line.", "quantifier": "for all patches and components with continuous partial derivatives, all radii and centres, all revolve lines, every tolerance", "why_tests_cant": "Convergence is a statement about all resolutions; tests can only compare a few.", "anchors": ["src/hypervehicle/utilities.py:surfce_to_stl", "src/hypervehicle/components/component.py:Component.mesh", "src/hypervehicle/components/polygon.py:Sphere", "src/hypervehicle/components/revolved.py:RevolvedComponent", "src/hypervehicle/geometry/geometry.py:SpherePatch", "src/hypervehicle/geometry/geometry.py:RevolvedPatch"]}
{"id": "C154", "title": "Moving a vehicle moves its mass properties with it", "statement": "Analysing a generated vehicle, transforming it by rotations and translations and analysing it again gives the same volume, mass and area, the centre of gravity carried along by the motion, and tensors of inertia turned by the rotation R to R I R^T, for every component and for the vehicle.", "quantifier": "for all vehicles of closed components, all resolutions, densities and lists of rotations and translations", "why_tests_cant": "The claim concerns every mesh and every motion; a test compares a few numbers for one vehicle.", "anchors": ["src/hypervehicle/vehicle.py:Vehicle.transform", "src/hypervehicle/vehicle.py:Vehicle.analyse", "src/hypervehicle/utilities.py:assess_inertial_properties"]}
{"id": "C155", "title": "The fins of a HIFiRE 4 stand on its wing and body", "statement": "The HIFiRE 4 that ParametricHIFiRE4(**kwargs).create_instance() returns has, once generated, a wing bent lengthwise and across as the curvature multipliers say, and three upright fins as high as the body radius: two at the tips of the wing and one on the body, their feet on the bent surfaces.", "quantifier": "for all keyword arguments of sensible dimensions and all mesh resolutions", "why_tests_cant": "The position of every point of three meshes relative to each other, for all parameter values and resolutions; the tests only generate the default vehicle.", "anchors": ["src/hypervehicle/hangar/hifire4.py:ParametricHIFiRE4.create_instance", "src/hypervehicle/geometry/geometry.py:CurvedPatch", "src/hypervehicle/components/fin.py:Fin"]}
{"id": "C156", "title": "Fins on round bodies grow out of the body", "statement": "In the vehicles with round bodies that ParametricFinner(**kwargs).create_instance() and ParametricHIFiRE8(**kwargs).create_instance() return, the foot of each fin lies in the body once generated, so that fins and body are one solid piece: all corners of the foot are in the body.", "quantifier": "for all keyword arguments of sensible dimensions and all mesh resolutions", "why_tests_cant": "The position of the corners of several meshes relative to the solid bounded by another one, for all parameter values and resolutions; the tests only generate the default vehicles.", "anchors": ["src/hypervehicle/hangar/finner.py:ParametricFinner.create_instance", "src/hypervehicle/hangar/hifire8.py:ParametricHIFiRE8.create_instance", "src/hypervehicle/components/fin.py:Fin"]}
{"id": "C157", "title": "The fins of an X-43 stand on its body at every body angle", "statement": "The rear end of the foot of each fin of the X-43 that ParametricX43(**kwargs).create_instance() returns lies in the body once generated, for every body_angle: the fins follow the slope of the body.", "quantifier": "for all keyword arguments of sensible dimensions, all body angles and all mesh resolutions", "why_tests_cant": "The position of a point of one mesh relative to the solid bounded by another one, for all parameter values and resolutions; the tests only generate the default vehicle, whose body does not slope.", "anchors": ["src/hypervehicle/hangar/x43.py:ParametricX43.create_instance", "src/hypervehicle/components/fin.py:Fin"]}
{"id": "C158", "title": "How far the reported volume of a body of revolution is off", "statement": "For a given stl_resolution n, the volume enclosed by the mesh of a body of revolution is that of the exact body up to a known error. For a body of straight lines it is always too small, by less than the fraction pi^2/(24 n^2), and grows with n; this holds for the fuselage of every Finner, which loses less than one percent at its own resolution. For a revolved curve the error is at most a constant over n, and for a Bezier curve the constant is computed from the control points.", "quantifier": "for all straight-lined profiles, all Bezier curves, all curves of bounded slope, and all resolutions", "why_tests_cant": "An error bound over all profiles and all resolutions; a test compares one body at one resolution with one tolerance.", "anchors": ["src/hypervehicle/components/revolved.py:RevolvedComponent", "src/hypervehicle/components/composite.py:CompositeComponent", "src/hypervehicle/geometry/geometry.py:RevolvedPatch", "src/hypervehicle/geometry/path.py:Bezier", "src/hypervehicle/hangar/finner.py:ParametricFinner"]}
{"id": "C159", "title": "Storing the mesh in single precision", "statement": "The mesh of a component is kept and written in single precision, while its vertices are computed in double precision. Rounding does not open a closed mesh, because equal vertices are rounded equally in all patches; it changes the volume by at most 4 N B^3 / 2^24 for N triangles and coordinates up to B; and a mesh whose vertices are not very close together still passes stl_check. The place of the component does not matter for this.", "quantifier": "for all components, meshes and translations; the first part for every way of rounding", "why_tests_cant": "The statements are about all meshes and all real coordinates; which meshes fail depends on the ratio of position and mesh size, and a test tries a few.", "anchors": ["src/hypervehicle/utilities.py:surfce_to_stl", "src/hypervehicle/components/component.py:Component.surface", "src/hypervehicle/components/component.py:Component.mesh", "src/hypervehicle/components/component.py:Component.stl_check", "src/hypervehicle/components/component.py:Component.translate"]}
{"id": "C160", "title": "stl_check accepts the closed bodies that the components make", "statement": "If the mesh generated by a component is closed and consistently oriented, stl_check returns True for it, at every resolution and with or without the projected area test.", "quantifier": "for all sizes and shapes, all resolutions n >= 1 and all tolerances", "why_tests_cant": "The verdict depends on all edges of a mesh of arbitrary size being different as points in space; tests check one shape at one resolution.", "anchors": ["src/hypervehicle/components/component.py:Component.stl_check", "src/hypervehicle/components/swept.py:SweptComponent", "src/hypervehicle/components/revolved.py:RevolvedComponent", "src/hypervehicle/hangar/wedge.py:ParametricWedge", "src/hypervehicle/utilities.py:surfce_to_stl"]}
{"id": "C161", "title": "The files of scalar sensitivities hold the slopes", "statement": "After a successful sensitivity study of numeric parameters, to_csv writes, in scalar_sensitivities below the output directory, for each parameter the sensitivities of the centre of gravity and of the inertia matrix (row by row), and tables of the sensitivities of mass, volume and area of every component and of the vehicle and of the user-defined properties, with one column per parameter. Whatever depends affinely on a parameter has its slope in the place of the quantity and the parameter.", "quantifier": "every constructor, parameter set, override, non-zero perturbation and output directory; names that are not paths; for the totals no component named \"vehicle\"", "why_tests_cant": "The claim ranges over every constructor and every set of names; a test fixes a vehicle whose labels cannot be confused.", "anchors": ["src/hypervehicle/utilities.py:SensitivityStudy.to_csv", "src/hypervehicle/utilities.py:SensitivityStudy.dvdp"]}
{"id": "C162", "title": "How far the reported surface area of a body of revolution is off", "statement": "For a given stl_resolution n, the surface area of the mesh of a body of revolution on one side of the axis is exactly that of frusta of pyramids with 4n sides inscribed in the cones swept by its segments (or by the n chords of a revolved curve). It is never larger than the area of those cones, lacks at most the fraction pi^2/(24 n^2) of it, and does not shrink when the mesh is made finer.", "quantifier": "for all straight-lined profiles and all planar curves on one side of the axis, and all resolutions", "why_tests_cant": "An exact formula and error bound over all profiles and resolutions; a test compares one body at one resolution with one tolerance.", "anchors": ["src/hypervehicle/components/revolved.py:RevolvedComponent", "src/hypervehicle/components/composite.py:CompositeComponent", "src/hypervehicle/geometry/geometry.py:RevolvedPatch", "src/hypervehicle/utilities.py:surfce_to_stl", "src/hypervehicle/utilities.py:assess_inertial_properties"]}
{"id": "C163", "title": "The mass properties reported for bodies of revolution converge to those of the exact solid", "statement": "Let a smooth line that begins and ends on the x axis be revolved (RevolvedComponent), or let several smooth lines be revolved and combined (CompositeComponent) so that every end away from the axis is the beginning of another line. Let the solid swept have a volume other than zero. Then for every eps > 0 there is a resolution from which on the reported volume, mass, centre of gravity and tensor of inertia are within eps of those of the exact solid: volume pi int r^2 dx, centre of gravity on the axis at int x r^2 dx / int r^2 dx, axial moment rho pi/2 int r^4 dx, transverse moment rho (pi/4 int r^4 dx + pi int (x - c)^2 r^2 dx). The centre of gravity is exactly on the axis, the two transverse moments are exactly equal and the products of inertia exactly zero at every such resolution. For a cone these are the values of the textbooks.", "quantifier": "for all smooth profiles (one or several, any order), all densities, all tolerances and all sufficiently fine resolutions", "why_tests_cant": "A test compares one body at one resolution with a tolerance; the claim is a limit, for every profile and every tolerance.", "anchors": ["src/hypervehicle/components/revolved.py:RevolvedComponent", "src/hypervehicle/components/composite.py:CompositeComponent", "src/hypervehicle/geometry/geometry.py:RevolvedPatch", "src/hypervehicle/utilities.py:surfce_to_stl", "src/hypervehicle/utilities.py:assess_inertial_properties"]}
{"id": "C164", "title": "At every resolution the mass properties reported for bodies of revolution are those of a stack of polygonal frusta", "statement": "Let planar curves (z = 0) be revolved about the x axis whose ends away from the axis meet, and let n be the resolution. The reported volume, mass, centre of gravity and tensor of inertia are exactly those of the solid with the chords over n equal parts of each parameter as profile and regular polygons with 4n corners as cross sections: volume and mass are those of the solid of revolution of the chords times k = 2n/pi sin(pi/2n), the centre of gravity is exactly its centre of gravity, the axial moment is multiplied by k (2 + cos(pi/2n))/3. For bodies made of straight lines there is no error from chords: the centre of gravity is exact at every resolution; volume and mass lack less than the fraction pi^2/(24 n^2), the axial moment less than pi^2/(12 n^2).", "quantifier": "for all planar profiles (one or several lines, any order), all densities and all resolutions n >= 1", "why_tests_cant": "The claim is an exact formula for every profile and every resolution; a test compares some bodies at some resolutions with a tolerance and cannot tell an exact centre of gravity from one that is nearly right.", "anchors": ["src/hypervehicle/components/revolved.py:RevolvedComponent", "src/hypervehicle/components/composite.py:CompositeComponent", "src/hypervehicle/geometry/geometry.py:RevolvedPatch", "src/hypervehicle/utilities.py:surfce_to_stl", "src/hypervehicle/utilities.py:assess_inertial_properties"]}
{"id": "C165", "title": "The sensitivity study of the Finner is exact", "statement": "A sensitivity study of ParametricFinner with any parameters and overrides succeeds. If no parameter and not the perturbation is zero, and the nose is shorter than the rocket, the sensitivities are the exact derivatives of the vertices, whatever the size of the perturbation: for the body (fuselage component), diameter stretches it across the axis, nose_length stretches the nose and compresses the rest, total_length stretches the part behind the nose; for each of the four fins, fin_length, max_fin_thickness and fin_height stretch it from the base of the rocket, its mid plane and its root, total_length moves it back and diameter moves it out by half as much. Other names have no effect. Every vertex is in every table, and the combined table has one row per distinct vertex.", "quantifier": "for all lists of parameters with distinct names, all values, all overrides, all perturbations, and with or without writing the nominal geometry", "why_tests_cant": "The claim is exactness of finite differences for every vertex, every parameter and every perturbation; a test compares some numbers with a tolerance.", "anchors": ["src/hypervehicle/utilities.py:SensitivityStudy", "src/hypervehicle/hangar/finner.py:ParametricFinner", "src/hypervehicle/components/composite.py:CompositeComponent", "src/hypervehicle/components/swept.py:SweptComponent"]}
{"id": "C166", "title": "The mass properties reported are those of a possible body", "statement": "For a closed component mesh that is star-shaped about some point (in particular for every mesh swept between the ends of a convex hexahedron), or that is a body of revolution drawn along the axis, and a positive density, the reported volume and mass are positive, the centre of gravity is inside the convex hull of the vertices, and the moment of inertia is the tensor of a possible body: symmetric, positive about every axis, and with each moment smaller than the sum of two orthogonal to it. If all parts of a vehicle are like this, volume and mass of the vehicle are positive, its centre of gravity is inside the convex hull of all vertices, and its reported moment of inertia is that of a possible body.", "quantifier": "for all closed meshes and all points about which they are star-shaped, all positive densities, all numbers of parts, all convex hexahedra and all resolutions, all dimensions of the Finner and of the Falcon 9", "why_tests_cant": "The claim concerns every axis and every direction for every shape; a test computes some tensors and checks their entries.", "anchors": ["src/hypervehicle/components/component.py:Component", "src/hypervehicle/vehicle.py:Vehicle", "src/hypervehicle/utilities.py:assess_inertial_properties", "src/hypervehicle/hangar/wedge.py:ParametricWedge", "src/hypervehicle/hangar/finner.py:ParametricFinner", "src/hypervehicle/hangar/falcon9.py:ParametricFalcon9"]}
{"id": "C167", "title": "How the densities given to analyse() enter the result", "statement": "analyse(densities) depends on the densities of the vehicle's own components only. Multiplying all of them by a factor multiplies mass and moment of inertia by it and leaves volume, area and centre of gravity. Making one component denser by d adds d times its volume to the mass and moves the centre of gravity straight towards the centre of this component, by the fraction of the new mass that was added. A component of density zero does not count: mass, centre of gravity and moment of inertia are those of the vehicle without it.", "quantifier": "for all vehicles, all meshes of nonzero volume, all densities and factors", "why_tests_cant": "The claim relates analyses of the same vehicle with different densities, for every vehicle and every density; a test compares some pairs.", "anchors": ["src/hypervehicle/utilities.py:assess_inertial_properties", "src/hypervehicle/vehicle.py:Vehicle"]}
{"id": "C168", "title": "The text of a path or patch tells what it is", "statement": "Two vectors print alike if and only if their coordinates do. Two paths (lines, Bezier curves, polylines, splines, arcs, arc-length parameterised paths, sub-ranged and reversed paths, nested in any way) print alike only if they are of the same class and everything inside them prints alike, and in the text of a path every bracket that is opened is closed. The text of a patch lists everything that was done to it, in order, so that patches treated differently print differently.", "quantifier": "for all paths and patches, nested to any depth, and all ways to print numbers without commas and brackets", "why_tests_cant": "That no two different objects share a text is a claim about all pairs of objects, nested to any depth.", "anchors": ["src/hypervehicle/geometry/vector.py:Vector3.__repr__", "src/hypervehicle/geometry/path.py:Polyline.__repr__", "src/hypervehicle/geometry/geometry.py:SubRangedPath.__repr__", "src/hypervehicle/geometry/geometry.py:RotatedPatch.__repr__"]}
{"id": "C169", "title": "The control points passed to the waverider generator shape the vehicle", "statement": "The control points of the planform (p2x, p2y, p3x, p3y) and of the upper surface (u1y, u2x, u3x, u3y) passed to ParametricWaverider are those of the curves the wings are built from, except that a control point of the planform that would be within the fuselage is moved out to the radius of the fuselage at its station. Vehicles that differ in one of them are different.", "quantifier": "for all keyword arguments with sensible values, all resolutions and all heaps", "why_tests_cant": "That a parameter has no effect, or the effect described, is a statement about all pairs of its values and all values of the others; a test compares a few vehicles.", "anchors": ["src/hypervehicle/hangar/waverider.py:ParametricWaverider.__init__", "src/hypervehicle/hangar/waverider.py:ParametricWaverider._create_wings", "src/hypervehicle/hangar/waverider.py:ParametricWaverider._wing1_tf_top", "src/hypervehicle/hangar/waverider.py:ParametricWaverider._get_local_height"]}
{"id": "C170", "title": "The inlet of the X-43 is mounted under the body and does not come out of its back", "statement": "For every ParametricX43 generated at any resolution, the mesh of the inlet stays below the upper edges of the body (up to the width of the rounded edge of the inlet), so that nothing of it shows on the upper side of the vehicle.", "quantifier": "for all keyword arguments with sensible values, all resolutions and all heaps", "why_tests_cant": "Tests look at the default vehicle; whether parts stay inside each other depends on the values of real parameters and must hold for all vertices at all resolutions.", "anchors": ["src/hypervehicle/hangar/x43.py:ParametricX43.create_instance"]}
{"id": "C171", "title": "Every HIFiRE 8 with positive dimensions can be generated and meshed", "statement": "For every ParametricHIFiRE8 with positive length, radii and nozzle length, generate succeeds at every resolution and every component then yields a mesh whose vertices are numbers.", "quantifier": "for all keyword arguments with positive values, all resolutions and all heaps", "why_tests_cant": "Tests generate the default vehicle; whether a square root inside a thickness function stays defined on the whole planform depends on the values of real parameters.", "anchors": ["src/hypervehicle/hangar/hifire8.py:ParametricHIFiRE8.create_instance"]}
{"id": "C172", "title": "The keyword arguments that shape a hangar vehicle are exactly the declared parameters", "statement": "For every generator of the hangar, two calls whose keyword arguments agree on the parameters declared in its __init__ create the same vehicle, so that any other keyword argument (a misspelt one, for example) is ignored; and each declared parameter is used.", "quantifier": "for all keyword arguments, names and values", "why_tests_cant": "Non-interference is a statement about all pairs of argument sets; a test compares single vehicles.", "anchors": ["src/hypervehicle/generator.py:Generator.__init__", "src/hypervehicle/hangar/htv.py:ParametricHTV.create_instance"]}
