{
 "C03": {"note": "Violated: transform_to_global_frame uses self.y*t2.y (vector.py:208). Witness frame, exact condition for the round trip, and correctness of the local transform are proved."},
 "C05": {"note": "Violated part: the test depends on argument order. Characterisation, reflexivity and monotonicity are proved."},
 "C10": {"note": "Violated: the closing line is appended in the wrong direction (path.py:99). Holds when the path is already closed."},
 "C100": {"note": "Proved for all clustering functions when glued sides run along the same parameter in the same direction (bodies of revolution), and for all glued bodies when both directions use one symmetric function. Fails for a closed-ended swept box with clustering in one direction only."},
 "C102": {"note": "Names, generation and closedness are proved for all dimensions with r_n < h < r_o; C102_violated: both meshes are inside out (negative volume) for all such dimensions and all resolutions from 2; the volume of the body tends to -pi (D/2)^2 L_b; C102_hemisphere_violated: with h = r_o create_instance raises."},
 "C103": {"note": "Proved without any inequality between the dimensions."},
 "C104": {"note": "Proved for every list of lines laid end to end."},
 "C105": {"note": "Proved for fins of uniform thickness whose corner p2 is the only point of the leading edge at its x coordinate. Violated when p2 lies above p3, as in the trailing wings of the D-21: bisection then returns the end of the edge and the mesh is open by more than 0.02 for a unit square fin."},
 "C106": {"note": "Proved for elliptical leading edges. A flat leading edge with close_wing and no width function raises TypeError (C106_flat_violated), and its third patch overlaps the second (C62)."},
 "C107": {"note": "Proved: the trailing edge of the X-43 rudders is displaced towards +y by chord*sin(angle in degrees) as documented, at every point; the elevons are deflected by flap_angle in radians, downwards (C107_elevon_partial), so that the documented unit and sign are violated (C107_violated). Rudder chords are not preserved (see C35)."},
 "C108": {"note": "Violated by the X-43 and the HTV: the reflected copy contains the original as well as its mirror image (C108_violated, C108_htv_violated, all parameters). Proved for pairs whose second component has append_reflection=False, among them the flaps of the waverider (C108_waverider)."},
 "C109": {"note": "HIFiRE 8: all parts but the nose, which has a flat leading edge (C110); HIFiRE 4: fuselage closed up to the digits of the radius after the sixth decimal, which leave a hole"},
 "C11": {"note": "Violated: a zero-length segment divides by zero. Holds when all lengths are positive."},
 "C110": {"note": "violated: third leading edge patch overlaps the second (wing.py:281-283), and the flap tip is subdivided differently on both sides; so the nose of the HIFiRE 8 is open; location of all unmatched edges and cancellation of normals proved"},
 "C111": {"note": "proved for closed meshes; violated by components with an appended reflection (zero volume) and by inside out bodies (wedge, HIFiRE 8 fuselage: negative volume and mass)"},
 "C112": {"note": "violated by every component: grid() reads an attribute that is never set, to_vtk() is not implemented"},
 "C113": {"note": "violated: after a failure in parallel mode the mesh raises ValueError whatever is changed, in sequential mode the second use returns the mesh of the patches before the failing one; surface() itself is independent of earlier failures"},
 "C114": {"note": "for wings with elliptical leading edges; fins and revolved bodies bend without new gaps by C99 where their patches agree exactly"},
 "C116": {"note": "Proved for to_stl straight after a generate that analyses. Not true after a further analyse call: the table is then that of the latest analysis, the other files those of generate (C116_violated); results of a call of analyse alone are not written (C116_unwritten_violated)."},
 "C117": {"note": "proved for vehicles whose components are distinct objects; a component added twice is moved twice"},
 "C118": {"note": "The code rotates by nominal aoa plus the slope of the curvature converted from radians, instead of its arc tangent. Proved: the resulting angle for all parameters in the range and a bound on the error; exact when there is no curvature. Violated for x_curve_mult=7 (error 12.3 degrees)."},
 "C120": {"note": "Partial: trailing wings have open meshes, and at fine resolutions the wing has spikes (both proved as violations)."},
 "C122": {"note": "Fails for an empty dictionary of parameters (IndexError)."},
 "C125": {"note": "Proved: every point near vertices gets the sensitivities of one of them, of the only one if there is one, other points zeros; the fraction is that of the points near a vertex. Fails for the choice among vertices closer than the match tolerance (thin wedge)."},
 "C126": {"note": "Constructors: bodies (swept, revolved, ogive, cube, sphere) for every k > 0 when joints are exact, else for k <= 1; wings and fins with a given leading edge width function for k <= 1. Vehicles, analysis and files for every k > 0. Violated by the absolute joint tolerance (k > 1) and by the default leading edge width."},
 "C127": {"note": "Holds for the wedge, the Falcon 9 and the Finner for every factor. Violated by the D-21 (its nose ends at x = -0.6), the HIFiRE 8 (its nose is 0.5 long), the HTV and the X-43 (fixed widths of the rounded edges), the ReFEX (the same, shown for factors above 3 and below 1/3), the HIFiRE 4 (coefficients of its parabolas; shown for the default vehicle and the factor 3) and the waverider (fixed fin; shown for slight curvature and factors above 1.15 and below 0.85)."},
 "C128": {"note": "Proved for components, composites of revolved parts, the centre of gravity of any balanced vehicle, the Finner and the Falcon 9. The inertia the analysis reports for a vehicle has spurious products of inertia (C128_falcon9_violated), as in C78. Assumes numpy-stl's formulas (NumpyStlInertia)."},
 "C129": {"note": "Proved for closed symmetric meshes, all swept components with symmetric sections and the wedge; violated by pairs made with a reflection axis, whose mirrored meshes are inside out."},
 "C13": {"note": "Violated when the plane normal has a non-zero y component (inherits C03). Proved for normals with y=0."},
 "C135": {"note": "C135_partial, C135_missing and C135_none show the clauses about the analysis for all parameters, resolutions and densities. The clause about the fuselage is violated: C135_violated shows that the default waverider writes fuselage.stl, because ghost=True is commented out (waverider.py:228)."},
 "C137": {"note": "OgiveNose documents L_o as the ogive length; it is the length of the cylinder behind the ogive, and the length of the ogive follows from h, r_n and r_o"},
 "C138": {"note": "Proved for surfaces that accept arrays of parameters. Violated: no grid of any CoonsPatch can be made (Vector3 rejects arrays), subgrid always raises, tags are wrapped in a tuple."},
 "C141": {"note": "Holds for vehicles and components; violated by CoonsPatch.__repr__ (prints p10 for p11 and p01) and CubePatch.__repr__ (AttributeError: reads self.r)."},
 "C142": {"note": "Wing resolution assumed low enough that no mesh point falls strictly within the last part of the leading edge (D21Coarse), as for C140_d21_wing."},
 "C143": {"note": "Violated by hangar/refex.py: the script applies CART3D a second time, which undoes it. C143_partial: generate followed by to_stl writes the Cart3D frame."},
 "C144": {"note": "C144_partial holds for every PyMesh whose steps keep the surface, without a prefix and with distinct non-empty tags; C144_waverider applies it to the script of the waverider. Violated: with a prefix the files merged are those without the prefix, so older files are merged instead (C144_stale_violated) or an exception is raised; untagged components raise (C144_untagged_violated); a component tagged with the name of the vehicle loses its file (C144_overwritten_violated). C144_no_pymesh: without PyMesh."},
 "C145": {"note": "C145_partial: for directories without special characters of glob and no trailing slash, and CSV files not hidden and without '.csv' elsewhere in their name. C145_violated: a.csv and a.csv_old.csv both go to a.vtu. C145_ends: no CSV files."},
 "C146": {"note": "Length, width, underside and flaps proved for all sensible dimensions and resolutions; the height is h (L + 0.05) instead of h (C146_violated)."},
 "C148": {"note": "the third fin is made by halving the position of its upper corners, which halves their distance from the axis and not their height over the fuselage: it stands out by its rounded edge only"},
 "C149": {"note": "Proved for cubes, spheres, bodies of revolution that stay off the axis, convex bodies swept between two quadrilaterals and the fins of the Finner. Violated by every body of revolution whose profile ends on the axis (only there, C149_revolved_partial), in particular by the body of the Finner and both bodies of the Falcon 9 (only at the tips, C149_falcon9_partial), and by wings with a flat leading edge without a flap."},
 "C150": {"note": "Proved for the sphere and the body of revolution. Cube takes half the side length, not the side length the documentation names; swept.py passes an argument SweptComponent does not accept and writes nothing."},
 "C154": {"note": "Volume, mass, area, centre of gravity and the tensors of the components move with the vehicle; the vehicle's tensor does only for translations or if all centres coincide: it adds m*r**2 to every row, so after a quarter turn about x it is not R I R^T (C154_inertia_violated, C154_pair_violated). Not covered: components added twice, meshes that are not closed."},
 "C155": {"note": "Violated for strong curvature across: the outer fins ignore curv_y and float above the bent wing; proved: positions of wing and fins for all parameters, contact without curvature across."},
 "C156": {"note": "the flat feet of the fins of the Finner and of the HIFiRE 8 are tangent to the round body: they touch it along one line only"},
 "C157": {"note": "the foot of a fin is level and does not follow the slope of the body: its rear end floats above a body sloping down, and sticks out below one sloping up"},
 "C159": {"note": "The verdict of stl_check does depend on the place: translated far enough, every mesh collapses to a point in single precision (C159_check_violated). f32 is rounding to 24 binary digits without overflow and subnormals."},
 "C160": {"note": "Proved for convex bodies swept between two quadrilaterals with plane faces (hexahedra, prisms, the parametric wedge) and for the fins of the generated Finner, whose section has a flat corner. False for every body of revolution closed on the axis (C160_revolved_violated) and for the body of the Finner (C160_finner_violated) and both bodies of the Falcon 9 (C160_falcon9_violated). Missing: curved swept bodies, wings and fins."},
 "C166": {"note": "Proved for components whose mesh is closed, star-shaped and oriented outwards, for every convex hexahedron and every body of revolution up to the sign of its orientation. For vehicles (and for the Finner with all dimensions) volume, mass and centre of gravity are proved; the reported tensor of a vehicle is possible when all parts have the same centre, and C166_pair_violated proves that it is of no body for two convex parts beside each other (the shift of the axes in assess_inertial_properties is wrong, see C78). C166_wedge_violated: the wedge is inside out, so that its mass and all moments are negative. C166_falcon9_violated: so are both bodies of the Falcon 9, with all dimensions."},
 "C168": {"note": "Proved for vectors, for paths without sub-ranged or reversed paths inside (readability) and without polylines (brackets), for Coons patches given by such edges for faces of spheres and for clustering functions. Violated by sub-ranged and reversed paths, whose text names another class and, inside other paths, nothing else; by polylines, whose closing bracket is missing; by Coons patches given by corners, whose text gives p10 for p11 and p01; by rotated patches, which do not show axis and point; and by structured grids, which do not show their label."},
 "C169": {"note": "Missing because the code violates it: u2x and u3x have no effect (only the y of the thickness contour is used, at the relative span as parameter), u1y and u3y only through their ratio, and p3y is limited by the radius of the fuselage at p2x instead of p3x."},
 "C17": {"note": "Violated for length() (the whole underlying length is reported). All other parts proved."},
 "C170": {"note": "Proved for bodies of at least 2.1 m at every resolution. Violated for bodies of at most 1.4 m (and a tilt of the body of less than about 5.7 degrees): inlet_tf_top is the underside less a fixed 0.05, so the front of the inlet comes out of the back. Missing: bodies between 1.4 m and 2.1 m."},
 "C171": {"note": "Proved for R_nose of at least 0.075 m; violated for every smaller positive R_nose, where the height of the nose cap is the square root of a negative number (C171_violated)."},
 "C172": {"note": "Proved for all ten generators: keyword arguments other than the declared ones have no effect. That each declared parameter is used is proved for the wedge, the Finner and the HIFiRE 8 (meshes determine the parameters), one parameter at a time for the Falcon 9 with a body no wider than its fairing, for the D-21 except the angle of the flaps, for the ReFEX except the length of the wing and the angle of the canards, for the X-43 (for these three, differences of wings and fins below the rounding of their edges are left out) and for four of the HTV; violated by the HTV (h_nom and t_LE_nom have no effect) and not claimed for the others."},
 "C27": {"note": "Violated part: an unknown mirror axis is silently ignored instead of raising. The mirror algebra is proved for x, y, z."},
 "C35": {"note": "Violated by TrailingEdgePatch (tip is not shortened in x when deflected and the hinge height is ignored); exact distance proved. Holds for MeanTrailingEdgePatch. Both start on the trailing edge path."},
 "C36": {"note": "Violated everywhere: BluntConePatch reads attributes that are never set, so every evaluation raises AttributeError (proved)."},
 "C41": {"note": "The j clustering list has ni+1 entries: IndexError for every total surface when ni<nj, mesh stops short of s=1 when ni>nj. Proved for ni=nj, and for the i direction always."},
 "C46": {"note": "matching_lines=False always raises UnboundLocalError; with matching_lines=True a verdict is always returned."},
 "C48": {"note": "Groups are anchored at their first point, so chains are split: concrete chain of three corners stays 0.9*small_distance apart. Proved (before and after repair) when closeness is transitive per coordinate."},
 "C50": {"note": "Violated when a '<name>_mirrored' name already exists (two successive reflections): a patch is overwritten. Append proved when the mirrored names are new; replacement, no axis, precedence of the stored axis proved always."},
 "C51": {"note": "Violated for every component: the mirrored patches point inwards, the signed volume after an appended reflection is exactly 0. Replacement reverses the sign of the volume."},
 "C53": {"note": "Violated: patch_res_r is used for both directions (component.py:275-276) and mirrored names have no entry (KeyError). Proved: with recorded r resolutions the r resolution is used in both directions."},
 "C54": {"note": "Violated: the cache is never invalidated by component operations; proved that every further transformation leaves a cached mesh stale. Proved for a clean cache, for reading twice."},
 "C57": {"note": "Violated: the recorded options are stored on the child but composite generation ignores them (proved for all options). Proved: what is recorded."},
 "C61": {"note": "Violated for every cube and sphere of non-zero size at every resolution: faces west, north and bottom are oriented inward, the others outward (C61_cube_violated, C61_sphere_violated). C61_partial: every undirected edge belongs to an even number of triangles, so there are no gaps."},
 "C62": {"note": "Violated three ways: a supplied t_B2 is replaced by the t_B1 argument (wing.py:163-166), so with only t_B2 supplied no wing generates; the third flat leading edge patch starts at t_B1 and overlaps the second. C62_breaks_partial: t_B1 is honoured, default t_B2 is the midpoint, elliptical patches cover [0,t_B1],[t_B1,t_B2],[t_B2,1]."},
 "C68": {"note": "Violated: a repeated name hides the earlier component. Holds for distinct explicit names that do not look like generated names, each object added once."},
 "C71": {"note": "Violated for reflected components (appended reflections multiply). For components without reflection a second generate leaves every component as after the first; with an analysis the patches agree."},
 "C72": {"note": "Composition violated when the same object was added twice; proved for distinct objects. Raising before generate, tuple coercion and fresh meshes are proved."},
 "C73": {"note": "Violated: earlier transformations are applied to the first component before the unknown one raises. Exact extent of the change is proved."},
 "C74": {"note": "Violated for repeated tags and for tags that look like a generated name. Holds otherwise."},
 "C75": {"note": "Violated with a prefix and for untagged components: the files merged are not the files written. Holds without prefix when every component is listed under its tag."},
 "C76": {"note": "numpy-stl's mass properties and areas are arbitrary functions of the mesh (structure Lib)."},
 "C77": {"note": "Proved for vehicles with mass and for vehicles without components. A vehicle whose component masses add up to zero returns normally with non-finite centre (C77_massless_violated)."},
 "C78": {"note": "The code adds m r_j^2 to every row instead of m(|r|^2 E - r r^T): correct exactly when all centres coincide (C78_partial), otherwise wrong and in general not symmetric (C78_violated)."},
 "C79": {"note": "Recursion between analyse and generate is modelled with a bound on nested calls; C79_terminates shows two suffice."},
 "C81": {"note": "Proved for parameters that are numbers, including failed studies. An array parameter is scaled in place: the caller's array changes (C81_violated)."},
 "C82": {"note": "C82_affine: exact sensitivities of every vertex for affine dependence; C82_zero: nothing finite for a zero parameter or perturbation."},
 "C84": {"note": "C84_values holds always: whatever is reported is right or missing. C84_partial: one row per distinct vertex when coincident vertices stay together. C84_violated: a parameter that separates coincident vertices gives a row without location."},
 "C85": {"note": "C85_before, C85_failed, C85_combined are complete for numeric parameters; the file of a component named all_components is overwritten by the combined file (C85_violated)."},
 "C86": {"note": "For all file lists, points and tolerances with readable tables of equal columns; the XML document and number formatting are not modelled."},
 "C87": {"note": "Proved for parameter names that do not contain 'dxd'; the negation is proved for 'widxdth', whose array is named 'th_sens'."},
 "C88": {"note": "One line per point proved for every input; the caller's file list is unmodified iff the combined file is not in it (negation proved otherwise)."},
 "C89": {"note": "Generator.__init__ modelled as assigning every keyword argument over the attribute dictionary; a keyword named like a method is not distinguished."},
 "C90": {"note": "The parametric wedge is closed with |volume| = chord*thickness*wingspan/2 at every resolution (C90_partial), but its faces point inwards: the signed volume is negative (C90_violated)."},
 "C92": {"note": "Violated for every centre with z different from 0 (the corners are put in z = 0). C92_circle_partial: for centre.z = 0 and r > 0 the boundary points are exactly the circle."},
 "C95": {"note": "Violated: component.surface uses patch_res_r for both directions, so sides use the sweep resolution along section edges and ends the e0 resolution; witness box with sweep 1 and e0 2. C95_partial: holds when sweep equals e0."},
 "C96": {"note": "Signed volume is minus height times area because swept walls face inwards for counterclockwise sections; magnitude as expected."},
 "C97": {"note": "Exact volume at every resolution and its limit."},
 "C98": {"note": "The surface area of cubes is right; the enclosed volume is not: three of six faces point inwards, so cubes and spheres around the origin enclose zero volume (C98_cube_violated, C98_sphere_violated)."},
 "C99": {"note": "For integer resolutions; reflections as vehicle transformations are covered through the component's reflection axis only."}
}
