# Design of the formal model of `hypervehicle`

All paths are relative to `/repo/src/hypervehicle`.  The code was read as text, never run.

## 1. Trusted base

* Lean 4.33.0 kernel and Mathlib as installed.  No axioms of our own, no `sorry`, no `native_decide`/`bv_decide`.
  Every theorem depends on at most `propext`, `Classical.choice`, `Quot.sound` (the gate audits this).
* The correspondence between the Python text and the Lean definitions in `lean/Verif/Model/*.lean`.
  Every definition cites the file and lines it models and says where it simplifies.
* Semantics of Python/numpy that we rely on:
  * `dict` keeps insertion order, assignment to an existing key keeps its position (`Model/Py.lean`).
  * exceptions propagate; modelled as `Except PyErr`.
    A numpy operation that yields `nan`/`inf` (division by zero of numpy floats) is modelled as the error `PyErr.nan`,
    since no theorem may rely on such a value.
  * `numpy.linspace(0,1,n)` is `i/(n-1)`; `numpy.interp` is piecewise linear interpolation on the last bracketing interval.
* Third-party code that is *not* modelled: `numpy-stl` (file writing, `get_mass_properties_with_density`: an arbitrary
  function of the mesh and density in the model; C111, C128 and C129 assume the formulas numpy-stl documents for volume, mass, inertia and centre of
  gravity, hypotheses `Spec.NumpyStl`, `Spec.NumpyStlInertia`), `pymesh`, `pymeshfix`, `scipy.optimize.bisect` (an arbitrary root finder
  characterised by its result), `multiprocess.Pool` (`starmap` returns the results in submission order),
  `pandas` (only the operations used: column-wise concat on index, `duplicated`, `read_csv` of what `to_csv` wrote),
  `xml.etree`, `tqdm`, printing.

## 2. Numbers

Geometry is modelled over the real numbers (Mathlib `ℝ`); floating point rounding is outside the model.
Exception: the mesh builder (`surfce_to_stl`) and the mesh checks are modelled over an *arbitrary* scalar type with
*arbitrary* (lawless) addition and multiplication and an arbitrary storage cast (float64 to float32), so the combinatorial
theorems about meshes (C37, C38, C44, ...) hold verbatim for IEEE arithmetic.
C159 treats the rounding of the vertices on storage (`Model/Storage.lean`: arbitrary rounding, and rounding to 24 binary digits
without overflow and subnormal numbers), with the computation of the vertices still exact.

## 3. Objects

* A path object is a record of closures `call : ℝ → Except PyErr V`, `length : Except PyErr ℝ` (virtual dispatch).
* A parametric surface is `ℝ → ℝ → Except PyErr V`.
* A mesh is a list of triangles.
* A component is a record with its patch dictionary, cached surfaces and mesh, and options; a vehicle refers to components
  by object identity (a heap), so adding the same object twice is represented faithfully.
* A thickness or offset function is a closure `ℝ → ℝ → ℝ → Except PyErr V`.  `fin.py` calls the thickness functions with `x` and `y`
  only (lines 254-255, 345-346, 412-413); the model passes `z = 0`, which is the default of every such function in the package.

## 4. Layout

* `Verif/Model/*`: the model of the code, function by function.
* `Verif/Spec/*`: small independent specifications used to state properties (Bernstein polynomials, directed edge
  multisets, signed volume, ...).  They do not mention model functions.
* `Verif/Lemmas/*`: proof infrastructure.
* `Verif/Props/*`: the property theorems, named by property id, each followed by an `example` showing that a concrete
  non-trivial case satisfies its hypotheses.

If the code violates a property, there is a theorem `Cnn_..._violated` (negation with concrete witness), and a
theorem with suffix `_partial` for the part that does hold.  Section 8 lists the disagreements.

## 5. Evidence for model fidelity

The repository contains reference STL files written by the real code (`tests/data`).  We parsed them as data and compared
with predictions of the model.

**Whole vehicles.**  `tools/fidelity/model.py` is a line-by-line transliteration of the Lean definitions of `Model/Vec`, `Path`, `Surface`,
`Geometry`, `Mesh`, `Bisect`, `Leaf`, `Wing`, the generation part of `Component` and `Vehicle`, and `tools/fidelity/compare.py` one of
`Model/Hangar*.lean`, to floating point Python (own code, written from the Lean text; nothing of `/repo` is executed).  `python3
tools/fidelity/compare.py` builds all ten hangar vehicles at their defaults and compares every vertex of every triangle, in order, with the reference
files: in all 46 files (45 of the hangar and `swept.stl`) the number and order of the triangles agree and **all coordinates are equal after rounding to float32**.
Only `falcon9-revolved-0` has no reference file.  This tests the transliteration, so an error in it that the Lean text does not share
(or conversely) is possible, but it makes an error in the formulas of the model unlikely.  At other resolutions the same program shows where floating
point departs from exact arithmetic: the wing of the D-21 at `wing_stl_res` 5, 7, 9 or 10 raises `ValueError` in `local_ws`, because the `x` of a
grid point lies one unit in the last place outside the leading edge line, so that `bisect` sees no change of sign.  In exact arithmetic
(and so in C120) this does not happen.

**Single predictions:**
* C90: the model proves the signed volume of the wedge is `-(chord*thickness*wingspan)/2`; the reference file
  `hangar/wedge/wedge-swept-0.stl` (1, 0.1, 1) has signed volume -0.0500000 and no unmatched directed edge.
* C102: the exact volume proved for the body of the Falcon 9 at resolution 50 (`polygonalVolume`) evaluates to -658.30904; the
  reference file `hangar/falcon9/falcon9-revolved-1.stl` has signed volume -658.30903, 40000 triangles and no unmatched edge.
* C103: the volumes proved for the Finner evaluate to 6.3261288 (fuselage) and 0.04 (fins); the reference files
  `hangar/finner/*.stl` have 6.3261287 and 0.0399999994, and no unmatched edge.
* C51: the model proves that an appended reflection cancels the signed volume; all reference files of components with an
  appended reflection (`d21-wing-0`, `hifire4-wing-0`, `hifire8-wing`, `htv-wing-0`, `refex-wing-0`, `x43-wing2`, ...) have
  signed volume below 1e-14 although their absolute tetrahedron volume sum is up to 41.
* C37/C52: triangle counts of the reference files are `4*res^2` per patch.
* C120: the reference files `d21-revolved-0`, `d21-revolved-1` have signed volumes -62.35 and -1.65 (`C111_d21_violated`); `d21-fin-1.stl` and
  `d21-fin-2.stl` are open (`C120_d21_violated`).  They were made at `wing_stl_res = 3`, where the wing has no spikes (`C120_d21_partial`).
* C105: of the reference files of fins (`hifire4`, `hifire8`, `x43`, `d21`, `refex`, `waverider`), all are closed after merging vertices closer than
  1e-5 except the two rectangular trailing wings `d21-fin-1.stl`, `d21-fin-2.stl`, which have 18 open edges each, as
  `C105_rectangular_violated` predicts.
* C106: of the reference files of wings, `x43-wing1` (made with `close_wing`) has no unmatched edge after rounding coordinates to 1e-5;
  `htv-wing-1`, `hifire4-wing-0`, `hifire8-wing` and `d21-wing-0` (made without) have unmatched edges in the plane of the root only.
* C110: `hifire8-nose` (a flat leading edge) has unmatched edges away from the root, above the leading edge at the break (1.45, 0.0875) and
  beyond, as `C110_overlap_violated` predicts.
* C111: for the HIFiRE 8 a negative fuselage volume and zero wing and nose volumes are proved; the reference files have -0.0812298, -4e-18
  and -3e-17 (and no unmatched edge of fuselage and fins).
* C108: `C108_violated` predicts 304 triangles in the first flap of the X-43, 608 in the second, and all of the first in the second; so it
  is for `x43-wing1.stl`, `x43-wing2.stl` (and, with 1300 and 2600 triangles, for `htv-wing-1.stl`, `htv-wing-2.stl`).

## 6. Plan per property

| id | modelled | proof |
|----|----------|-------|
| C01 | vector.py operators | algebra over ℝ |
| C02 | `unit`, `normalize` | `sqrt` algebra |
| C03 | both frame changes, including in-place effect | counterexample (line 208 uses `self.y*t2.y`), exact error formula, equivalence |
| C04 | constructor on argument kinds | case analysis |
| C05 | `np.isclose` formula | inequalities; counterexample to symmetry |
| C06 | `Line` | algebra |
| C07 | `Bezier.__call__` in-place loop | induction over loop, de Casteljau = Bernstein |
| C08 | same | via C07 |
| C09 | `Polyline` | induction over segments |
| C10 | `Polyline(closed=True)` | counterexample (closing line in the wrong direction); partial when already closed |
| C11 | division by zero length | counterexample; partial for positive lengths |
| C12 | `Spline.__init__` sweeps | invariants of the sweep, contraction estimate |
| C13 | `Arc` | counterexample inherited from C03; partial for planes with `n.y = 0` |
| C14 | `Arc` errors, length | case analysis, `Complex.arg` |
| C15 | arc-length table and `np.interp` | induction on the table |
| C16 | `Path.length` loop | triangle inequality, induction |
| C17 | `SubRangedPath`, `ReversedPath` | algebra; counterexample for `length` |
| C18 | `roberts`, `clustered_roberts` | monotonicity of `rpow` and Möbius map |
| C19 | `distribute_points`, cluster functions | via C18 |
| C20 | `ElipsePath` with `np.tan` as an arbitrary function | algebra |
| C21 | offset/mean/TE paths | unfolding against pointwise spec |
| C22 | `CoonsPatch.__call__` | algebra |
| C23 | `CoonsPatch.__init__` | case analysis |
| C24 | corner patches, `+`/`-` | algebra; `Props/CoonsInit.lean`: `C24_constructor`, for the constructor with corners |
| C25, C26 | `RotatedPatch` | trigonometric identities |
| C27 | `MirroredPatch` | algebra; unknown axis is silently ignored (counterexample) |
| C28 | `CurvedPatch` | trig of `arctan` |
| C29 | `RevolvedPatch`, `ConePatch` | trig |
| C30 | `SweptPatchfromEdges` search in `linspace` | arithmetic of the index search |
| C31 | `SweptPatch` search loop | list induction |
| C32 | `SurfacePerimeter` with `round` as a parameter fixing multiples of 1e-8 | case analysis |
| C33 | `CubePatch`, `SpherePatch` | algebra |
| C34 | LE patch functions | unfolding, algebra |
| C35 | TE patches | algebra; counterexample for `TrailingEdgePatch` |
| C36 | `BluntConePatch` | always raises (violated) |
| C37–C39 | `surfce_to_stl` for arbitrary arithmetic | loop induction, telescoping |
| C40 | `default_vertex_func` | `rpow` monotonicity |
| C41 | clustering lists | counterexamples, partial for `ni = nj` |
| C42 | `mirror_y` | list map |
| C43 | discrete Stokes | antisymmetric edge sums |
| C44–C46 | `stl_check` | finite-set counting; counterexample for C46 |
| C47, C48 | `stl_repair` with an arbitrary sorting permutation | loop invariants; counterexample for C48 |
| C49–C57 | component operations on patch dictionaries | dictionary lemmas, state machine |
| C58–C61 | swept, revolved, cube, sphere components | flux calculus on boundary loops |
| C62–C64 | wing, fin | algebra on Coons patches |
| C65–C75 | vehicle state machine | invariants over call histories |
| C76–C79 | `assess_inertial_properties` | list sums, linear algebra |
| C80 | CART3D | trig |
| C81–C85 | `SensitivityStudy` | list/dict induction |
| C86–C88 | `append_sensitivities_to_tri` | list induction |
| C89 | `Generator` | dict lemma |
| C90 | wedge end to end | C59 + C43 |
| C91–C93 | common.py | algebra, Bernstein |
| C94, C95 | swept component with a resolution dictionary | boundary sums with different resolutions; counterexample |
| C96 | swept component with copies of one section | shoelace formula, telescoping over the wall cells |
| C97 | `RevolvedComponent` meshes | determinants of rotated cells summed; Riemann sums and the area of the regular polygon in the limit |
| C98 | `Cube`, `Sphere` meshes | affine grids; mirrored faces cancel (violated for volumes) |
| C99 | `generate` pipeline, `transform`, `reflect` | edge sums commute with point maps; orthogonal matrices keep determinants and Gram determinants |
| C100 | `add_clustering_options`, `surfce_to_stl` with clustering, `SweptComponent`, `RevolvedComponent` | an involution on the sides of the patches cancels the boundary sums of arbitrarily sampled grids; concrete box for the negation |
| C101 | `surfce_to_stl`, `Component.mesh`, `RevolvedComponent` | closed balls are convex, so cells of small diameter stay near their corner; Heine–Cantor gives small cells |
| C102 | `hangar/falcon9.py`, `Arc`, `Polyline`, `RevolvedComponent`, `Vehicle.generate` | both arcs written with polar angles (the tangent point is `r_o (cos α, sin α)` from the centre of the ogive); segments of a polyline that do not run forwards and stay above the axis make a line with the same property; exact prismatoid volume of C97 is then negative; clamped linear functions describe the body, whose integral gives the limit |
| C103 | `hangar/finner.py`, `CompositeComponent`, `SweptComponent`, transformations of `add_component`, `Vehicle.generate` | volumes of the three children add up, their end terms cancel; the fin is an extruded quadrilateral moved rigidly (C96, C99) |
| C104 | `CompositeComponent.generate_patches`, `RevolvedComponent`, `Component.mesh` | edge sums over the four grids of one line are the difference of two ring sums, which telescope over the parts and vanish for rings on the axis; volumes of the parts have end terms that telescope in the same way |
| C105 | `Fin.generate_patches` (all patches), `GeometricMeanPathFunction`, `MeanLeadingEdgePatchFunction`, `ElipsePath`, `ArcLengthParameterizedPath`, `RotatedPatch`, `Component.mesh`; `scipy.optimize.bisect` with its published algorithm (`Model/Bisect.lean`) | every patch is compared with an ideal panel between twelve shared curves; the turns of the panels around these curves cancel; the mesh differs from the ideal one by the errors of the break parameter and of the ellipse poles; bisection keeps an interval with a change of sign, which has a root; for `p2` above `p3` (rectangular fin) bisection returns the end of the line and the mesh is open: `C105_rectangular_violated` for one fin, `C105_rectangles_violated` for every fin with a rectangular planform (the rounded corner is missed by a distance comparable with a grid cell) |
| C106 | `Wing.__init__`, `Wing.generate_patches` (skins, leading edge, flap, trailing edge, both closing functions), `Component.mesh` | every patch is an ideal panel between shared curves (skins along the leading edge, ellipses at the breaks and at the tip, the trailing edge and flap); the turns of the panels cancel up to the loop around the root, which the closing patches fill up to the bend of the skins; without them the loop is fixed by the mirror in `y = 0`; a flat leading edge with `close_wing` calls the width function `None`: `C106_flat_violated`; thickness functions need to be defined on a region that contains the planform only |
| C107 | `hangar/x43.py`, `hangar/htv.py`, `Wing`, `Fin`, both trailing edge patches | the flap of a generated wing is a ruled Coons patch from the trailing edge to the hinge line moved by the chord (C35), the hinge line is computed from the corner points and the slant; `x43.py:188` passes degrees where radians are expected, and positive is downwards: `C107_violated`; `htv.py:140` converts: `C107_htv` |
| C108 | `hangar/x43.py`, `hangar/htv.py`, `add_component`, `Component.reflect` | the mesh of a component with a reflection in terms of the mesh of the same component without (C51); in X-43 and HTV the reflected copy keeps the original: `C108_violated`, `C108_htv_violated`; the waverider passes `append_reflection=False` and satisfies it for all parameters, seen after `CART3D` and the rotation as mirror images in `z = 0` (`C108_waverider`) |
| C109 | `hangar/x43.py`, `hangar/htv.py`, `hangar/hifire8.py`, `hangar/hifire4.py`, `hangar/waverider.py`, `Wing`, `Fin`, scipy's bisection, `Vehicle.generate` | corner points, thickness and width functions are computed for symbolic parameters and shown to satisfy the hypotheses of C105 and C106 over the part of the plane where they are defined; bodies are halves in the plane `y = 0`, whose reflection closes them; the flaps of the HTV have their root in another plane, where they stay open (`C106_root_partial`); the curvatures of the HIFiRE 4 are parabolas, so C114 applies with an explicit factor (`hifire4Factor`), and its body of revolution stays closed when bent because its ends are points (C115); violated for radii of more than six decimals: `C109_hifire4_violated`; the thickness of the waverider's wing is itself found by bisection on two cubic curves, whose root is known to 3e-12, and whose slopes are bounded, so that the thickness is defined and bounded over the planform and positive on the leading edge: the section parameter exceeds 1 by so little that the section drops by less than the thickness of the edge (`rise_edge` in `Lemmas/WaveriderBody.lean`); the whole is moved by CART3D and the angle of attack (C117) |
| C110 | `Wing` with `LE_TYPE == "FLAT"`, `FlatLeadingEdgePatchFunction`, `CoonsPatch`, meshing | violated twice. The third patch of the leading edge starts at the first break parameter, so the second is covered again; the tip of the flap is subdivided differently by its neighbours. Both are proved for every wing and resolution by summing height differences over the edges on one vertical line, a sum which vanishes for balanced edges. What holds: all edges without a partner are in the root plane, above the tip or above the doubly covered part, and with both break parameters given the normals cancel |
| C111 | `Vehicle.analyse`, `assess_inertial_properties`, meshes of C51, C90, C109 | numpy-stl's sums are divergence theorem sums `∑ n_x (x0+x1+x2)/6`; for a closed mesh the difference from the signed volume is a sum over edges that cancels in pairs (same for the moments). Violated: an appended reflection changes the sign of every term (`C111_reflected_violated`), the wedge, the fuselage of the HIFiRE 8, the body of the ReFEX, fuselage and nose of the D-21 are inside out |
| C112 | `Component.grid`, `Component.to_vtk` | violated: both raise for every component with patches (`C112_violated`); they leave the component as it was |
| C113 | `Component.mesh`, `Component.surface` | state after a failure computed for all components and positions of the failing patch; violated in both multiprocessing modes; frame lemma for `surface()` |
| C114 | `CurvedPatch`, `Component.curve`, `Wing`, `Fin`, pipeline of `Vehicle.generate` | `Lemmas/Glued.lean`: grids that fit together up to a gap, and what a map does to the gap; `Lemmas/GluedWing.lean`: the grids of open and closed wings, `Lemmas/GluedFin.lean`: of fins (`Props/BentFin.lean`); `Props/Curved.lean`: bending is Lipschitz on a box (`arctan`, `sin`, `cos` are 1-Lipschitz); wing, curvature, reflection and mesh put together for all curvature lists |
| C115 | `RevolvedComponent`, `RevolvedPatch`, `Component.curve`, `Component.mesh` | the boundary of the four quarters is the pair of end circles (`revolve_bdry`); the area of the polygon swept in the plane of an end is a sum over directed edges which vanishes for a closed mesh, and is `4n sin(π/2n)` times the squared radius (`sweep_end`); near the axis the end circles are moved to the axis |
| C116 | `Vehicle.to_stl`, `analyse`, `generate` | contents of the three files (`Model/Results.lean`) as functions of the vehicle's attributes; a small specification of a consistent report (`Spec.Documents`); proved for `to_stl` straight after `generate` (`C116_generated_partial`); an invariant over all call sequences rules out a missing table (`C116_no_crash`); violated when `analyse` is called again with other densities (`C116_violated`) or is the only analysis (`C116_unwritten_violated`), and a later `transform` leaves the files unchanged (`C116_stale`) |
| C117 | `Vehicle.transform`, `Vehicle.generate` | induction over the components (`transformAll_acts`): every component is acted on by the same composition of point maps, a motion (`isMotion_foldl`), and its mesh is the old mesh with the motion applied to the vertices (`C117_transform_partial`, `C117_generate_partial`, consequences in `C117_keeps`); violated by a component added twice, which is moved twice (`C117_twice_violated`) |
| C118 | `hangar/waverider.py` (`_adjust_aoa`, `_curv_xd`, fuselage), `Vehicle.generate` | the keel of the generated fuselage traced through modifier, curvatures, `CART3D` and the last rotation (`C70_points`), its derivative at the nose (`Spec.NoseAngle`); the angle is off by slope − arctan slope, at most a third of the cube of the slope (`C118_partial`), exact without curvature (`C118_flat`); violated by `x_curve_mult=7`: 15.3 degrees instead of 3 (`C118_violated`) |
| C119 | `hangar/refex.py`, `OgiveNose`, `Fin`, `Wing`, `SweptComponent`, `Vehicle.add_component`, `Vehicle.generate` | parts and default names by the four toggles; nose and body are revolved lines ending on the axis (C59), the sections of the transition close (arcs of 60 degrees meet at their ends), canards and tail are fins with a curved leading edge width (C105), the wing is a half wing with its root in `y = 0` (C106); the rigid move by CART3D keeps the meshes closed (C117) |
| C120 | `hangar/d21.py`, `RevolvedComponent`, `Wing`, `Fin`, `Vehicle.add_component`, `Vehicle.generate` | partial: fuselage and nose are revolved lines ending on the axis (C97), the tail is a fin with a break between its ends (C105); the thickness function of the wing is far off all along the last part of the leading edge, so the wing is treated as a wing whose leading edge is well behaved at the sample points only (`Lemmas/WingGrid.lean`); at coarse resolutions (n up to 4 by default) no sample falls into the last part. Violated: the trailing wings are rectangles (C105), their meshes are open; at fine resolutions (n from 5 by default) a vertex of the wing is more than thirty spans above it |
| C121 | `SensitivityStudy.dvdp`, `_compare_meshes` | `Props/Derivatives.lean`: every row is the difference quotient of the curve of its vertex (`study_quotients`, from C82's tables); the mean value inequality bounds its distance from the derivative (`quotient_error`), differentiability gives the limit, uniformly over the finitely many vertices. |
| C122 | `SensitivityStudy.dvdp`, `_compare_meshes`, `_combine` | `Props/StudyOk.lean`: totality of each step of the study from the generation of the vehicles (`makes_built`, `assess_total`, `combine_total`). **Fails** for an empty dictionary of parameters: `_combine` takes the first parameter and raises `IndexError` (`C122_violated` in `Props/WedgeStudy.lean`, for the wedge). |
| C123 | `SweptComponent`, `SweptPatchfromEdges`, `CoonsPatch`, `parametricSurf2stl` | `Props/AffineSweep.lean`: affine maps preserve affine combinations, hence straight walls, Coons patches (their blend has weights of sum 1) and the points in the middle of the cells of the grid; the volume by antisymmetric edge sums over the closed mesh. |
| C124 | `ParametricWedge` (`wedge.py:66-86`), `SensitivityStudy` | `Model/Studies.lean`, `Props/WedgeStudy.lean`: the wedge with a perturbed parameter is the nominal one stretched along an axis (C123), so the study succeeds (C122), vertices that coincide move together (C84), and the quotients are exact. |
| C125 | `SensitivityStudy.dvdp`, `to_csv`, `append_sensitivities_to_tri` | `Props/TriStudy.lean`: composition of C84 (tables), C85 (files) and C86 (matching), assuming that reading a file gives the table written last. Proved for points near one vertex only. **Fails** otherwise: for every match tolerance, the upper and lower corners of a thin enough wedge get the same values, though their heights move in opposite directions (`C125_violated`). |
| C126 | every path, patch and component class; `Vehicle.generate`, `analyse`, `to_stl`; `stl_check` | `C126_bodies_partial`, `C126_wings_partial`, `C126_bisection`: relational (logical-relations style) proof that each constructor and each evaluation maps arguments related by a factor `k` to results related by `k`, for swept, revolved and ogive bodies with exact joints for every k > 0, otherwise for `0 < k <= 1`; `C126_vehicle` for every `k > 0` through the whole pipeline of a vehicle; `C126_check`, `C126_volume` for meshes. Violated by the absolute tolerance of joints (`C126_joint_violated`: for every k > 1) and by the default leading edge width, a fixed number (`C126_width_violated`: for every k other than 1) |
| C127 | `hangar/wedge.py`, `falcon9.py`, `finner.py`, `d21.py` | `C127_wedge_partial`, `C127_falcon9_partial`, `C127_finner_partial`: the relation of C126 is carried through the generators, `add_component` with all its options and `CompositeComponent.add_component`; with `C126_vehicle` it then holds of meshes, volumes, masses and files. Violated by the D-21 for every k other than 1 (`C127_d21_violated`: its nose ends at x = -0.6 for every size). In `Props/SimilarHangar2.lean`, from the sizes of the generated meshes: violated by the HIFiRE 8, the HTV and the X-43 for every k other than 1 and at every resolution, by the ReFEX for k above 3 or below 1/3, by the default HIFiRE 4 for k = 3 (`C127_hifire8_violated`, `C127_htv_violated`, `C127_x43_violated`, `C127_refex_violated`, `C127_hifire4_violated`). In `Props/SimilarWaverider.lean`: violated by the waverider for k above 1.15 or below 0.85 at slight curvature (`C127_waverider_violated`: its fin has a fixed length and height; the bent and turned fin is bounded from both sides by its distance from the origin) |
| C128 | `RevolvedComponent`, `CompositeComponent`, `Vehicle.analyse`, `hangar/finner.py`, `hangar/falcon9.py` | `Props/Symmetric.lean`: the polynomial sums of numpy-stl (assumption `NumpyStlInertia`) equal the second moments of the solid for closed meshes, the differences being sums over edges (`C128_inertia`); moments are invariant under permutations of triangles, so a mesh equal to its quarter turn up to order has none of the moments that change sign (`C128_component`); grid k+1 of a revolved component is grid k turned (`C128_revolved`, `C128_composite`); the triangles of the Finner with equal fins are permuted (`C128_finner`, `C128_vehicle`). `Props/SymmetricFalcon.lean`: exact first moment of a revolved mesh, `C128_falcon9_partial`; violated for the inertia of the vehicle (`C128_falcon9_violated`: I[1][0] = I[2][0] < 0, I[0][1] = 0), a consequence of the defect of C78 |
| C129 | `SweptComponent`, `Component.reflect`, `Vehicle.analyse`, `hangar/wedge.py` | `Props/Mirror.lean`: first and mixed second moments of a mesh equal to its mirror image up to the order of triangles and their starting corner change sign, hence vanish (`C129_component`, `C129_vehicle_partial`); a grid traversed backwards in one parameter, or with exchanged parameters, has the same triangles turned over, proved for sums of cells over multisets; sweeping backwards is `r -> 1 - r`, and the end patches of mirrored sections are the same patches with parameters reversed or exchanged (`C129_swept`, `C129_profile` for all four ways an edge order can be reversed). `Props/MirrorWedge.lean`: all three planes for the wedge (`C129_wedge`). `Props/MirrorPair.lean`: violated for reflected parts, which are inside out: the masses of the pair cancel and their first moments add up instead of cancelling (`C129_reflected_violated`); a vehicle reaching from z = -3 to z = 3 has its centre of gravity reported at z = 4 (`C129_pair_violated`) |
| C130 | `Model/Calls.lean` (scripts as sequences of calls) over all of `Model/Vehicle.lean` and `Model/Component.lean` | Non-interference: every operation commutes with setting all verbosities to 0 (`Props/Verbosity.lean`), by induction over scripts `C130_script`. Printing itself is not modelled |
| C131 | `Model/Calls.lean`, `Model/Vehicle.lean` | Frame lemmas for failing and succeeding calls, induction over scripts, `Props/Properties.lean` |
| C132 | `Model/Geometry.lean`, `Model/Leaf.lean` | The map from cube surface to sphere is one-to-one (algebra on squares of coordinates) and onto (intermediate value theorem); angles of the quarters modulo whole turns; `Props/Cover.lean` |
| C133 | `Model/Mesh.lean`, `Model/Component.lean` | Entry `k i` of the refined parameter list is entry `i`; inversion of the mesh loops; `Props/Nested.lean` |
| C134 | `Model/Vehicle.lean`, `Model/Component.lean`, `Model/Calls.lean` | Frame lemmas for every step of `generate`, `transform`, `analyse` and `to_stl` on all outcomes, then induction over scripts; objects outside the vehicle are equal before and after; `Props/Settings.lean` |
| C135 | `Model/Hangar8.lean`, `Model/Hangar5.lean`, `Model/Vehicle.lean` | A requested analysis does not affect what precedes it; the assessment reads the five names in turn; violated: the fuselage is written by `to_stl`, since `ghost=True` is commented out; `Props/WaveriderMass.lean` |
| C136 | Props/Size | Vertices of a grid mesh are grid points or means of four, so convex regions are kept (`grid_keeps`); Coons patches of straight edges are bilinear (`coons_straight`), so the mesh of a prism lies in each half-space containing its corners (`C136_prism`); the wedge and the fins follow by taking half-spaces, the fuselage from the convex region of cylinder and cone; attained values are grid points at parameters 0 and 1 |
| C137 | `OgiveNose`, `hangar/falcon9.py`, `RevolvedComponent`, `Arc`, `Polyline` | `C137_revolved` from `revolved_mesh` by convexity of the distance from the axis; polar form of the arcs for the profile of the nose; an interval of the profile at full radius contains a grid point of every fine mesh. `C137_ogive_violated`: `L_o`, documented as the ogive length, is the length of the cylinder behind the ogive, so the component is always longer |
| C138 | `StructuredGrid`, `CoonsPatch.__call__` with arrays, `ClusterFunction` | model `Model/Structured.lean` with numpy arrays as shaped functions; `C138_partial` for surfaces that accept arrays (blending of monotone distributions is monotone), `C138_roberts` from C18. Violated by every `CoonsPatch` (a `Vector3` cannot be multiplied by an array, C04), by `subgrid` (calls the constructor with an argument it does not have) and by the tags (stored inside a tuple) |
| C139 | `components/fin.py`, `components/common.py`, `hangar/d21.py`, `hangar/refex.py` | every vertex of the patches computed by `Lemmas/RectFin` is bounded (`Lemmas/FinBounds`): an ellipse arc stays in its quadrant, patches of straight edges are convex combinations; the outline is specified by its supporting lines (`WithinFin`). Vehicles: at the level of the component in the model's `tailArgs`, `trailArgs`, `canardArgs`, before the vehicle transformation. Hypothesis: the leading edge does not turn back along x (true of all four) |
| C140 | `components/wing.py`, `components/common.py`, `geometry.py`, `hangar/refex.py`, `hangar/d21.py` | `C140_wing`: the values of every patch of the model are computed in closed form (`Lemmas/WingBounds`), each is put into the support cone of skins and flap ends; the vertices are read off the grid corners. `C140_refex_wing`, `C140_d21_wing`: the planforms as intersections of half planes (`liesOver_half`). The panels that close the root are in `Lemmas/WingClose`. `C140_flat_wing` (`Props/FlatSize`) is the same for FLAT leading edges, which add nothing to the skins and the flap. |
| C141 | `vehicle.py`, `components/component.py`, `components/common.py`, `geometry/surface.py`, `geometry/geometry.py` | `C141_vehicle`, `C141_vehicle_str`: induction over scripts with the invariant that the counts are those of the types added so far, in the order of first use; `C141_unique`, `C141_sum` show that this fixes the text. `C141_component`, `C141_named` for components (with `C131_components`: work keeps what was chosen for a component). Violated by the texts of Coons patches given by corners (`p10` is printed for `p11` and `p01`) and of cube patches (`AttributeError`). The texts of vectors and numbers are arbitrary strings. |
| C142 | `hangar/d21.py`, `hangar/refex.py`, `vehicle.py`, `components/revolved.py`, `components/wing.py`, `components/fin.py` | `C142_d21`: per-part extents (`revolved_extent`, `C140_d21_wing`, `C139_*`) carried through `generate` to the meshes of the assembled vehicle by `d21_assembled`; extents are stated with `Spans` (bounds on every vertex, attained by a vertex). `C142_overall`: length and width of the union of the six meshes follow from the part sizes alone. `C142_refex`: the parts of the ReFEX in the same way (`refex_assembled`), for every combination of the toggles; of the transition only closedness is said. `Props/WaveriderSize`: `C142_waverider`: the wings of an uncurved waverider (`C140_wing` carried through mirroring, the trivial curvatures, CART3D and the rotation by the angle of attack). |
| C143 | `hangar/refex.py`, `vehicle.py` | `Model/Scripts.lean` models the scripts. Violated by the ReFEX (`C143_violated`): `generate` applies CART3D because the generator added it, the script applies CART3D again, and CART3D is its own inverse, so every file holds its part in the design frame, for all dimensions. `C143_partial`: generating and writing, as the other scripts do, gives the Cart3D frame. Both rest on the sizes of C142, on C117 (the vehicle moves as one body) and on C69 (one file per part). |
| C144 | `utilities.py`, `vehicle.py` | `Model/Tools.lean` models `merge_stls` over the STL files on disk, with the functions of PyMesh as parameters, and runs the effects of `to_stl` on the disk. `C144_partial`: without a prefix and with tagged components, for every PyMesh the steps of which keep the surface (`KeepsSurface`). Violated with a prefix (`C144_stale_violated`: the merged file is made of whatever older files are there), without tags (`C144_untagged_violated`: raises) and by a component tagged with the name of the vehicle (`C144_overwritten_violated`: its file is overwritten). `C144_waverider`: the script of the waverider, for all sensible dimensions. |
| C145 | `utilities.py` | `Model/Delaunay.lean`: the POSIX path functions, `glob` for a directory without special characters, and the loop, on character lists; the ParaView filters are a parameter. `C145_partial` by induction over the files, from the inverse laws of `join`, `dirname` and the last part of a path. Violated by names with `.csv` inside (`C145_violated`: the name is cut at the first `.csv`). |
| C146 | `Model/Hangar2.lean` (`HTV`), `Model/Wing.lean`, `Model/Vehicle.lean` | `Props/HtvSize.lean`: `C146_partial` applies the extents of a wing (C140) to the body and the flaps over their planforms and follows the meshes through reflection and `generate`; length, width, underside and flaps are as given and the body rises to `h (L + 0.05)`. `C146_violated`: that height is `h` only for `L = 0.95`; a body with `L = 2` and `h = 0.1` is more than 0.2 high |
| C147 | `Model/Hangar2.lean` (`X43`), `Model/Wing.lean`, `Model/Vehicle.lean` | `Props/X43Size.lean`: `C147_x43` applies the extents of a wing (C140) and of a fin (C139) to the six parts over their planforms (half planes, with slanted planes for the skins) and follows the meshes through reflection and `generate`. The engine height is read off the vertices of the root between `0.3` and `0.8` of its length, which exist from resolution two on. The flap angle is taken as the code takes it, in radians (C107 records that disagreement); no lower bound is claimed for the inlet beyond the taper of its sides |
| C148 | `Model/Hangar3.lean` (`HIFiRE8`), `Model/Component.lean`, `Model/Wing.lean`, `Model/Vehicle.lean` | `Props/Hifire8Size.lean`: `C137_composite` gives the extents of a composite of revolved components, `C140_flat_wing` those of the nose with its flat leading edge, `C140_wing` and `C139_fin` the others; `C148_hifire8_partial` follows the meshes through reflection and `generate`. `C148_third_fin_violated`: the third fin is made from `0.5 * p1` and `0.5 * p2`, which halves the distance of these corners from the axis and not their height over the fuselage; for base radii from 0.16 on all corners lie in the fuselage and only the rounded edge stands out, by less than 0.08 |
| C149 | `Model/Mesh.lean` (`cellTris`), `Model/Leaf.lean`, `Model/Wing.lean` | `Props/Degenerate.lean`, `Props/DegenerateWing.lean`, `Props/DegenerateHexa.lean`: `Spec.Degenerate` (three points on a line). Cubes and spheres: seen along the normal of the face, the triangle on each edge of a cell has non-zero area (`cell_cross`, an identity whose second term is at most a quarter of the first). Revolved: the cross product of each triangle is a multiple of the mean radius, or of the radius of its edge, and a vector that vanishes only if the two sections agree. `C149_revolved_partial`: degenerate triangles occur only at the ends of the profile. `C149_revolved_violated`: if the profile ends on the axis (every closed nose) there is one at every resolution, since the grid has a pole. `C149_flat_wing_violated`: `TELE_patch` of a wing with a flat leading edge and `flap_length = 0` (the default) collapses to a line. Elliptical and Bezier edges are not treated. Swept: `C149_hexahedron` for convex hexahedra (the normal of each triangle is a non-zero multiple of that of its face); the end faces of the fins of the Finner have one flat corner, and no triangle has both sides along it (`flat_normal`), so that `C149_finner_partial` holds for its fins, while its body has a triangle without area at the nose (`C149_finner_violated`). `Props/CheckFalcon.lean`: the Falcon 9 with all its dimensions; x decreases along the outline of its fairing and the outline of its body does not meet itself, so that the only triangles without area are those at the tips (`C149_falcon9_partial`), where there are some at every resolution (`C149_falcon9_violated`). |
| C150 | `Model/Examples.lean`: the four scripts with their values as parameters; the check of keyword names in a call | `Props/Examples.lean`: the meshes of `faces_mesh`, `C100_revolved_partial` (clustering keeps bodies of revolution closed) and `C18_roberts` followed through `to_stl`. `C150_cube_violated`: the documentation says that `Cube` takes the side length, the code takes half of it (as its docstring says). `C150_swept_violated`: the script passes `sweep_axis`, which `SweptComponent` does not take, so it ends with `TypeError` |
| C151 | `Model/Examples.lean` (`Comp.analyse`), `Model/Vehicle.lean` | `Props/Examples.lean`: reading a mesh is stable (`mesh_stable`), so `assessAll` leaves the answer of `analyse` alone for every component, also if one object is added under two names; induction over the named components |
| C152 | `Model/Vehicle.lean` | `Props/Order.lean`: `Spec.Reordered` (same heap and settings, components and names permuted, same results up to the order of the entries). Induction over the permutation: two additions, two assessments and two written files commute; for `generate` and `transform` the final state of each object is a function of its own initial state (`genAll_spec`, `genAll_children`, `transformAll_spec`), so the order cannot enter; sums are symmetric. `C152_script` composes adding, generating and writing. Default names (`wing_1`, ...) depend on the order by design and are excluded |
| C153 | `Model/Mesh.lean`, `Model/Component.lean`, `Model/Leaf.lean`, `Model/Surface.lean` | `Lemmas/MeshLimit.lean`: for a quantity of triangles that is proportional to the normal, the four triangles of a cell contribute, by the mean value theorem and uniform continuity, the value of the integrand at the cell up to a vanishing error; Riemann sums. `Props/AreaLimit.lean`: area, volume, moment, components, Coons patches. `Lemmas/SphereMap.lean`: the gnomonic projection maps the face of the sphere onto the square one to one (by the covering lemmas of C132), change of variables, and two elementary integrals give a sixth of 4π. `Props/BodyArea.lean`: spheres, bodies of revolution |
| C154 | `Model/Vehicle.lean` (`transform`, `analyse`, `compositeMoi`) | `Props/MovedMass.lean`: moments of a closed mesh under a rotation (sum by sum) and under a translation (`closed_sum`), so volume stays, centroid moves and the central second moments are turned; with C111, C128 and C117 this gives `C154_component` and `C154_transform_partial` (analyse, transform, analyse; the caches filled by the first analysis are dropped by `transform`). The inertia of the vehicle adds `m * r**2` to all rows (utilities.py:221-222), which does not turn with the vehicle: `C154_inertia_violated` for a quarter turn about x whenever two centres differ, `C154_pair_violated` for a generated vehicle of two parts |
| C155 | `Model/Hangar4.lean` | `Props/Hifire4Fins.lean`: the nodes of the bent wing are the images of the nodes of the flat wing (C140), so every half space with the bent box contains the mesh, and the tips of the flap are nodes; the fins by C139 and the quarter turn. `C155_hifire4_partial`: all parts where they should be; without curvature across, the flap tips are the middles of the rear feet. The fins are shifted by `curv_x` only (hifire4.py:145-148), not by `curv_y`: `C155_floating_fins_violated`, for `y_curve_mult = 3` the wing lies in the epigraph of a paraboloid and the outer fins more than 3 cm outside, at every resolution |
| C156 | `Model/Hangar.lean`, `Model/Hangar3.lean` | `Props/Joined.lean`: a point is in a convex body iff it is in every half-space with the vertices of its mesh. `C156_finner_partial`: the middle line of the foot of each fin lies on the mesh of the body (edges of its cells), its ends are vertices of the fin. But the flat foot is put at the distance of the radius (finner.py:104, hifire8.py:99-102), so it is tangent: `C156_finner_violated`, the rear corners of the foot are outside of the body, and body and fin have only points of one line in common; `C156_hifire8_violated`, all corners of the feet of the three fins are outside of the fuselage |
| C157 | `Model/Hangar2.lean` | `Props/X43Fins.lean`: the bounds on the body and the corners of the fins by C147. `C157_x43_partial`: without slope the heel of each fin is between the sides of the rear of the body. The foot is level, at the height of the middle of the body at its front end (x43.py:276-282): `C157_x43_violated`, whenever the body falls or rises by more than its height over the length of the fin, the heel is separated from the body by the plane of its upper or lower side (example: 15 degrees either way) |
| C158 | `Model/Surface.lean`, `Model/Component.lean`, `Model/Path.lean`, `Model/Hangar.lean` | `Props/VolumeError.lean`, `Props/BezierVolume.lean`: quantitative version of C97, C103 and C104. The polygon with 4n corners covers the fraction sin(θ)/θ of the circle with θ = π/(2n); it is between 1 - θ²/6 and 1 and increases with n (strict concavity of the sine). `C158_straight`, `C158_finer`, `C158_finner` follow by scaling. `C158_revolved`: every frustum differs from the integral over its part by the modulus of continuity of the radius. `C158_bezier`: the bounds on the slopes of a Bezier curve are those of its control polygon, from the derivative of the Bernstein sum |
| C159 | `Model/Storage.lean` | `Props/Storage.lean`: `C159_storage` shows, by following `surfce_to_stl` and `Component.mesh` with a rounding function in place of the exact storage, that the stored mesh is the exact mesh with every vertex rounded; `C159_closed` and `C159_volume` follow, the latter with `C159_f32` (error of rounding to 24 binary digits). `C159_check_partial`: rounding is injective on vertices that are further apart than 2^-22 of the largest coordinate. `C159_check_violated`: far from the origin all vertices are rounded to one point, so the last sentence of the property fails for every component |
| C160 | `Model/Mesh.lean`, `Model/Leaf.lean`, `Model/Hangar.lean` | `Lemmas/ConvexFaces.lean`, `Props/PassCheck.lean`: `C160_hexahedron_partial` for bodies swept between two quadrilaterals with plane faces that are convex: within a face the bilinear patch is injective (positive Jacobian) and a directed edge determines the cell on its left; two faces with a directed edge in common would have parallel normals by convexity. `C160_prism_partial` and `C160_wedge_partial` are special cases. `C160_revolved_violated`: every body of revolution closed on the axis has triangles with two equal corners at its tips, so the check rejects it although its mesh is closed (C60). `Props/FinnerCheck.lean`: `C160_finner_partial` for the four fins of the generated Finner: their section has a corner in the middle of the base, so the vertices are mapped to those of the strictly convex body with that corner pulled out, and a closed mesh whose image is watertight is watertight. `C160_finner_violated` for its body `C160_falcon9_violated` (`Props/CheckFalcon.lean`): both meshes of the generated Falcon 9 are closed and rejected |
| C161 | `Model/Sensitivity.lean` (`scalarEvents`, `propertySensEvents`, `dvdp`) | `Props/ScalarFiles.lean`: the contents of a file are the last write to its path, cells are looked up by label and column; `C161_centre`, `C161_inertia`, `C161_component`, `C161_vehicle`, `C161_property` show that the slopes of C82 are found there: the labels `{component}_{quantity}` are unambiguous and no other write goes to these paths. As in C82 the table of a perturbed vehicle is compared on the labels of the nominal one |
| C162 | `Model/Surface.lean`, `Model/Component.lean`, `Model/Mesh.lean` | `Props/AreaError.lean`: quantitative version of C153 for bodies of revolution, beside C158. Turned into the symmetric position, the four triangles of a cell are parts of one plane trapezium, so that their areas add up to its area (`revolve_cell_area`). `C162_straight`, `C162_curved` sum this over the grids; N sin(π/N) and cos(π/N) increase with N, which gives `C162_finer` and the bounds. `Props/FinnerMass.lean`: `C162_finner` for the fuselage of the generated Finner with all its dimensions, with the textbook area of cone, cylinder and base |
| C163 | `Model/Surface.lean`, `Model/Leaf.lean`, `Model/Component.lean`, `Model/Mesh.lean`, `Model/Vehicle.lean` | `Props/InertiaLimit`: the sums over triangles of volume, first and second moments are quantities to which the limit theorem for meshes (`Lemmas/MeshLimit`) applies; the flux of the position through a quarter of the surface does not depend on the angle; integration by parts along each line leaves boundary terms that cancel because the ends meet; symmetry under a quarter turn (C128) gives the rest. numpy-stl is assumed to compute what its source says (`NumpyStlInertia`), as for C111 and C128 |
| C164 | `Model/Surface.lean`, `Model/Leaf.lean`, `Model/Component.lean`, `Model/Mesh.lean`, `Model/Vehicle.lean` | `Props/InertiaExact`: the four triangles of a cell contribute the cone over a plane trapezium, whose moments are computed exactly as an integral along the chord plus boundary terms (`ConeCell`); rotations about the axis leave the quantities alone, so all cells of a ring contribute the same; the boundary terms telescope along each line and cancel where ends meet. Straight lines: the integral over chords is the integral over the line (`slice_straight`). Uses the specification of the exact solid from C163. `Props/FinnerMass.lean`: `C164_finner` for the fuselage of the generated Finner, with the textbook values of a cone on a cylinder (`Spec.ConeCylinder`) |
| C165 | `Model/Studies.lean` (`Finner.ctor`), `Model/Hangar.lean`, `Model/Sensitivity.lean`, `Model/Component.lean`, `Model/Mesh.lean` | `Props/FinnerStudy`: `study_exact` reduces a study of any vehicle with several components to how the perturbed meshes are images of the nominal ones; the body is a piecewise affine image (each grid is an affine image, `gridMesh_image`, and the pieces agree where they meet), the fins are affine images of one drawing (`C123_swept`) put on the rocket by quarter turns |
| C166 | `Model/Vehicle.lean` (`analyse`, `summarise`), `Model/Component.lean`, `Model/Mesh.lean`, `Model/Hangar.lean` (`Wedge`) | `Props/Physical`: `C166_component` (the moments of a closed mesh are sums over the tetrahedra from the centre of the star, each with the positive definite form of a solid tetrahedron), `C166_hexahedron` (every swept convex hexahedron is star-shaped about its centre; `s` is the sign of the orientation), `C166_parts_partial`, `C166_vehicle_partial` (missing: the tensor reported by `analyse`, which is possible only if all parts have the same centre; it shows that the sum of the parts with the correct shift is), `C166_pair_violated` (two convex parts beside each other: the tensor reported for the vehicle is of no body), `C166_wedge_violated` (the wedge is inside out: negative volume, mass and moments); `Props/PhysicalRevolved`: bodies of revolution (`C166_composite`, `C166_revolved`) from the exact values of C164, since their meshes need not be star-shaped at low resolution; `Props/PhysicalFinner`: all parts of the Finner (`C166_finner_partial`; its fins have a flat corner, `weak_star`); `Props/PhysicalFalcon.lean`: the two bodies of the Falcon 9 are outlines drawn backwards (`C166_falcon9_partial`), so that volume, mass and all moments reported are negative (`C166_falcon9_violated`) |
| C167 | `Vehicle` (`analyse`, `assessOne`, `summarise`), `Inertia` (`NumpyStlInertia`) | `Props/Densities`: `C167_only_named`, `C167_scaled`, `C167_denser`, `C167_weightless`; the two analyses follow each other on the same vehicle (the caches filled by the first do not matter); assumed: numpy-stl's formulas for volume, mass, centre and tensor |
| C168 | `Model/PathText.lean` (`Vec.str`, `Vec.repr`, `PrintedPath.repr`, `PrintedPath.str`, `PrintedPatch.repr`), `Model/GridText.lean` (clustering functions, structured grids; the objects are the attributes that are printed) | `Props/PathText.lean`, `Props/PatchText.lean`: `C168_vector`; `C168_paths_partial` (unique readability, by mutual induction over nested paths: a text followed by anything can be cut in one way only; missing: sub-ranged and reversed paths), `C168_subrange_violated` (they hide what they are made of and carry the name of another class), `C168_brackets_partial`, `C168_polyline_violated` (the text of a polyline lacks the closing bracket), `C168_patch_partial`, `C168_rotated_violated` (axis and point of a rotation are not shown); Coons patches: `C168_coons_edges` (cut at the four edges), `C168_corners_partial`, `C168_corners_violated` (`p10` is printed for `p11` and `p01`); `C168_sphere`; `Props/GridText.lean`: `C168_clusters`, `C168_grid_partial`, `C168_grid_violated` (the label is not shown) |
| C169 | `hangar/waverider.py` (`Waverider.edge`, `contour`, `wingTop`) | `Props/WaveriderShape`: `C169_partial` (where `p3y` is not below the radius of the fuselage at `p2x`, the leading edge is the Bezier curve of the control points given and the upper surface follows the ratio `u3y / u1y`); `C169_upper_violated` (`u2x` and `u3x` have no effect whatsoever), `C169_height_violated` (only the ratio of `u3y` to `u1y` has an effect), `C169_planform_violated` (`p3y` has no effect below the radius at the station of the other control point), `C169_narrow_violated` (and may stay within the fuselage at its own). The violations compare the complete states returned by `create_instance`. |
| C170 | `hangar/x43.py` (`X43.inletTop`, `inletBot`, `inletArgs`, `bodyArgs`) | `Props/X43Inlet`: `C170_partial` (bodies of at least 2.1 m); `C170_violated` (bodies of at most 1.4 m and a moderate tilt: the upper side of the inlet is 50 mm above the underside of the body whatever the size, while the thickness of the body shrinks with its length, so that the inlet sticks out of the back; witness `ParametricX43(body_length=1.2)`). Between 1.4 m and 2.1 m nothing is claimed. The planform of the inlet is followed exactly (`X43.inlet_narrow`), which the earlier bound by a rectangle did not. |
| C171 | `hangar/hifire8.py` (`HIFiRE8.noseTf`, `noseArgs`) | `Props/Hifire8Nose`: `C171_partial` (`R_nose` at least 0.075 m); `C171_violated` (every `R_nose` between 0 and 0.075 m: the tip of the nose cap is 0.15 m wide whatever the radius of the front, so that the cap widens beyond the circle which gives its height; the square root of a negative number follows at the corner where the two parts of the cap meet, at every resolution; witness `ParametricHIFiRE8(R_nose=0.05)`). numpy returns `nan` with a warning there and the vertex of the STL is `nan`; in the model evaluating the patch is the error `nan`. |
| C172 | `generator.py`, `hangar/*.py` (`Generator.init`, the ten `instanceOf`) | `Props/Declared`: `C172_*_partial` for the ten generators (keyword arguments outside a list of names have no effect; the list is that of the declared parameters, for the HTV a proper part of it); `C172_violated` (the HTV declares `h_nom` and `t_LE_nom`, which have no effect). That each declared parameter has an effect is proved for four generators, and in part for four more, below; for the waverider see C169, where the effect of some is null too. Keyword arguments named like a method are not modelled. `Props/DeclaredUsed`: for the wedge (`C172_wedge_used`), the Finner (`C172_finner_used`) and the HIFiRE 8 (`C172_hifire8_used`) different parameters give different meshes, so that each declared parameter is used. For the Falcon 9 (`C172_falcon9_used`, body no wider than the fairing) changing any one of the six parameters changes a mesh; that the radii of nose and ogive cannot compensate each other is not proved. For the D-21 (`C172_d21_used_partial`) equal meshes give equal radius and length of the body, and width and length of the wing equal up to the rounded edges (0.05 and 0.06); smaller differences of the wing and the angle of the flaps are missing. `Props/DeclaredRefex` (`C172_refex_used_partial`): for the ReFEX with all its parts, equal meshes give equal length and radius of the body and length of the fairing, link the radii of nose and ogive, and give span of the wing, height of the tail and thicknesses equal up to the rounded edges; the length of the wing and the angle of the canards are missing. `Props/DeclaredX43` (`C172_x43_used_partial`): for the X-43 equal meshes give equal length and width of the body and lengths of wings and fins, and, up to the rounded edges, equal span, angle of the body, for the same angle heights of fins and engine, for the same flaps sweep, and the reach of rudders and (level body) flaps turned out of fins and wings; differences below these bounds are missing. `Props/DeclaredHtv` (`C172_htv_used_partial`): for the HTV the mesh of the body determines length and width, and height and thickness of the edge up to the tolerances of the model; the nominal length and width and the angle of the flaps are missing. |

## 7. Coverage of the code by the model

| file | modelled in | not modelled |
|------|-------------|--------------|
| `geometry/vector.py` | `Model/Vec.lean`: constructor, operators, norms, frames, tolerance test, cross product; `Model/PathText.lean`: `__repr__`, `__str__` | |
| `geometry/path.py` | `Model/Path.lean`: all classes and functions; `Model/PathText.lean`: `__repr__` of paths; `Model/GridText.lean`: of clustering functions | the iteration of `np.linspace` is `i/(n-1)` |
| `geometry/surface.py` | `Model/Surface.lean`: `CoonsPatch` and its operators; `Model/Structured.lean`: `StructuredGrid` and Coons patches called with arrays; `Model/Text.lean`: `__repr__` of Coons patches given by corners; `Model/PathText.lean`: given by edges; `Model/GridText.lean`: `__repr__` of `StructuredGrid` | |
| `geometry/geometry.py` | `Model/Geometry.lean`: all classes; `Model/Text.lean`: `CubePatch.__repr__`; `Model/PathText.lean`: the other `__repr__`, `__str__` | objects are closures, so later assignment to attributes of a patch is not expressible |
| `components/component.py` | `Model/Component.lean`, `Model/Mesh.lean` (`stl_check`, `stl_repair`), `Model/Copy.lean` (copying), `Model/Grid.lean` (`grid`, `to_vtk`), `Model/Text.lean` (`__repr__`, `__str__`) , `Model/Examples.lean` (`analyse`) | printing and plotting |
| `components/composite.py` | `Model/Component.lean` | |
| `components/swept.py`, `revolved.py`, `polygon.py` | `Model/Leaf.lean` | |
| `components/wing.py`, `fin.py`, `common.py` | `Model/Wing.lean` | `bisect` is an arbitrary function in the model of the components; `Model/Bisect.lean` gives the algorithm of scipy, which is used for C105 |
| `utilities.py` | `Model/Mesh.lean` (`surfce_to_stl`), `Model/Storage.lean` (the type of its array), `Model/Vehicle.lean` (`assess_inertial_properties`), `Model/Sensitivity.lean` (`SensitivityStudy`, `append_sensitivities_to_tri`), `Model/Tools.lean` (`merge_stls`, with PyMesh as a parameter, on the STL files on disk), `Model/Delaunay.lean` (`csv_to_delaunay`, `convert_all_csv_to_delaunay`, with ParaView as a parameter) | ParaView and PyMesh themselves, `print_banner`; float formatting, XML writing and the file system are abstract |
| `vehicle.py` | `Model/Vehicle.lean`: the whole class as a state machine over a heap of components; `Model/Results.lean`: contents of the analysis files; `Model/Text.lean`: `__repr__`, `__str__` | printing; `numpy-stl` mass properties are a parameter; number formatting of the analysis files |
| `generator.py` | `Model/Sensitivity.lean` (`Generator.init`) | |
| `hangar/*.py` | `Model/Hangar.lean`: the wedge, the Falcon 9, the Finner; `Model/Hangar2.lean`: the X-43, the HTV; `Model/Hangar3.lean`: the HIFiRE 8; `Model/Hangar4.lean`: the HIFiRE 4; `Model/Hangar5.lean`: the waverider (`Model/Hangar8.lean`: its densities); `Model/Hangar6.lean`: the ReFEX; `Model/Hangar7.lean`: the D-21; `Model/Scripts.lean`: the script of the ReFEX | |

## 8. Disagreements between code and properties

Every entry is a theorem `Cnn_..._violated`; the entry is its documentation.  `tools/disagree.py` writes this list.

<!-- disagreements -->

* `C03_roundtrip_violated` (`Props/Vec.lean`): C03 is violated: there is a right handed orthonormal frame and a vector that does not survive the round trip (the receiver of `transform_to_global_frame` is the result of the local transformation).
* `C05_symmetry_violated` (`Props/Vec.lean`): C05 is violated as to symmetry: with the default tolerances the test depends on argument order.
* `C100_violated` (`Props/Clustering.lean`): C100 fails: with a clustering function in the `i` direction alone, the watertight unit box gets a mesh that is not closed, because the end patches sample the section edges with either parameter while the walls use the second one only.
* `C102_hemisphere_violated` (`Props/Falcon9.lean`): The fairing cannot be built when the ogive radius equals the fairing radius: the tangent point is then the tip, the arc of the nose ends where it begins, and the polyline asks for its length.
* `C102_violated` (`Props/Falcon9.lean`): C102 fails in the sign, for all dimensions and all resolutions from 2: both lines run towards negative `x`, so the surfaces are inside out and enclose negative volumes. With the resolutions of the generator this is the vehicle as built.
* `C105_rectangles_violated` (`Props/FinRects.lean`): C105: no rectangular fin is closed, at any resolution from 2 on: the root finder returns the end of the leading edge instead of the corner, so that nothing covers the edge of the upper skin. The gap is of the size of the cells of the mesh.
* `C105_rectangular_violated` (`Props/FinRect.lean`): C105: a fin whose corner `p2` lies above `p3` is far from closed: bisection returns the end of the leading edge instead of the corner, so that no edge of the mesh lies along the upper skin between `p1` and `p2`. Concretely a unit square fin of thickness 0.1 leaves a gap of more than 0.02.
* `C106_flat_violated` (`Props/WingClosed.lean`): C106 is violated: a closed wing with a flat leading edge and no leading edge width never generates.
* `C107_violated` (`Props/Flaps.lean`): C107 is violated by the X-43, where `flap_angle` is documented as degrees, positive upwards (the direction `-z`), and used as radians, positive downwards: with `flap_angle=1` the trailing edge goes down by more than four fifths of the chord instead of up by a fiftieth, with `flap_angle=10` it lies in front of the hinge.
* `C108_htv_violated` (`Props/Htv.lean`): C108 is violated by the HTV as well: the third component, meant to be the flap on the other side, contains the second one.
* `C108_violated` (`Props/Flaps.lean`): C108 is violated by the X-43: whatever the parameters, the component `wing2`, which is meant to be the mirror image of `wing1`, contains `wing1` as well, so that the vehicle has every triangle of the first flap twice.
* `C109_hifire4_violated` (`Props/Hifire4.lean`): C109 is violated for the HIFiRE 4: `y_o` rounds the radius of the body to six decimal places, but the base is drawn with the full radius, so the line of the fuselage ends off the axis. With radius 0.2000004 and no curvature the generated mesh of the fuselage has a hole.
* `C10_closed_violated` (`Props/Polyline.lean`): C10 is violated, in general: whenever the end point `p1` of the segments is further than the tolerance from the start point `p0`, the "closed" polyline ends at `p1`, so it is *not* closed.
* `C10_closed_violated_witness` (`Props/Polyline.lean`): Concrete instance: an open L-shaped polyline, closed by the code, still ends at (1,1,0).
* `C110_hifire8_violated` (`Props/Hifire8.lean`): C110 is violated by the HIFiRE 8: whatever its (sensible) dimensions and mesh resolutions, each half of the nose has an edge without a partner away from the plane of symmetry, and the two halves do not bound a solid.
* `C110_overlap_violated` (`Props/FlatEdge.lean`): C110 is violated: if the second break parameter is not given, the leading edge between the first break parameter and half way to the end is covered twice, and there are edges without a partner above the leading edge at the first break parameter, away from the root. This holds for every wing whose leading edge is not in the root plane and has a thickness there, at every resolution.
* `C110_tip_violated` (`Props/FlatEdge.lean`): C110 is violated, for all flat leading edges: the edge at the tip of the flap is divided into as many parts by the leading edge as its upper half and its lower half are by the patch that closes the flap. So there are edges without a partner above the tip `B0`, for every wing with a thickness there whose tip is not in the root plane, at every resolution.
* `C111_d21_violated` (`Props/D21.lean`): C111 is violated for the D-21: for all its dimensions `analyse` reports negative volumes for fuselage and nose, whose lines run from nose to base, and no volume for the wing, which is added with its reflection.
* `C111_hifire8_violated` (`Props/MassProps.lean`): C111 is violated by the HIFiRE 8: whatever its (sensible) dimensions, mesh resolutions (of the fuselage: at least 2) and densities, the reported volume of the fuselage is negative, and the reported volumes and masses of wing and nose are zero.
* `C111_refex_violated` (`Props/Refex.lean`): C111 is violated for the ReFEX: for all its dimensions `analyse` reports a negative volume for the body, whose line runs from nose to base, and no volume for the wing, which is added with its reflection.
* `C111_reflected_violated` (`Props/MassProps.lean`): C111 is violated by every component added with its reflection: whatever it looks like and whatever its density, its reported volume and mass are zero.
* `C111_wedge_violated` (`Props/MassProps.lean`): C111 is violated by the wedge: whatever its dimensions, the reported mass is minus the density times half of chord times thickness times span.
* `C112_violated` (`Props/Failure.lean`): C112 is violated by every component: `grid` of a component with patches raises, and writing VTK files raises for every component.
* `C113_parallel_violated` (`Props/Failure.lean`): C113 is violated with multiprocessing (the default): if one patch cannot be meshed, every later use of the mesh raises a `ValueError`, whatever is done to the patches, resolution and clustering of the component in between.
* `C113_sequential_violated` (`Props/Failure.lean`): C113 is violated without multiprocessing: if a patch after the first cannot be meshed, the first use of the mesh raises, the second returns the mesh of the patches before it.
* `C116_unwritten_violated` (`Props/Results.lean`): C116 fails for results computed by calling `analyse`: `to_stl` promises to write analysis results that are present, but writes those of `generate` only.
* `C116_violated` (`Props/Results.lean`): C116 fails for a vehicle which is generated with an analysis and then analysed with other densities (`vehicle.py:367-378`: the table is that of the latest `analyse`, the centre of gravity that of `generate`): the files written report no analysis of the vehicle at all. Here the table gives the masses 2 and 1 of components centred at `x = 0` and `x = 3`, and the centre of gravity is written as `x = 2`.
* `C117_twice_violated` (`Props/OneBody.lean`): C117, violated: a component that has been added to the vehicle twice is moved twice, so that the vehicle does not move as one body.
* `C118_violated` (`Props/WaveriderAngle.lean`): C118 is violated: `ParametricWaverider(x_curve_mult=7)`, for which the slope at the nose is 1, meets the flow not at 3 degrees but at `3 + (180 - 45 π) / π`, more than 15 degrees.
* `C11_zero_length_violated` (`Props/Polyline.lean`): C11 is violated, in general: a polyline of at least two segments of known lengths and positive total length one of which has zero length is constructed, but raises for *every* parameter.
* `C11_zero_length_violated_witness` (`Props/Polyline.lean`): Concrete instance for C11: a repeated point between two unit lines.
* `C120_d21_violated` (`Props/D21.lean`): C120 is violated: both trailing wings have open meshes, which no movement of their vertices by `ε` closes, for all dimensions and resolutions within `D21TrailGap`.
* `C120_d21_wing_violated` (`Props/D21.lean`): C120 is violated: at a fine resolution the wing, if it can be generated and meshed at all, has a vertex more than thirty spans above the wing, because the thickness function divides by a millimetre all along the last part of the leading edge.
* `C122_violated` (`Props/WedgeStudy.lean`): C122 fails: the wedge can be generated, but a study of it without parameters raises `IndexError`.
* `C125_violated` (`Props/TriStudy.lean`): C125 fails for vertices closer than the tolerance: for every match tolerance, and every wedge thin enough, the upper and the lower corner of the first section are points of the `.tri` file that coincide with vertices and get the same values, although the sensitivities of their heights to the thickness are 1/2 and -1/2.
* `C126_joint_violated` (`Props/Similar.lean`): C126 is violated by the tests of joints: a section whose ends are `1e-12` apart is accepted, the same section in any smaller unit is refused.
* `C126_width_violated` (`Props/Similar.lean`): C126 is violated by the default width of leading edges, which is a fixed number in every unit: with it no patch of a leading edge, built on curves that are the same in both units, is the same in both units.
* `C127_d21_violated` (`Props/SimilarHangar.lean`): C127 is violated by the D-21: whatever its size, its nose ends at `x = -0.6`, so that a vehicle with all lengths multiplied by `k ≠ 1` is not the vehicle multiplied by `k`.
* `C127_hifire4_violated` (`Props/SimilarHangar2.lean`): C127 is violated by the HIFiRE 4: the coefficients of the parabolas into which it is bent are those of metres. With the three lengths of the default vehicle multiplied by three, the fins at the tips of the wing are not where the enlarged fins would be, at any mesh resolution.
* `C127_hifire8_violated` (`Props/SimilarHangar2.lean`): C127 is violated by the HIFiRE 8: its nose is 0.5 long whatever its size, so that a vehicle with all four lengths multiplied by `k ≠ 1` is not the vehicle multiplied by `k`, at any mesh resolution.
* `C127_htv_violated` (`Props/SimilarHangar2.lean`): C127 is violated by the HTV: the rounded edge of its body is 0.01 wide whatever its size, so that no vehicle whose length is multiplied by `k ≠ 1`, whatever the other dimensions, is the vehicle multiplied by `k`, at any mesh resolution.
* `C127_refex_violated` (`Props/SimilarHangar2.lean`): C127 is violated by the ReFEX: the rounded edge of its wing is 0.01 wide at the tip and at most 0.03 anywhere, whatever its size, so that a vehicle three times as large or a third as large is not the vehicle multiplied by `k`.
* `C127_waverider_violated` (`Props/SimilarWaverider.lean`): C127 is violated by the waverider: the fin has a fixed length and height. Whatever the dimensions of two waveriders of slight curvature, in particular when those of the second are those of the first multiplied by `k`, the fin of the second is not the fin of the first enlarged, at any mesh resolutions.
* `C127_x43_violated` (`Props/SimilarHangar2.lean`): C127 is violated by the X-43: the rounded edge of its nose is 0.05 wide whatever its size, so that no vehicle whose length is multiplied by `k ≠ 1`, whatever the other dimensions, is the vehicle multiplied by `k`, at any mesh resolution.
* `C128_falcon9_violated` (`Props/SymmetricFalcon.lean`): C128 is violated by the Falcon 9: for all sensible dimensions with a body longer than 0.6 times the cylindrical part of the fairing, all resolutions from 2 and all positive densities, the tensor of inertia reported for the vehicle has the nonzero products of inertia `I₁₀ = I₂₀`, although the vehicle is a body of revolution, and is not symmetric: `I₀₁ = I₀₂ = 0`.
* `C129_pair_violated` (`Props/MirrorPair.lean`): C129 is violated: three equal parts next to each other, the middle one symmetric, the right one added twice, the second time reflected as documented. The vehicle reaches from `z = -3` to `z = 3`; with equal densities its centre of gravity is reported at `z = 4`.
* `C129_reflected_violated` (`Props/MirrorPair.lean`): C129 is violated by symmetric vehicles with a part added twice, once with a reflection axis and `append_reflection=False`: whatever the densities `ρ₀` of the symmetric body and `ρ` of the two parts, the reported mass is that of the body alone, and the reported centre of gravity is off the plane of symmetry by twice the first moment of the part, divided by the mass of the body.
* `C135_violated` (`Props/WaveriderMass.lean`): C135 is violated: the fuselage of the waverider created without arguments is written to STL, although it is documented as a ghost component which is not.
* `C137_ogive_violated` (`Props/SizeRevolved.lean`): C137 fails for the ogive nose: `L_o`, "the ogive length", is neither the length of the component, which is longer for all dimensions and resolutions, nor has it to do with the length of the ogive in front of `x = 0`, which is the same whatever `L_o`; it is the length of the cylinder behind.
* `C138_coons_violated` (`Props/Structured.lean`): C138 is violated by every Coons patch, the surface the package offers for patches between four edges: no grid of it, with any number of vertices and any cluster functions, can be made.
* `C138_subgrid_violated` (`Props/Structured.lean`): C138 is violated: no part of a grid can be copied by `subgrid`.
* `C138_tags_violated` (`Props/Structured.lean`): C138 is violated: the grid does not have the tags given, one per edge, but a single entry.
* `C13_arc_violated` (`Props/Arc.lean`): C13 is violated, in general: with exactly equal radii, an arc whose plane normal has a non-zero y component misses its end point `b` by `(0, r sin θ n_y, 0)`, although nothing is raised.
* `C13_arc_violated_witness` (`Props/Arc.lean`): C13, concrete instance: the quarter circle from (1,0,0) to (0,0,1) around the origin.
* `C141_coons_violated` (`Props/Text.lean`): C141 fails for Coons patches given by corners: the text shows the corner `p10` in place of `p11` and `p01`, so that patches which differ in these corners have the same text.
* `C141_cube_violated` (`Props/Text.lean`): C141 fails for cube patches: asking for the text of any raises `AttributeError`, as the attribute `r` it shows does not exist.
* `C143_violated` (`Props/RefexSize.lean`): C143 is violated by the script of the ReFEX: it turns the vehicle into the frame of Cart3D once more after the vehicle has been turned by `generate`, and so writes every part in the frame of the design, the body reaching from `-L_b` to `0` and not from `0` to `L_b`.
* `C144_overwritten_violated` (`Props/Merge.lean`): A component tagged with the name of the vehicle loses its own file to the merged one.
* `C144_stale_violated` (`Props/Merge.lean`): With a prefix the merged file does not hold the components of the vehicle but whatever is found in files written without that prefix: here the vehicle has two components, and the merged file is made of two meshes left on disk by something else.
* `C144_untagged_violated` (`Props/Merge.lean`): Components without a tag, or any prefix in a directory without older files: the files of the components are written, then an exception is raised and no merged file is written, although PyMesh is installed.
* `C145_violated` (`Props/Delaunay.lean`): C145 fails if `.csv` occurs inside a name: of `a.csv` and `a.csv_old.csv` the second one takes the place of the first, and there is no file for the second.
* `C146_violated` (`Props/HtvSize.lean`): C146 is violated: `h` is not the height of the body. What is scaled by `h` is the distance to the nose, so that of two bodies with the same `h` and edge the longer one is the higher; a body of length two with `h = 0.1` is more than 0.2 high.
* `C148_third_fin_violated` (`Props/Hifire8Size.lean`): C148 is violated by the third fin, which is meant to be half as high as the others: `create_instance` halves the distance of its upper corners from the axis of the fuselage instead of their height over the fuselage. For every base radius of at least 0.16 and every fuselage that is not too blunt, at any mesh resolution, it stands out of the fuselage nowhere by 0.08.
* `C149_falcon9_violated` (`Props/CheckFalcon.lean`): C149 fails for the Falcon 9: both its meshes have triangles without area at every resolution.
* `C149_finner_violated` (`Props/DegenerateHexa.lean`): C149 is violated by the body of the Finner: at every resolution its mesh has triangles without area at the tip of the nose.
* `C149_flat_wing_violated` (`Props/DegenerateWing.lean`): C149 fails for every wing with a flat leading edge and no flap: the patch `TELE_patch` that closes the end of the flap collapses to a line.
* `C149_revolved_violated` (`Props/Degenerate.lean`): C149 fails for every body of revolution that is closed at one of its ends, at every resolution: the mesh contains a triangle two of whose corners are the same point.
* `C150_cube_violated` (`Props/Examples.lean`): C150 fails for the cube script: the side of the cube written is not the one passed but twice as long.
* `C150_swept_violated` (`Props/Examples.lean`): C150 fails for the script with the swept component: it ends with a `TypeError` before anything is generated, and writes no file.
* `C154_inertia_violated` (`Props/MovedMass.lean`): C154 is violated by the inertia of every vehicle of several components: after a quarter turn about the `x`-axis, the tensor reported for a vehicle of components with positive masses is the turned one only if the centres of all the components coincide.
* `C154_pair_violated` (`Props/MovedMass.lean`): C154 is violated: two equal parts next to each other, the body and the part at its right, are analysed, turned by 90 degrees about the `x`-axis, and analysed again. Whatever the densities, the tensor of inertia reported for the turned vehicle is not the turned tensor.
* `C155_floating_fins_violated` (`Props/Hifire4Fins.lean`): C155 fails: with `y_curve_mult = 3` the outer fins float above the wing. Wherever they are one above the other there are more than three centimetres between them (the `z` axis points down), at every resolution; in particular they do not touch.
* `C156_finner_violated` (`Props/Joined.lean`): C156 is violated by the Finner: its fins are put beside the round body, with the flat foot touching the cylinder. For all dimensions with fins of some thickness, at every resolution, the rear corners of the foot are vertices of the fin outside of the body, and body and fin have nothing in common but points of one line along the body.
* `C156_hifire8_violated` (`Props/Joined.lean`): C156 is violated by the HIFiRE 8: for all sensible dimensions, at every resolution of all parts, the four corners of the foot of each of the three fins are vertices of the fin and lie outside of the fuselage.
* `C157_x43_violated` (`Props/X43Fins.lean`): C157 is violated: the foot of a fin is level (`x43.py:276-282`), it does not follow the slope of the body. For every sensible X-43 whose body slopes by more than its height over the length of a fin, downwards or upwards, at every mesh resolution, the rear end of the foot of each fin is outside of the body; downwards it floats above the body, upwards it sticks out below it.
* `C159_check_violated` (`Props/Storage.lean`): C159 fails far away from the origin: however good the mesh of a component is, translating the component by a large enough power of two in all directions collapses the stored mesh to a single point, and it does not pass the check, although the exact mesh does.
* `C160_falcon9_violated` (`Props/CheckFalcon.lean`): C160 fails for the Falcon 9: at every resolution both meshes are closed, and the check rejects both.
* `C160_finner_violated` (`Props/FinnerCheck.lean`): C160 fails for the body of the Finner: at every resolution its mesh is closed, but the check rejects it because of the degenerate triangles at the tip of the nose.
* `C160_revolved_violated` (`Props/PassCheck.lean`): C160 fails for every body of revolution closed on the axis: at every resolution its mesh is closed, but the check rejects it because of the degenerate triangles at its tips.
* `C166_falcon9_violated` (`Props/PhysicalFalcon.lean`): C166 is violated by the Falcon 9: for all sensible dimensions, resolutions from 2 and positive densities, the volume, the mass and all moments of inertia that are reported are negative, for both bodies and for the vehicle.
* `C166_pair_violated` (`Props/Physical.lean`): C166 is violated by vehicles of several parts: two equal convex parts next to each other. For each of them the reported properties are possible, but the tensor of inertia reported for the vehicle is not that of any body, whatever the densities and the resolution.
* `C166_wedge_violated` (`Props/Physical.lean`): C166 is violated by the parametric wedge, whose mesh is inside out: whatever its dimensions, its resolution and the density, the reported volume and mass are negative, and the reported moment of inertia about every axis through the centre is negative.
* `C168_corners_violated` (`Props/PatchText.lean`): C168 is violated by Coons patches given by corners: the text gives the coordinates of `p10` for `p11` and `p01` too, so that patches which share the corners `p00` and `p10` have the same text, whatever the other two.
* `C168_grid_violated` (`Props/GridText.lean`): C168 is violated by structured grids: grids that differ in their label have the same text.
* `C168_polyline_violated` (`Props/PathText.lean`): C168 is violated by every polyline: the bracket after the name of the class is not closed.
* `C168_rotated_violated` (`Props/PathText.lean`): C168 is violated by rotated patches: the texts of a patch rotated about different axes and points are the same.
* `C168_subrange_violated` (`Props/PathText.lean`): C168 is violated by sub-ranged and reversed paths: printed as a part of another path, they all look the same, whatever they are made of, and printed themselves, they claim to be of another class.
* `C169_height_violated` (`Props/WaveriderShape.lean`): C169 is violated by the upper surface also in its height: multiplying the heights `u1y` and `u3y` of its control points by a number has no effect.
* `C169_narrow_violated` (`Props/WaveriderShape.lean`): C169 is violated by the planform in the other direction as well: of this waverider, the third control point of the leading edge is more than 1 cm within the fuselage, because only the radius at the station of the second control point is looked at.
* `C169_planform_violated` (`Props/WaveriderShape.lean`): C169 is violated by the planform: as long as it is within the radius that the fuselage has at the station `p2x` of the *other* control point, the value of `p3y` has no effect on the vehicle, also where the fuselage is much thinner at `p3x`.
* `C169_upper_violated` (`Props/WaveriderShape.lean`): C169 is violated by the upper surface: the positions `u2x` and `u3x` of its control points have no effect at all on the vehicle.
* `C170_violated` (`Props/X43Inlet.lean`): C170: the inlet of every X-43 of at most 1.4 m (whose body is tilted by no more than about five degrees) sticks out of its back, at every resolution: it begins 50 mm above the underside whatever the size, and the body is thinner than that there.
* `C171_violated` (`Props/Hifire8Nose.lean`): C171 is violated: if the radius of the front is less than 0.075 m, an instance can be created, but its nose has no mesh, at no resolution.
* `C172_violated` (`Props/Declared.lean`): C172 is violated by the HTV: it declares the parameters `h_nom` and `t_LE_nom`, but whatever is passed for them, alone or together with other arguments, the vehicle is the same.
* `C17_length_violated` (`Props/Length.lean`): C17: the length of a sub-range of a line is that of the whole line instead of the part covered.
* `C27_unknown_axis_violated` (`Props/Rigid.lean`): C27 is violated for unknown axis names: the patch is silently returned unchanged.
* `C35_flap_violated` (`Props/Edges.lean`): C35 is violated by `TrailingEdgePatch`: a unit flap deflected by a right angle has its tip at distance `√2` from the hinge.
* `C36_blunt_cone_violated` (`Props/Patches.lean`): C36 is violated everywhere: `BluntConePatch` reads attributes its constructor never sets, so every evaluation raises `AttributeError`.
* `C41_index_violated` (`Props/Mesh.lean`): C41, violated: with a j clustering function and more cells along s than along r every total surface fails to mesh with an index error.
* `C41_short_violated` (`Props/Mesh.lean`): C41, violated: with fewer cells along s the mesh stops short of `s = 1`. For a 2 x 1 mesh of the unit square with the identity as clustering function no vertex is on the edge `s = 1`.
* `C46_violated` (`Props/Check.lean`): C46, violated: with `matching_lines=False` the check raises for every mesh, also for a single triangle.
* `C48_violated` (`Props/Repair.lean`): C48, violated: a chain of three corners 0.6 apart with `small_distance = 1`. The first two are merged, the third stays 0.9 away from them.
* `C50_violated` (`Props/Component.lean`): C50 fails: reflecting in `x` and then in `y` loses a patch. The patch mirrored in `x` is overwritten by the patch mirrored in `y`, so of the four quarters of a body only three remain.
* `C51_spindle_violated` (`Props/Motion.lean`): C51 fails for a concrete watertight body on one side of the mirror plane: the spindle lies in `x ≥ 0` and encloses a positive volume, but together with its appended reflection in `x = 0` the mesh encloses the volume zero.
* `C51_violated` (`Props/Component.lean`): C51 fails for every component: the mirrored patches are oriented inwards, so after appending a reflection the signed volume is zero whatever the body is. (The mesh `m` is that of the component before reflecting.)
* `C53_reflected_violated` (`Props/Component.lean`): C53 fails for reflected components: with a resolution dictionary, a mirrored patch without recorded resolution makes meshing raise `KeyError`.
* `C53_s_violated` (`Props/Component.lean`): C53 fails: the `s` resolution is ignored. Whatever is recorded in `patch_res_s`, the mesh is the same.
* `C53_violated` (`Props/Component.lean`): C53 fails: a patch recorded with 1 cell along `r` and 2 cells along `s` is meshed with one cell.
* `C54_violated` (`Props/Component.lean`): C54 fails: the mesh read after a translation is still that of the untranslated patch.
* `C57_violated` (`Props/Composite.lean`): C57 fails: a wing added with reflection in `y` to a composite is not reflected (one patch instead of two).
* `C61_cube_violated` (`Props/Polygon.lean`): C61 for cubes. It fails for every cube of non-zero size at every resolution: the mesh is not consistently oriented. What holds (the partial claim): every undirected edge belongs to an even number of triangles, so there are no gaps.
* `C61_sphere_violated` (`Props/Polygon.lean`): C61 for spheres. It fails for every sphere of non-zero radius at every resolution: the mesh is not consistently oriented. What holds (the partial claim): every undirected edge belongs to an even number of triangles.
* `C62_flat_violated` (`Props/Wing.lean`): C62 is violated: with a flat leading edge the third patch covers `[t_B1,1]`, so that it overlaps the second.
* `C62_only_t_B2_violated` (`Props/Wing.lean`): C62 is violated: a wing with a supplied `t_B2` but no `t_B1` never generates.
* `C62_overlap_violated` (`Props/Wing.lean`): A concrete case: the point of the delta wing's leading edge at `0.6` is an interior point of two patches.
* `C62_t_B2_violated` (`Props/Wing.lean`): C62 is violated: a supplied `t_B2` is never used if `t_B1` is supplied too; the outer planform patch of the wing then ends at the leading edge point of `t_B1`.
* `C68_violated` (`Props/Vehicle.lean`): C68 fails: of two components given the same name the first is found under no name, although it is a component of the vehicle.
* `C71_violated` (`Props/Regenerate.lean`): C71 fails for a component with an appended reflection: the second `generate` mirrors the mirrored patch of the first one, so that there are three patches instead of two.
* `C72_shared_violated` (`Props/VehicleGen.lean`): C72, composition, fails for a vehicle to which the same object was added twice: with the translation by (1, 0, 0) and the doubling of the abscissa, applying one list after the other differs from applying both in one list.
* `C73_violated` (`Props/VehicleGen.lean`): C73 fails: a known transformation before the unknown one is applied to the first component, and only to it.
* `C74_generated_violated` (`Props/VehicleFiles.lean`): C74 fails also when a tag looks like the generated name of another component.
* `C74_violated` (`Props/VehicleFiles.lean`): C74 fails: two components with the same tag are written to the same file.
* `C75_prefix_violated` (`Props/VehicleFiles.lean`): C75 fails with a prefix: the files merged are not the files written, none of them is.
* `C75_untagged_violated` (`Props/VehicleFiles.lean`): C75 fails for untagged components: the files merged have the names of `_named_components`, the files written have other names.
* `C77_massless_violated` (`Props/Inertia.lean`): C77 fails for a vehicle all of whose densities are zero: the analysis returns normally, without finite centre.
* `C78_violated` (`Props/Inertia.lean`): C78 fails for two unit masses three units apart: the returned inertia is neither that of the parallel axis theorem nor symmetric.
* `C81_violated` (`Props/Sensitivity.lean`): C81 fails for a parameter that is an array: the caller's array is scaled, and the vehicle constructed as the perturbed one differs from the nominal arguments the caller now holds in nothing.
* `C84_violated` (`Props/Combined.lean`): C84 fails when a parameter separates vertices that coincide in the nominal geometry: the combined table then has a row without location and without sensitivities to the first parameter.
* `C85_violated` (`Props/SensCsv.lean`): C85 fails for a component named "all_components": its file is overwritten by the combined one.
* `C87_violated` (`Props/Tri.lean`): C87 fails for a parameter named `widxdth`: its data array is named `th_sens`.
* `C88_files_violated` (`Props/Tri.lean`): C88 fails when the combined file is in the list, as when all CSV files of a directory are passed: its name is removed from the caller's list.
* `C90_violated` (`Props/Wedge.lean`): C90 fails in the sign: the section is traversed counterclockwise while the sweep goes up, so the surface is inside out. The default wedge has the volume `-0.05` instead of `0.05`.
* `C92_violated` (`Props/Common.lean`): C92 is violated whenever the centre is not in the plane `z = 0`: either there is no patch or its corner is in the plane `z = 0`, not in the plane of the centre.
* `C95_dict_violated` (`Props/Swept.lean`): C95: with a resolution dictionary, which the constructor accepts, watertightness fails: the side patches use the `sweep` resolution along the section edges and the end patches the `e0` resolution. Witness: the unit box with one cell along the sweep and two cells along every section edge.
* `C98_cube_violated` (`Props/PolygonVolume.lean`): C98 fails for cubes at every resolution: as three of the faces point inwards, the mesh encloses the volume `8 a² / 3 * (x - y + z)`, where `(x, y, z)` is the centre; for a cube at the origin nothing.
* `C98_sphere_violated` (`Props/PolygonVolume.lean`): C98 fails for spheres: at every resolution the mesh of a sphere around the origin encloses no volume.
