{
 "claims": [
  {
   "property": "C01",
   "status": "proved",
   "theorems": [
    "HV.C01_vector_laws",
    "HV.C01_cross_product_laws",
    "HV.C01_eq_iff"
   ],
   "note": ""
  },
  {
   "property": "C02",
   "status": "proved",
   "theorems": [
    "HV.C02_normalise"
   ],
   "note": ""
  },
  {
   "property": "C03",
   "status": "partial",
   "theorems": [
    "HV.C03_witness_frame",
    "HV.C03_roundtrip_violated",
    "HV.C03_roundtrip_partial",
    "HV.C03_roundtrip_iff_partial",
    "HV.C03_toLocal_correct",
    "HV.C03_toGlobal_partial",
    "HV.C03_receiver"
   ],
   "note": "Violated: transform_to_global_frame uses self.y*t2.y (vector.py:208). Witness frame, exact condition for the round trip, and correctness of the local transform are proved."
  },
  {
   "property": "C04",
   "status": "proved",
   "theorems": [
    "HV.C04_constructor",
    "HV.C04_from_coordinates"
   ],
   "note": ""
  },
  {
   "property": "C05",
   "status": "partial",
   "theorems": [
    "HV.C05_tolerance_partial",
    "HV.C05_symmetry_violated"
   ],
   "note": "Violated part: the test depends on argument order. Characterisation, reflexivity and monotonicity are proved."
  },
  {
   "property": "C06",
   "status": "proved",
   "theorems": [
    "HV.C06_line",
    "HV.C06_line_add"
   ],
   "note": ""
  },
  {
   "property": "C07",
   "status": "proved",
   "theorems": [
    "HV.C07_bernstein"
   ],
   "note": ""
  },
  {
   "property": "C08",
   "status": "proved",
   "theorems": [
    "HV.C08_convex_hull",
    "HV.C08_between",
    "HV.C08_affine"
   ],
   "note": ""
  },
  {
   "property": "C09",
   "status": "proved",
   "theorems": [
    "HV.C09_polyline",
    "HV.C09_continuous"
   ],
   "note": ""
  },
  {
   "property": "C10",
   "status": "partial",
   "theorems": [
    "HV.C10_closed_violated",
    "HV.C10_closed_violated_witness",
    "HV.C10_closed_partial"
   ],
   "note": "Violated: the closing line is appended in the wrong direction (path.py:99). Holds when the path is already closed."
  },
  {
   "property": "C11",
   "status": "partial",
   "theorems": [
    "HV.C11_zero_length_violated",
    "HV.C11_zero_length_violated_witness",
    "HV.C11_evaluates_partial"
   ],
   "note": "Violated: a zero-length segment divides by zero. Holds when all lengths are positive."
  },
  {
   "property": "C12",
   "status": "proved",
   "theorems": [
    "HV.C12_interpolates",
    "HV.C12_smooth",
    "HV.C12_closed"
   ],
   "note": ""
  },
  {
   "property": "C13",
   "status": "partial",
   "theorems": [
    "HV.C13_arc_violated",
    "HV.C13_arc_violated_witness",
    "HV.C13_arc_partial"
   ],
   "note": "Violated when the plane normal has a non-zero y component (inherits C03). Proved for normals with y=0."
  },
  {
   "property": "C14",
   "status": "proved",
   "theorems": [
    "HV.C14_arc_admissible"
   ],
   "note": ""
  },
  {
   "property": "C15",
   "status": "proved",
   "theorems": [
    "HV.C15_reparameterisation",
    "HV.C15_rejects"
   ],
   "note": ""
  },
  {
   "property": "C16",
   "status": "proved",
   "theorems": [
    "HV.C16_length",
    "HV.C16_line_exact"
   ],
   "note": ""
  },
  {
   "property": "C17",
   "status": "partial",
   "theorems": [
    "HV.C17_subrange_partial",
    "HV.C17_length_violated"
   ],
   "note": "Violated for length() (the whole underlying length is reported). All other parts proved."
  },
  {
   "property": "C18",
   "status": "proved",
   "theorems": [
    "HV.C18_roberts",
    "HV.C18_direction",
    "HV.C18_identity"
   ],
   "note": ""
  },
  {
   "property": "C19",
   "status": "proved",
   "theorems": [
    "HV.C19_distribute",
    "HV.C19_cluster_functions"
   ],
   "note": ""
  },
  {
   "property": "C20",
   "status": "proved",
   "theorems": [
    "HV.C20_on_ellipse",
    "HV.C20_sides",
    "HV.C20_unknown_side"
   ],
   "note": ""
  },
  {
   "property": "C21",
   "status": "proved",
   "theorems": [
    "HV.C21_offset",
    "HV.C21_mean"
   ],
   "note": ""
  },
  {
   "property": "C22",
   "status": "proved",
   "theorems": [
    "HV.C22_edges_general",
    "HV.C22_edges"
   ],
   "note": ""
  },
  {
   "property": "C23",
   "status": "proved",
   "theorems": [
    "HV.C23_accepts_iff",
    "HV.C23_optional"
   ],
   "note": ""
  },
  {
   "property": "C24",
   "status": "proved",
   "theorems": [
    "HV.C24_bilinear",
    "HV.C24_translate",
    "HV.C24_constructor"
   ],
   "note": ""
  },
  {
   "property": "C25",
   "status": "proved",
   "theorems": [
    "HV.C25_rotation",
    "HV.C25_rigid"
   ],
   "note": ""
  },
  {
   "property": "C26",
   "status": "proved",
   "theorems": [
    "HV.C26_compose",
    "HV.C26_axis_names"
   ],
   "note": ""
  },
  {
   "property": "C27",
   "status": "partial",
   "theorems": [
    "HV.C27_mirror_partial",
    "HV.C27_unknown_axis_violated"
   ],
   "note": "Violated part: an unknown mirror axis is silently ignored instead of raising. The mirror algebra is proved for x, y, z."
  },
  {
   "property": "C28",
   "status": "proved",
   "theorems": [
    "HV.C28_curved",
    "HV.C28_degenerate"
   ],
   "note": ""
  },
  {
   "property": "C29",
   "status": "proved",
   "theorems": [
    "HV.C29_revolved",
    "HV.C29_seams",
    "HV.C29_cone",
    "HV.C29_cone_seams"
   ],
   "note": ""
  },
  {
   "property": "C30",
   "status": "proved",
   "theorems": [
    "HV.C30_on_edges",
    "HV.C30_between",
    "HV.C30_total"
   ],
   "note": ""
  },
  {
   "property": "C31",
   "status": "proved",
   "theorems": [
    "HV.C31_swept",
    "HV.C31_bracket",
    "HV.C31_on_sections",
    "HV.C31_rejects"
   ],
   "note": ""
  },
  {
   "property": "C32",
   "status": "proved",
   "theorems": [
    "HV.C32_perimeter",
    "HV.C32_corners"
   ],
   "note": ""
  },
  {
   "property": "C33",
   "status": "proved",
   "theorems": [
    "HV.C33_cube",
    "HV.C33_sphere",
    "HV.C33_edges_shared"
   ],
   "note": ""
  },
  {
   "property": "C34",
   "status": "proved",
   "theorems": [
    "HV.C34_flat",
    "HV.C34_seams",
    "HV.C34_mean",
    "HV.C34_mean_defined",
    "HV.C34_mean_attaches"
   ],
   "note": ""
  },
  {
   "property": "C35",
   "status": "partial",
   "theorems": [
    "HV.C35_mean_flap_partial",
    "HV.C35_flap_partial",
    "HV.C35_flap_violated"
   ],
   "note": "Violated by TrailingEdgePatch (tip is not shortened in x when deflected and the hinge height is ignored); exact distance proved. Holds for MeanTrailingEdgePatch. Both start on the trailing edge path."
  },
  {
   "property": "C36",
   "status": "partial",
   "theorems": [
    "HV.C36_blunt_cone_violated"
   ],
   "note": "Violated everywhere: BluntConePatch reads attributes that are never set, so every evaluation raises AttributeError (proved)."
  },
  {
   "property": "C37",
   "status": "proved",
   "theorems": [
    "HV.C37_layout",
    "HV.C37_total"
   ],
   "note": ""
  },
  {
   "property": "C38",
   "status": "proved",
   "theorems": [
    "HV.C38_conforming",
    "HV.C38_interior"
   ],
   "note": ""
  },
  {
   "property": "C39",
   "status": "proved",
   "theorems": [
    "HV.C39_on_surface"
   ],
   "note": ""
  },
  {
   "property": "C40",
   "status": "proved",
   "theorems": [
    "HV.C40_runs",
    "HV.C40_uniform",
    "HV.C40_zero",
    "HV.C40_default_mesh"
   ],
   "note": ""
  },
  {
   "property": "C41",
   "status": "partial",
   "theorems": [
    "HV.C41_index_violated",
    "HV.C41_short_violated",
    "HV.C41_partial",
    "HV.C41_i_partial"
   ],
   "note": "The j clustering list has ni+1 entries: IndexError for every total surface when ni<nj, mesh stops short of s=1 when ni>nj. Proved for ni=nj, and for the i direction always."
  },
  {
   "property": "C42",
   "status": "proved",
   "theorems": [
    "HV.C42_mirror",
    "HV.C42_surfce_to_stl"
   ],
   "note": ""
  },
  {
   "property": "C43",
   "status": "proved",
   "theorems": [
    "HV.C43_boundary",
    "HV.C43_volume_translate"
   ],
   "note": ""
  },
  {
   "property": "C44",
   "status": "proved",
   "theorems": [
    "HV.C44_matching_lines",
    "HV.C44_stored_normals",
    "HV.C44_closed"
   ],
   "note": ""
  },
  {
   "property": "C45",
   "status": "proved",
   "theorems": [
    "HV.C45_area",
    "HV.C45_full_check",
    "HV.C45_area_test",
    "HV.C45_full_check_stored"
   ],
   "note": ""
  },
  {
   "property": "C46",
   "status": "partial",
   "theorems": [
    "HV.C46_violated",
    "HV.C46_partial"
   ],
   "note": "matching_lines=False always raises UnboundLocalError; with matching_lines=True a verdict is always returned."
  },
  {
   "property": "C47",
   "status": "proved",
   "theorems": [
    "HV.C47_small_moves",
    "HV.C47_isolated"
   ],
   "note": ""
  },
  {
   "property": "C48",
   "status": "partial",
   "theorems": [
    "HV.C48_partial",
    "HV.C48_violated"
   ],
   "note": "Groups are anchored at their first point, so chains are split: concrete chain of three corners stays 0.9*small_distance apart. Proved (before and after repair) when closeness is transitive per coordinate."
  },
  {
   "property": "C49",
   "status": "proved",
   "theorems": [
    "HV.C49_rotate",
    "HV.C49_rotate_bad_axis",
    "HV.C49_translate_vector",
    "HV.C49_translate_function",
    "HV.C49_modifier",
    "HV.C49_curve"
   ],
   "note": ""
  },
  {
   "property": "C50",
   "status": "partial",
   "theorems": [
    "HV.C50_replace",
    "HV.C50_no_axis",
    "HV.C50_append_partial",
    "HV.C50_lookup",
    "HV.C50_violated"
   ],
   "note": "Violated when a '<name>_mirrored' name already exists (two successive reflections): a patch is overwritten. Append proved when the mirrored names are new; replacement, no axis, precedence of the stored axis proved always."
  },
  {
   "property": "C51",
   "status": "partial",
   "theorems": [
    "HV.C51_violated",
    "HV.C51_replace_partial",
    "HV.C51_spindle_violated"
   ],
   "note": "Violated for every component: the mirrored patches point inwards, the signed volume after an appended reflection is exactly 0. Replacement reverses the sign of the volume."
  },
  {
   "property": "C52",
   "status": "proved",
   "theorems": [
    "HV.C52_mesh",
    "HV.C52_no_patches"
   ],
   "note": ""
  },
  {
   "property": "C53",
   "status": "partial",
   "theorems": [
    "HV.C53_partial",
    "HV.C53_s_violated",
    "HV.C53_violated",
    "HV.C53_reflected_violated"
   ],
   "note": "Violated: patch_res_r is used for both directions (component.py:275-276) and mirrored names have no entry (KeyError). Proved: with recorded r resolutions the r resolution is used in both directions."
  },
  {
   "property": "C54",
   "status": "partial",
   "theorems": [
    "HV.C54_partial",
    "HV.C54_stale",
    "HV.C54_violated"
   ],
   "note": "Violated: the cache is never invalidated by component operations; proved that every further transformation leaves a cached mesh stale. Proved for a clean cache, for reading twice."
  },
  {
   "property": "C55",
   "status": "proved",
   "theorems": [
    "HV.C55_copy",
    "HV.C55_independent"
   ],
   "note": ""
  },
  {
   "property": "C56",
   "status": "proved",
   "theorems": [
    "HV.C56_all_patches",
    "HV.C56_rejects"
   ],
   "note": ""
  },
  {
   "property": "C57",
   "status": "partial",
   "theorems": [
    "HV.C57_partial",
    "HV.C57_ignored",
    "HV.C57_violated",
    "HV.C57_options"
   ],
   "note": "Violated: the recorded options are stored on the child but composite generation ignores them (proved for all options). Proved: what is recorded."
  },
  {
   "property": "C58",
   "status": "proved",
   "theorems": [
    "HV.C58_accepts_iff",
    "HV.C58_result"
   ],
   "note": ""
  },
  {
   "property": "C59",
   "status": "proved",
   "theorems": [
    "HV.C59_watertight"
   ],
   "note": ""
  },
  {
   "property": "C60",
   "status": "proved",
   "theorems": [
    "HV.C60_watertight"
   ],
   "note": ""
  },
  {
   "property": "C61",
   "status": "partial",
   "theorems": [
    "HV.C61_cube_violated",
    "HV.C61_sphere_violated",
    "HV.C61_partial"
   ],
   "note": "Violated for every cube and sphere of non-zero size at every resolution: faces west, north and bottom are oriented inward, the others outward (C61_cube_violated, C61_sphere_violated). C61_partial: every undirected edge belongs to an even number of triangles, so there are no gaps."
  },
  {
   "property": "C62",
   "status": "partial",
   "theorems": [
    "HV.C62_breaks_partial",
    "HV.C62_t_B2_violated",
    "HV.C62_only_t_B2_violated",
    "HV.C62_flat_violated",
    "HV.C62_overlap_violated"
   ],
   "note": "Violated three ways: a supplied t_B2 is replaced by the t_B1 argument (wing.py:163-166), so with only t_B2 supplied no wing generates; the third flat leading edge patch starts at t_B1 and overlaps the second. C62_breaks_partial: t_B1 is honoured, default t_B2 is the midpoint, elliptical patches cover [0,t_B1],[t_B1,t_B2],[t_B2,1]."
  },
  {
   "property": "C63",
   "status": "proved",
   "theorems": [
    "HV.C63_fin",
    "HV.C63_wing"
   ],
   "note": ""
  },
  {
   "property": "C64",
   "status": "proved",
   "theorems": [
    "HV.C64_placement"
   ],
   "note": ""
  },
  {
   "property": "C65",
   "status": "proved",
   "theorems": [
    "HV.C65_rejects"
   ],
   "note": ""
  },
  {
   "property": "C66",
   "status": "proved",
   "theorems": [
    "HV.C66_bookkeeping"
   ],
   "note": ""
  },
  {
   "property": "C67",
   "status": "proved",
   "theorems": [
    "HV.C67_options"
   ],
   "note": ""
  },
  {
   "property": "C68",
   "status": "partial",
   "theorems": [
    "HV.C68_partial",
    "HV.C68_violated"
   ],
   "note": "Violated: a repeated name hides the earlier component. Holds for distinct explicit names that do not look like generated names, each object added once."
  },
  {
   "property": "C69",
   "status": "proved",
   "theorems": [
    "HV.C69_non_ghost",
    "HV.C69_files"
   ],
   "note": ""
  },
  {
   "property": "C70",
   "status": "proved",
   "theorems": [
    "HV.Veh.C70_asked",
    "HV.C70_steps",
    "HV.C70_points"
   ],
   "note": ""
  },
  {
   "property": "C71",
   "status": "partial",
   "theorems": [
    "HV.C71_patches_partial",
    "HV.C71_partial",
    "HV.C71_violated"
   ],
   "note": "Violated for reflected components (appended reflections multiply). For components without reflection a second generate leaves every component as after the first; with an analysis the patches agree."
  },
  {
   "property": "C72",
   "status": "partial",
   "theorems": [
    "HV.C72_before_generate",
    "HV.C72_tuple",
    "HV.C72_compose_partial",
    "HV.C72_registered",
    "HV.C72_shared_violated",
    "HV.C72_meshes"
   ],
   "note": "Composition violated when the same object was added twice; proved for distinct objects. Raising before generate, tuple coercion and fresh meshes are proved."
  },
  {
   "property": "C73",
   "status": "partial",
   "theorems": [
    "HV.C73_partial",
    "HV.C73_violated"
   ],
   "note": "Violated: earlier transformations are applied to the first component before the unknown one raises. Exact extent of the change is proved."
  },
  {
   "property": "C74",
   "status": "partial",
   "theorems": [
    "HV.C74_partial",
    "HV.C74_violated",
    "HV.C74_generated_violated"
   ],
   "note": "Violated for repeated tags and for tags that look like a generated name. Holds otherwise."
  },
  {
   "property": "C75",
   "status": "partial",
   "theorems": [
    "HV.Veh.C75_call",
    "HV.C75_partial",
    "HV.C75_prefix_violated",
    "HV.C75_untagged_violated"
   ],
   "note": "Violated with a prefix and for untagged components: the files merged are not the files written. Holds without prefix when every component is listed under its tag."
  },
  {
   "property": "C76",
   "status": "proved",
   "theorems": [
    "HV.C76_sums",
    "HV.C76_missing_density",
    "HV.C76_order"
   ],
   "note": "numpy-stl's mass properties and areas are arbitrary functions of the mesh (structure Lib)."
  },
  {
   "property": "C77",
   "status": "partial",
   "theorems": [
    "HV.C77_mean",
    "HV.C77_hull",
    "HV.C77_translation",
    "HV.C77_common",
    "HV.C77_massless_partial",
    "HV.C77_massless_violated"
   ],
   "note": "Proved for vehicles with mass and for vehicles without components. A vehicle whose component masses add up to zero returns normally with non-finite centre (C77_massless_violated)."
  },
  {
   "property": "C78",
   "status": "partial",
   "theorems": [
    "HV.C78_partial",
    "HV.C78_symmetric_partial",
    "HV.C78_violated"
   ],
   "note": "The code adds m r_j^2 to every row instead of m(|r|^2 E - r r^T): correct exactly when all centres coincide (C78_partial), otherwise wrong and in general not symmetric (C78_violated)."
  },
  {
   "property": "C79",
   "status": "proved",
   "theorems": [
    "HV.C79_stored",
    "HV.C79_empty",
    "HV.C79_no_nested",
    "HV.C79_once",
    "HV.C79_terminates",
    "HV.Veh.C79_last_request"
   ],
   "note": "Recursion between analyse and generate is modelled with a bound on nested calls; C79_terminates shows two suffice."
  },
  {
   "property": "C80",
   "status": "proved",
   "theorems": [
    "HV.C80_cart3d"
   ],
   "note": ""
  },
  {
   "property": "C81",
   "status": "partial",
   "theorems": [
    "HV.C81_partial",
    "HV.C81_violated"
   ],
   "note": "Proved for parameters that are numbers, including failed studies. An array parameter is scaled in place: the caller's array changes (C81_violated)."
  },
  {
   "property": "C82",
   "status": "proved",
   "theorems": [
    "HV.C82_analysis",
    "HV.C82_components",
    "HV.C82_properties",
    "HV.C82_affine",
    "HV.C82_zero"
   ],
   "note": "C82_affine: exact sensitivities of every vertex for affine dependence; C82_zero: nothing finite for a zero parameter or perturbation."
  },
  {
   "property": "C83",
   "status": "proved",
   "theorems": [
    "HV.C83_first_occurrences",
    "HV.C83_sizes",
    "HV.C83_broadcast"
   ],
   "note": ""
  },
  {
   "property": "C84",
   "status": "partial",
   "theorems": [
    "HV.C84_values",
    "HV.C84_partial",
    "HV.C84_violated"
   ],
   "note": "C84_values holds always: whatever is reported is right or missing. C84_partial: one row per distinct vertex when coincident vertices stay together. C84_violated: a parameter that separates coincident vertices gives a row without location."
  },
  {
   "property": "C85",
   "status": "partial",
   "theorems": [
    "HV.C85_cells",
    "HV.C85_before",
    "HV.C85_failed",
    "HV.C85_components_partial",
    "HV.C85_combined",
    "HV.C85_violated"
   ],
   "note": "C85_before, C85_failed, C85_combined are complete for numeric parameters; the file of a component named all_components is overwritten by the combined file (C85_violated)."
  },
  {
   "property": "C86",
   "status": "proved",
   "theorems": [
    "HV.C86_matching",
    "HV.C86_fraction",
    "HV.C86_exact"
   ],
   "note": "For all file lists, points and tolerances with readable tables of equal columns; the XML document and number formatting are not modelled."
  },
  {
   "property": "C87",
   "status": "partial",
   "theorems": [
    "HV.C87_partial",
    "HV.C87_violated"
   ],
   "note": "Proved for parameter names that do not contain 'dxd'; the negation is proved for 'widxdth', whose array is named 'th_sens'."
  },
  {
   "property": "C88",
   "status": "partial",
   "theorems": [
    "HV.C88_lines",
    "HV.C88_files_partial",
    "HV.C88_files_violated"
   ],
   "note": "One line per point proved for every input; the caller's file list is unmodified iff the combined file is not in it (negation proved otherwise)."
  },
  {
   "property": "C89",
   "status": "proved",
   "theorems": [
    "HV.C89_override",
    "HV.C89_names"
   ],
   "note": "Generator.__init__ modelled as assigning every keyword argument over the attribute dictionary; a keyword named like a method is not distinguished."
  },
  {
   "property": "C90",
   "status": "partial",
   "theorems": [
    "HV.C90_partial",
    "HV.C90_violated"
   ],
   "note": "The parametric wedge is closed with |volume| = chord*thickness*wingspan/2 at every resolution (C90_partial), but its faces point inwards: the signed volume is negative (C90_violated)."
  },
  {
   "property": "C91",
   "status": "proved",
   "theorems": [
    "HV.C91_width",
    "HV.C91_thickness"
   ],
   "note": ""
  },
  {
   "property": "C92",
   "status": "partial",
   "theorems": [
    "HV.C92_circle_partial",
    "HV.C92_violated"
   ],
   "note": "Violated for every centre with z different from 0 (the corners are put in z = 0). C92_circle_partial: for centre.z = 0 and r > 0 the boundary points are exactly the circle."
  },
  {
   "property": "C93",
   "status": "proved",
   "theorems": [
    "HV.C93_profile",
    "HV.C93_watertight"
   ],
   "note": ""
  },
  {
   "property": "C94",
   "status": "proved",
   "theorems": [
    "HV.C94_open_boundary"
   ],
   "note": ""
  },
  {
   "property": "C95",
   "status": "partial",
   "theorems": [
    "HV.C95_dict_violated",
    "HV.C95_partial"
   ],
   "note": "Violated: component.surface uses patch_res_r for both directions, so sides use the sweep resolution along section edges and ends the e0 resolution; witness box with sweep 1 and e0 2. C95_partial: holds when sweep equals e0."
  },
  {
   "property": "C96",
   "status": "proved",
   "theorems": [
    "HV.C96_extrusion",
    "HV.C96_quadrilateral"
   ],
   "note": "Signed volume is minus height times area because swept walls face inwards for counterclockwise sections; magnitude as expected."
  },
  {
   "property": "C97",
   "status": "proved",
   "theorems": [
    "HV.C97_volume",
    "HV.C97_converges"
   ],
   "note": "Exact volume at every resolution and its limit."
  },
  {
   "property": "C98",
   "status": "partial",
   "theorems": [
    "HV.C98_area_partial",
    "HV.C98_cube_violated",
    "HV.C98_sphere_violated"
   ],
   "note": "The surface area of cubes is right; the enclosed volume is not: three of six faces point inwards, so cubes and spheres around the origin enclose zero volume (C98_cube_violated, C98_sphere_violated)."
  },
  {
   "property": "C99",
   "status": "proved",
   "theorems": [
    "HV.C99_closed",
    "HV.C99_transform",
    "HV.C99_rigid",
    "HV.C99_reflect",
    "HV.C99_vehicle"
   ],
   "note": "For integer resolutions; reflections as vehicle transformations are covered through the component's reflection axis only."
  },
  {
   "property": "C100",
   "status": "partial",
   "theorems": [
    "HV.C100_along_partial",
    "HV.C100_symmetric_partial",
    "HV.C100_revolved_partial",
    "HV.C100_swept_partial",
    "HV.C100_violated"
   ],
   "note": "Proved for all clustering functions when glued sides run along the same parameter in the same direction (bodies of revolution), and for all glued bodies when both directions use one symmetric function. Fails for a closed-ended swept box with clustering in one direction only."
  },
  {
   "property": "C101",
   "status": "proved",
   "theorems": [
    "HV.C101_rate",
    "HV.C101_patch",
    "HV.C101_component",
    "HV.C101_revolved"
   ],
   "note": ""
  },
  {
   "property": "C102",
   "status": "partial",
   "theorems": [
    "HV.C102_partial",
    "HV.C102_violated",
    "HV.C102_body_partial",
    "HV.C102_hemisphere_violated"
   ],
   "note": "Names, generation and closedness are proved for all dimensions with r_n < h < r_o; C102_violated: both meshes are inside out (negative volume) for all such dimensions and all resolutions from 2; the volume of the body tends to -pi (D/2)^2 L_b; C102_hemisphere_violated: with h = r_o create_instance raises."
  },
  {
   "property": "C103",
   "status": "proved",
   "theorems": [
    "HV.C103_finner"
   ],
   "note": "Proved without any inequality between the dimensions."
  },
  {
   "property": "C104",
   "status": "proved",
   "theorems": [
    "HV.C104_closed",
    "HV.C104_any_order"
   ],
   "note": "Proved for every list of lines laid end to end."
  },
  {
   "property": "C105",
   "status": "partial",
   "theorems": [
    "HV.C105_fin_partial",
    "HV.C105_rectangular_violated",
    "HV.C105_rectangles_violated"
   ],
   "note": "Proved for fins of uniform thickness whose corner p2 is the only point of the leading edge at its x coordinate. Violated when p2 lies above p3, as in the trailing wings of the D-21: bisection then returns the end of the edge and the mesh is open by more than 0.02 for a unit square fin."
  },
  {
   "property": "C106",
   "status": "partial",
   "theorems": [
    "HV.C106_closed_wing_partial",
    "HV.C106_root_partial",
    "HV.C106_open_wing_partial",
    "HV.C106_flat_violated"
   ],
   "note": "Proved for elliptical leading edges. A flat leading edge with close_wing and no width function raises TypeError (C106_flat_violated), and its third patch overlaps the second (C62)."
  },
  {
   "property": "C107",
   "status": "partial",
   "theorems": [
    "HV.C107_elevon_partial",
    "HV.C107_violated",
    "HV.C107_rudder_partial",
    "HV.C107_htv"
   ],
   "note": "Proved: the trailing edge of the X-43 rudders is displaced towards +y by chord*sin(angle in degrees) as documented, at every point; the elevons are deflected by flap_angle in radians, downwards (C107_elevon_partial), so that the documented unit and sign are violated (C107_violated). Rudder chords are not preserved (see C35)."
  },
  {
   "property": "C108",
   "status": "partial",
   "theorems": [
    "HV.C108_violated",
    "HV.C108_partial",
    "HV.C108_htv_violated",
    "HV.C108_waverider"
   ],
   "note": "Violated by the X-43 and the HTV: the reflected copy contains the original as well as its mirror image (C108_violated, C108_htv_violated, all parameters). Proved for pairs whose second component has append_reflection=False, among them the flaps of the waverider (C108_waverider)."
  },
  {
   "property": "C109",
   "status": "partial",
   "theorems": [
    "HV.C109_fuselage_clustering",
    "HV.C109_hifire4",
    "HV.C109_hifire4_violated",
    "HV.C109_hifire8_partial",
    "HV.C109_htv",
    "HV.C109_waverider",
    "HV.C109_x43"
   ],
   "note": "HIFiRE 8: all parts but the nose, which has a flat leading edge (C110); HIFiRE 4: fuselage closed up to the digits of the radius after the sixth decimal, which leave a hole"
  },
  {
   "property": "C110",
   "status": "partial",
   "theorems": [
    "HV.C110_overlap_violated",
    "HV.C110_tip_violated",
    "HV.C110_flat_wing_partial",
    "HV.C110_hifire8_violated"
   ],
   "note": "violated: third leading edge patch overlaps the second (wing.py:281-283), and the flap tip is subdivided differently on both sides; so the nose of the HIFiRE 8 is open; location of all unmatched edges and cancellation of normals proved"
  },
  {
   "property": "C111",
   "status": "partial",
   "theorems": [
    "HV.C111_d21_violated",
    "HV.C111_component",
    "HV.C111_vehicle_partial",
    "HV.C111_reflected_violated",
    "HV.C111_wedge_violated",
    "HV.C111_hifire8_violated",
    "HV.C111_refex_violated"
   ],
   "note": "proved for closed meshes; violated by components with an appended reflection (zero volume) and by inside out bodies (wedge, HIFiRE 8 fuselage: negative volume and mass)"
  },
  {
   "property": "C112",
   "status": "partial",
   "theorems": [
    "HV.C112_violated",
    "HV.C112_partial"
   ],
   "note": "violated by every component: grid() reads an attribute that is never set, to_vtk() is not implemented"
  },
  {
   "property": "C113",
   "status": "partial",
   "theorems": [
    "HV.C113_parallel_violated",
    "HV.C113_sequential_violated",
    "HV.C113_partial"
   ],
   "note": "violated: after a failure in parallel mode the mesh raises ValueError whatever is changed, in sequential mode the second use returns the mesh of the patches before the failing one; surface() itself is independent of earlier failures"
  },
  {
   "property": "C114",
   "status": "proved",
   "theorems": [
    "HV.C114_fin",
    "HV.C114_open_wing",
    "HV.C114_closed_wing"
   ],
   "note": "for wings with elliptical leading edges; fins and revolved bodies bend without new gaps by C99 where their patches agree exactly"
  },
  {
   "property": "C115",
   "status": "proved",
   "theorems": [
    "HV.C115_ends",
    "HV.C115_ring",
    "HV.C115_near"
   ],
   "note": ""
  },
  {
   "property": "C116",
   "status": "partial",
   "theorems": [
    "HV.C116_generated_partial",
    "HV.C116_split",
    "HV.C116_stale",
    "HV.C116_paths",
    "HV.C116_violated",
    "HV.C116_unwritten_violated",
    "HV.C116_label",
    "HV.C116_no_crash"
   ],
   "note": "Proved for to_stl straight after a generate that analyses. Not true after a further analyse call: the table is then that of the latest analysis, the other files those of generate (C116_violated); results of a call of analyse alone are not written (C116_unwritten_violated)."
  },
  {
   "property": "C117",
   "status": "partial",
   "theorems": [
    "HV.C117_transform_partial",
    "HV.C117_generate_partial",
    "HV.C117_keeps",
    "HV.C117_twice_violated"
   ],
   "note": "proved for vehicles whose components are distinct objects; a component added twice is moved twice"
  },
  {
   "property": "C118",
   "status": "partial",
   "theorems": [
    "HV.C118_partial",
    "HV.C118_flat",
    "HV.C118_violated"
   ],
   "note": "The code rotates by nominal aoa plus the slope of the curvature converted from radians, instead of its arc tangent. Proved: the resulting angle for all parameters in the range and a bound on the error; exact when there is no curvature. Violated for x_curve_mult=7 (error 12.3 degrees)."
  },
  {
   "property": "C119",
   "status": "proved",
   "theorems": [
    "HV.C119_refex"
   ],
   "note": ""
  },
  {
   "property": "C120",
   "status": "partial",
   "theorems": [
    "HV.C120_d21_partial",
    "HV.C120_d21_violated",
    "HV.C120_d21_wing_violated"
   ],
   "note": "Partial: trailing wings have open meshes, and at fine resolutions the wing has spikes (both proved as violations)."
  },
  {
   "property": "C121",
   "status": "proved",
   "theorems": [
    "HV.C121_error",
    "HV.C121_limit"
   ],
   "note": ""
  },
  {
   "property": "C122",
   "status": "partial",
   "theorems": [
    "HV.C122_partial",
    "HV.C122_no_parameters",
    "HV.C122_violated"
   ],
   "note": "Fails for an empty dictionary of parameters (IndexError)."
  },
  {
   "property": "C123",
   "status": "proved",
   "theorems": [
    "HV.C123_swept",
    "HV.C123_volume"
   ],
   "note": ""
  },
  {
   "property": "C124",
   "status": "proved",
   "theorems": [
    "HV.C124_wedge"
   ],
   "note": ""
  },
  {
   "property": "C125",
   "status": "partial",
   "theorems": [
    "HV.C125_partial",
    "HV.C125_wedge",
    "HV.C125_violated"
   ],
   "note": "Proved: every point near vertices gets the sensitivities of one of them, of the only one if there is one, other points zeros; the fraction is that of the points near a vertex. Fails for the choice among vertices closer than the match tolerance (thin wedge)."
  },
  {
   "property": "C126",
   "status": "partial",
   "theorems": [
    "HV.C126_bodies_partial",
    "HV.C126_wings_partial",
    "HV.C126_bisection",
    "HV.C126_vehicle",
    "HV.C126_check",
    "HV.C126_volume",
    "HV.C126_joint_violated",
    "HV.C126_width_violated"
   ],
   "note": "Constructors: bodies (swept, revolved, ogive, cube, sphere) for every k > 0 when joints are exact, else for k <= 1; wings and fins with a given leading edge width function for k <= 1. Vehicles, analysis and files for every k > 0. Violated by the absolute joint tolerance (k > 1) and by the default leading edge width."
  },
  {
   "property": "C127",
   "status": "partial",
   "theorems": [
    "HV.C127_wedge_partial",
    "HV.C127_falcon9_partial",
    "HV.C127_finner_partial",
    "HV.C127_d21_violated",
    "HV.C127_hifire8_violated",
    "HV.C127_htv_violated",
    "HV.C127_x43_violated",
    "HV.C127_refex_violated",
    "HV.C127_hifire4_violated",
    "HV.C127_waverider_violated"
   ],
   "note": "Holds for the wedge, the Falcon 9 and the Finner for every factor. Violated by the D-21 (its nose ends at x = -0.6), the HIFiRE 8 (its nose is 0.5 long), the HTV and the X-43 (fixed widths of the rounded edges), the ReFEX (the same, shown for factors above 3 and below 1/3), the HIFiRE 4 (coefficients of its parabolas; shown for the default vehicle and the factor 3) and the waverider (fixed fin; shown for slight curvature and factors above 1.15 and below 0.85)."
  },
  {
   "property": "C128",
   "status": "partial",
   "theorems": [
    "HV.C128_inertia",
    "HV.C128_component",
    "HV.C128_revolved",
    "HV.C128_composite",
    "HV.C128_vehicle",
    "HV.C128_finner",
    "HV.C128_falcon9_partial",
    "HV.C128_falcon9_violated"
   ],
   "note": "Proved for components, composites of revolved parts, the centre of gravity of any balanced vehicle, the Finner and the Falcon 9. The inertia the analysis reports for a vehicle has spurious products of inertia (C128_falcon9_violated), as in C78. Assumes numpy-stl's formulas (NumpyStlInertia)."
  },
  {
   "property": "C129",
   "status": "partial",
   "theorems": [
    "HV.C129_component",
    "HV.C129_vehicle_partial",
    "HV.C129_swept",
    "HV.C129_profile",
    "HV.C129_reflected_violated",
    "HV.C129_pair_violated",
    "HV.C129_wedge"
   ],
   "note": "Proved for closed symmetric meshes, all swept components with symmetric sections and the wedge; violated by pairs made with a reflection axis, whose mirrored meshes are inside out."
  },
  {
   "property": "C130",
   "status": "proved",
   "theorems": [
    "HV.Veh.C130_call",
    "HV.Veh.C130_script",
    "HV.Veh.C130_outcomes",
    "HV.Veh.C130_configure"
   ],
   "note": ""
  },
  {
   "property": "C131",
   "status": "proved",
   "theorems": [
    "HV.Veh.C131_components",
    "HV.Veh.C131_other_components",
    "HV.Veh.C131_work",
    "HV.Veh.C131_kept",
    "HV.Veh.C131_rows",
    "HV.Veh.C131_written",
    "HV.Veh.C131_failed",
    "HV.Veh.C131_asked"
   ],
   "note": ""
  },
  {
   "property": "C132",
   "status": "proved",
   "theorems": [
    "HV.C132_cube",
    "HV.C132_sphere",
    "HV.C132_revolved"
   ],
   "note": ""
  },
  {
   "property": "C133",
   "status": "proved",
   "theorems": [
    "HV.C133_patch",
    "HV.C133_component"
   ],
   "note": ""
  },
  {
   "property": "C134",
   "status": "proved",
   "theorems": [
    "HV.Veh.C134_call",
    "HV.Veh.C134_script",
    "HV.Veh.C134_others"
   ],
   "note": ""
  },
  {
   "property": "C135",
   "status": "partial",
   "theorems": [
    "HV.C135_partial",
    "HV.C135_missing",
    "HV.C135_none",
    "HV.C135_violated"
   ],
   "note": "C135_partial, C135_missing and C135_none show the clauses about the analysis for all parameters, resolutions and densities. The clause about the fuselage is violated: C135_violated shows that the default waverider writes fuselage.stl, because ghost=True is commented out (waverider.py:228)."
  },
  {
   "property": "C136",
   "status": "proved",
   "theorems": [
    "HV.C136_prism",
    "HV.C136_wedge",
    "HV.C136_finner"
   ],
   "note": ""
  },
  {
   "property": "C137",
   "status": "partial",
   "theorems": [
    "HV.C137_composite",
    "HV.C137_revolved",
    "HV.C137_ogive_partial",
    "HV.C137_ogive_violated",
    "HV.C137_falcon9"
   ],
   "note": "OgiveNose documents L_o as the ogive length; it is the length of the cylinder behind the ogive, and the length of the ogive follows from h, r_n and r_o"
  },
  {
   "property": "C138",
   "status": "partial",
   "theorems": [
    "HV.StructGrid.C138_partial",
    "HV.StructGrid.C138_refuses",
    "HV.StructGrid.C138_uniform",
    "HV.StructGrid.C138_roberts",
    "HV.StructGrid.C138_coons_violated",
    "HV.StructGrid.C138_subgrid_violated",
    "HV.StructGrid.C138_tags_violated"
   ],
   "note": "Proved for surfaces that accept arrays of parameters. Violated: no grid of any CoonsPatch can be made (Vector3 rejects arrays), subgrid always raises, tags are wrapped in a tuple."
  },
  {
   "property": "C139",
   "status": "proved",
   "theorems": [
    "HV.C139_fin",
    "HV.C139_d21_tail",
    "HV.C139_d21_trailing",
    "HV.C139_refex_tail",
    "HV.C139_refex_canard",
    "HV.C139_refex_default"
   ],
   "note": ""
  },
  {
   "property": "C140",
   "status": "proved",
   "theorems": [
    "HV.C140_flat_wing",
    "HV.C140_wing",
    "HV.C140_refex_wing",
    "HV.C140_d21_wing"
   ],
   "note": ""
  },
  {
   "property": "C141",
   "status": "partial",
   "theorems": [
    "HV.Veh.C141_vehicle",
    "HV.Veh.C141_vehicle_str",
    "HV.Veh.C141_sum",
    "HV.Veh.C141_unique",
    "HV.C141_component",
    "HV.C141_named",
    "HV.C141_coons_violated",
    "HV.C141_cube_violated"
   ],
   "note": "Holds for vehicles and components; violated by CoonsPatch.__repr__ (prints p10 for p11 and p01) and CubePatch.__repr__ (AttributeError: reads self.r)."
  },
  {
   "property": "C142",
   "status": "proved",
   "theorems": [
    "HV.C142_d21",
    "HV.C142_overall",
    "HV.C142_refex",
    "HV.C142_waverider"
   ],
   "note": "Wing resolution assumed low enough that no mesh point falls strictly within the last part of the leading edge (D21Coarse), as for C140_d21_wing."
  },
  {
   "property": "C143",
   "status": "partial",
   "theorems": [
    "HV.C143_partial",
    "HV.C143_violated"
   ],
   "note": "Violated by hangar/refex.py: the script applies CART3D a second time, which undoes it. C143_partial: generate followed by to_stl writes the Cart3D frame."
  },
  {
   "property": "C144",
   "status": "partial",
   "theorems": [
    "HV.C144_partial",
    "HV.C144_stale_violated",
    "HV.C144_untagged_violated",
    "HV.C144_overwritten_violated",
    "HV.C144_no_pymesh",
    "HV.C144_waverider"
   ],
   "note": "C144_partial holds for every PyMesh whose steps keep the surface, without a prefix and with distinct non-empty tags; C144_waverider applies it to the script of the waverider. Violated: with a prefix the files merged are those without the prefix, so older files are merged instead (C144_stale_violated) or an exception is raised; untagged components raise (C144_untagged_violated); a component tagged with the name of the vehicle loses its file (C144_overwritten_violated). C144_no_pymesh: without PyMesh."
  },
  {
   "property": "C145",
   "status": "partial",
   "theorems": [
    "HV.Delaunay.C145_partial",
    "HV.Delaunay.C145_violated",
    "HV.Delaunay.C145_ends"
   ],
   "note": "C145_partial: for directories without special characters of glob and no trailing slash, and CSV files not hidden and without '.csv' elsewhere in their name. C145_violated: a.csv and a.csv_old.csv both go to a.vtu. C145_ends: no CSV files."
  },
  {
   "property": "C146",
   "status": "partial",
   "theorems": [
    "HV.C146_partial",
    "HV.C146_violated"
   ],
   "note": "Length, width, underside and flaps proved for all sensible dimensions and resolutions; the height is h (L + 0.05) instead of h (C146_violated)."
  },
  {
   "property": "C147",
   "status": "proved",
   "theorems": [
    "HV.C147_x43"
   ],
   "note": ""
  },
  {
   "property": "C148",
   "status": "partial",
   "theorems": [
    "HV.C148_hifire8_partial",
    "HV.C148_third_fin_violated"
   ],
   "note": "the third fin is made by halving the position of its upper corners, which halves their distance from the axis and not their height over the fuselage: it stands out by its rounded edge only"
  },
  {
   "property": "C149",
   "status": "partial",
   "theorems": [
    "HV.C149_falcon9_partial",
    "HV.C149_falcon9_violated",
    "HV.C149_cube",
    "HV.C149_sphere",
    "HV.C149_revolved_open",
    "HV.C149_revolved_partial",
    "HV.C149_revolved_violated",
    "HV.C149_hexahedron",
    "HV.C149_finner_partial",
    "HV.C149_finner_violated",
    "HV.C149_flat_wing_violated"
   ],
   "note": "Proved for cubes, spheres, bodies of revolution that stay off the axis, convex bodies swept between two quadrilaterals and the fins of the Finner. Violated by every body of revolution whose profile ends on the axis (only there, C149_revolved_partial), in particular by the body of the Finner and both bodies of the Falcon 9 (only at the tips, C149_falcon9_partial), and by wings with a flat leading edge without a flap."
  },
  {
   "property": "C150",
   "status": "partial",
   "theorems": [
    "HV.C150_cube_partial",
    "HV.C150_cube_violated",
    "HV.C150_sphere",
    "HV.C150_revolved",
    "HV.C150_swept_violated"
   ],
   "note": "Proved for the sphere and the body of revolution. Cube takes half the side length, not the side length the documentation names; swept.py passes an argument SweptComponent does not accept and writes nothing."
  },
  {
   "property": "C151",
   "status": "proved",
   "theorems": [
    "HV.C151_analyse",
    "HV.C151_vehicle"
   ],
   "note": ""
  },
  {
   "property": "C152",
   "status": "proved",
   "theorems": [
    "HV.C152_add",
    "HV.C152_generate",
    "HV.C152_analyse",
    "HV.C152_script"
   ],
   "note": ""
  },
  {
   "property": "C153",
   "status": "proved",
   "theorems": [
    "HV.C153_patch",
    "HV.C153_component",
    "HV.C153_coons",
    "HV.C153_sphere",
    "HV.C153_revolved",
    "HV.C153_bezier"
   ],
   "note": ""
  },
  {
   "property": "C154",
   "status": "partial",
   "theorems": [
    "HV.C154_component",
    "HV.C154_transform_partial",
    "HV.C154_inertia_violated",
    "HV.C154_pair_violated"
   ],
   "note": "Volume, mass, area, centre of gravity and the tensors of the components move with the vehicle; the vehicle's tensor does only for translations or if all centres coincide: it adds m*r**2 to every row, so after a quarter turn about x it is not R I R^T (C154_inertia_violated, C154_pair_violated). Not covered: components added twice, meshes that are not closed."
  },
  {
   "property": "C155",
   "status": "partial",
   "theorems": [
    "HV.C155_hifire4_partial",
    "HV.C155_floating_fins_violated"
   ],
   "note": "Violated for strong curvature across: the outer fins ignore curv_y and float above the bent wing; proved: positions of wing and fins for all parameters, contact without curvature across."
  },
  {
   "property": "C156",
   "status": "partial",
   "theorems": [
    "HV.C156_finner_partial",
    "HV.C156_finner_violated",
    "HV.C156_hifire8_violated"
   ],
   "note": "the flat feet of the fins of the Finner and of the HIFiRE 8 are tangent to the round body: they touch it along one line only"
  },
  {
   "property": "C157",
   "status": "partial",
   "theorems": [
    "HV.C157_x43_partial",
    "HV.C157_x43_violated"
   ],
   "note": "the foot of a fin is level and does not follow the slope of the body: its rear end floats above a body sloping down, and sticks out below one sloping up"
  },
  {
   "property": "C158",
   "status": "proved",
   "theorems": [
    "HV.C158_bezier",
    "HV.C158_straight",
    "HV.C158_finer",
    "HV.C158_finner",
    "HV.C158_revolved"
   ],
   "note": ""
  },
  {
   "property": "C159",
   "status": "partial",
   "theorems": [
    "HV.C159_storage",
    "HV.C159_f32",
    "HV.C159_closed",
    "HV.C159_volume",
    "HV.C159_check_partial",
    "HV.C159_check_violated"
   ],
   "note": "The verdict of stl_check does depend on the place: translated far enough, every mesh collapses to a point in single precision (C159_check_violated). f32 is rounding to 24 binary digits without overflow and subnormals."
  },
  {
   "property": "C160",
   "status": "partial",
   "theorems": [
    "HV.C160_falcon9_violated",
    "HV.C160_finner_partial",
    "HV.C160_finner_violated",
    "HV.C160_hexahedron_partial",
    "HV.C160_prism_partial",
    "HV.C160_revolved_violated",
    "HV.C160_wedge_partial"
   ],
   "note": "Proved for convex bodies swept between two quadrilaterals with plane faces (hexahedra, prisms, the parametric wedge) and for the fins of the generated Finner, whose section has a flat corner. False for every body of revolution closed on the axis (C160_revolved_violated) and for the body of the Finner (C160_finner_violated) and both bodies of the Falcon 9 (C160_falcon9_violated). Missing: curved swept bodies, wings and fins."
  },
  {
   "property": "C161",
   "status": "proved",
   "theorems": [
    "HV.C161_centre",
    "HV.C161_inertia",
    "HV.C161_component",
    "HV.C161_vehicle",
    "HV.C161_property"
   ],
   "note": ""
  },
  {
   "property": "C162",
   "status": "proved",
   "theorems": [
    "HV.C162_straight",
    "HV.C162_finer",
    "HV.C162_curved",
    "HV.C162_finner"
   ],
   "note": ""
  },
  {
   "property": "C163",
   "status": "proved",
   "theorems": [
    "HV.C163_revolved",
    "HV.C163_composite",
    "HV.C163_cone"
   ],
   "note": ""
  },
  {
   "property": "C164",
   "status": "proved",
   "theorems": [
    "HV.C164_finner",
    "HV.C164_composite",
    "HV.C164_revolved",
    "HV.C164_straight",
    "HV.C164_ratios"
   ],
   "note": ""
  },
  {
   "property": "C165",
   "status": "proved",
   "theorems": [
    "HV.C165_finner"
   ],
   "note": ""
  },
  {
   "property": "C166",
   "status": "partial",
   "theorems": [
    "HV.C166_component",
    "HV.C166_hexahedron",
    "HV.C166_parts_partial",
    "HV.C166_vehicle_partial",
    "HV.C166_pair_violated",
    "HV.C166_wedge_violated",
    "HV.C166_falcon9_partial",
    "HV.C166_falcon9_violated",
    "HV.C166_finner_partial",
    "HV.C166_composite",
    "HV.C166_revolved"
   ],
   "note": "Proved for components whose mesh is closed, star-shaped and oriented outwards, for every convex hexahedron and every body of revolution up to the sign of its orientation. For vehicles (and for the Finner with all dimensions) volume, mass and centre of gravity are proved; the reported tensor of a vehicle is possible when all parts have the same centre, and C166_pair_violated proves that it is of no body for two convex parts beside each other (the shift of the axes in assess_inertial_properties is wrong, see C78). C166_wedge_violated: the wedge is inside out, so that its mass and all moments are negative. C166_falcon9_violated: so are both bodies of the Falcon 9, with all dimensions."
  },
  {
   "property": "C167",
   "status": "proved",
   "theorems": [
    "HV.C167_only_named",
    "HV.C167_scaled",
    "HV.C167_denser",
    "HV.C167_weightless"
   ],
   "note": ""
  },
  {
   "property": "C168",
   "status": "partial",
   "theorems": [
    "HV.C168_clusters",
    "HV.C168_grid_partial",
    "HV.C168_grid_violated",
    "HV.C168_coons_edges",
    "HV.C168_corners_partial",
    "HV.C168_corners_violated",
    "HV.C168_sphere",
    "HV.C168_vector",
    "HV.C168_paths_partial",
    "HV.C168_subrange_violated",
    "HV.C168_brackets_partial",
    "HV.C168_polyline_violated",
    "HV.C168_patch_partial",
    "HV.C168_rotated_violated"
   ],
   "note": "Proved for vectors, for paths without sub-ranged or reversed paths inside (readability) and without polylines (brackets), for Coons patches given by such edges for faces of spheres and for clustering functions. Violated by sub-ranged and reversed paths, whose text names another class and, inside other paths, nothing else; by polylines, whose closing bracket is missing; by Coons patches given by corners, whose text gives p10 for p11 and p01; by rotated patches, which do not show axis and point; and by structured grids, which do not show their label."
  },
  {
   "property": "C169",
   "status": "partial",
   "theorems": [
    "HV.C169_upper_violated",
    "HV.C169_height_violated",
    "HV.C169_planform_violated",
    "HV.C169_partial",
    "HV.C169_narrow_violated"
   ],
   "note": "Missing because the code violates it: u2x and u3x have no effect (only the y of the thickness contour is used, at the relative span as parameter), u1y and u3y only through their ratio, and p3y is limited by the radius of the fuselage at p2x instead of p3x."
  },
  {
   "property": "C170",
   "status": "partial",
   "theorems": [
    "HV.C170_partial",
    "HV.C170_violated"
   ],
   "note": "Proved for bodies of at least 2.1 m at every resolution. Violated for bodies of at most 1.4 m (and a tilt of the body of less than about 5.7 degrees): inlet_tf_top is the underside less a fixed 0.05, so the front of the inlet comes out of the back. Missing: bodies between 1.4 m and 2.1 m."
  },
  {
   "property": "C171",
   "status": "partial",
   "theorems": [
    "HV.C171_partial",
    "HV.C171_violated"
   ],
   "note": "Proved for R_nose of at least 0.075 m; violated for every smaller positive R_nose, where the height of the nose cap is the square root of a negative number (C171_violated)."
  },
  {
   "property": "C172",
   "status": "partial",
   "theorems": [
    "HV.C172_wedge_partial",
    "HV.C172_falcon9_partial",
    "HV.C172_finner_partial",
    "HV.C172_x43_partial",
    "HV.C172_htv_partial",
    "HV.C172_hifire8_partial",
    "HV.C172_hifire4_partial",
    "HV.C172_waverider_partial",
    "HV.C172_refex_partial",
    "HV.C172_d21_partial",
    "HV.C172_violated",
    "HV.C172_htv_used_partial",
    "HV.C172_refex_used_partial",
    "HV.C172_wedge_used",
    "HV.C172_finner_used",
    "HV.C172_hifire8_used",
    "HV.C172_falcon9_used",
    "HV.C172_d21_used_partial",
    "HV.C172_x43_used_partial"
   ],
   "note": "Proved for all ten generators: keyword arguments other than the declared ones have no effect. That each declared parameter is used is proved for the wedge, the Finner and the HIFiRE 8 (meshes determine the parameters), one parameter at a time for the Falcon 9 with a body no wider than its fairing, for the D-21 except the angle of the flaps, for the ReFEX except the length of the wing and the angle of the canards, for the X-43 (for these three, differences of wings and fins below the rounding of their edges are left out) and for four of the HTV; violated by the HTV (h_nom and t_LE_nom have no effect) and not claimed for the others."
  }
 ]
}
