{
 "claims": [
  {
   "property": "C01",
   "status": "proved",
   "theorems": [
    "Geec.C01_history_independence",
    "Geec.C01_all_answers"
   ],
   "note": "Any arithmetic, any history of returning calls."
  },
  {
   "property": "C03",
   "status": "proved",
   "theorems": [
    "Geec.C03_gradient_flag_same_G"
   ],
   "note": "Any arithmetic; stronger: success with gradient implies success without."
  },
  {
   "property": "C04",
   "status": "proved",
   "theorems": [
    "Geec.C04_no_gradient_zero_tensor",
    "Geec.C04_station_tensor_unchanged",
    "Geec.C04_run_zero_columns",
    "Geec.C04_run_zero"
   ],
   "note": "Any arithmetic with 0+0=0 (a+0=a for a station with any tensor)."
  },
  {
   "property": "C05",
   "status": "proved",
   "theorems": [
    "Geec.C05_tensor_symmetric",
    "Geec.C05_station_tensor_symmetric"
   ],
   "note": "Any arithmetic."
  },
  {
   "property": "C06",
   "status": "proved",
   "theorems": [
    "Geec.C06_station_accumulates",
    "Geec.C06_concatenation",
    "Geec.C06_components"
   ],
   "note": "Any arithmetic."
  },
  {
   "property": "C07",
   "status": "proved",
   "theorems": [
    "Geec.C07_wrong_argument",
    "Geec.C07_bare_polyhedron"
   ],
   "note": "Any arithmetic."
  },
  {
   "property": "C08",
   "status": "proved",
   "theorems": [
    "Geec.C08_order_of_bodies"
   ],
   "note": "Exact arithmetic."
  },
  {
   "property": "C48",
   "status": "proved",
   "theorems": [
    "Geec.C48_geometry_unmodified"
   ],
   "note": "Geometry and caches are separate in the model; the theorem is about compute_gravity."
  },
  {
   "property": "C27",
   "status": "proved",
   "theorems": [
    "Geec.C27_only_longitude",
    "Geec.C27_wrap",
    "Geec.C27_not_normalising"
   ],
   "note": "Exact arithmetic for values; any arithmetic for the other columns. C27_not_normalising shows the limits of the function."
  },
  {
   "property": "C28",
   "status": "partial",
   "theorems": [
    "Geec.C28_false",
    "Geec.C28_enu_shift",
    "Geec.C28_partial",
    "Geec.C28_exact"
   ],
   "note": "The statement is false of the code for local ENU data: refuted by C28_false. C28_exact says exactly when it holds."
  },
  {
   "property": "C29",
   "status": "proved",
   "theorems": [
    "Geec.C29_height"
   ],
   "note": "Exact arithmetic; float arrays (see C52 for integer arrays)."
  },
  {
   "property": "C30",
   "status": "partial",
   "theorems": [
    "Geec.C30_false",
    "Geec.C30_raises",
    "Geec.C30_partial",
    "Geec.C30_exact"
   ],
   "note": "The statement is false of the code: refuted by C30_false. C30_exact says exactly when it holds."
  },
  {
   "property": "C31",
   "status": "proved",
   "theorems": [
    "Geec.C31_to_ecef",
    "Geec.C31_cartesian",
    "Geec.C31_returns"
   ],
   "note": "For every lawful geodesy library and consistent CRS."
  },
  {
   "property": "C32",
   "status": "proved",
   "theorems": [
    "Geec.C32_to_wgs84"
   ],
   "note": "For every lawful geodesy library and consistent CRS."
  },
  {
   "property": "C33",
   "status": "partial",
   "theorems": [
    "Geec.C33_false",
    "Geec.C33_enu_ignores_origin",
    "Geec.C33_other_ellipsoid",
    "Geec.C33_partial",
    "Geec.C33_exact"
   ],
   "note": "The statement is false of the code: refuted by C33_false. C33_exact says exactly when it holds."
  },
  {
   "property": "C34",
   "status": "partial",
   "theorems": [
    "Geec.C34_false",
    "Geec.C34_ecef_to_enu_inconsistent",
    "Geec.C34_constructed",
    "Geec.C34_partial",
    "Geec.C34_exact"
   ],
   "note": "The statement is false of the code: refuted by C34_false. C34_exact says for every transformation exactly when it holds."
  },
  {
   "property": "C35",
   "status": "partial",
   "theorems": [
    "Geec.C35_false",
    "Geec.C35_partial",
    "Geec.C35_wgs84_partial",
    "Geec.C35_exact"
   ],
   "note": "The statement is false of the code for other ellipsoids: refuted by C35_false. C35_exact says for every conversion exactly when it holds."
  },
  {
   "property": "C36",
   "status": "partial",
   "theorems": [
    "Geec.C36_false_real",
    "Geec.C36_false",
    "Geec.C36_frames",
    "Geec.C36_partial",
    "Geec.C36_exact"
   ],
   "note": "The statement is false of the code: refuted by C36_false_real in exact arithmetic. C36_exact says exactly when it holds."
  },
  {
   "property": "C37",
   "status": "partial",
   "theorems": [
    "Geec.C37_false_real",
    "Geec.C37_false",
    "Geec.C37_first_density",
    "Geec.C37_partial",
    "Geec.C37_newton",
    "Geec.C37_tidal",
    "Geec.C37_exact"
   ],
   "note": "The statement is false of the code: refuted by C37_false_real in exact arithmetic. C37_newton says what is written instead; C37_exact says, for two bodies, exactly when the claim holds."
  },
  {
   "property": "C38",
   "status": "proved",
   "theorems": [
    "Geec.C38_table"
   ],
   "note": "Any arithmetic."
  },
  {
   "property": "C39",
   "status": "proved",
   "theorems": [
    "Geec.C39_labels"
   ],
   "note": "Any arithmetic; for the table (after to_wgs84)."
  },
  {
   "property": "C40",
   "status": "partial",
   "theorems": [
    "Geec.C40_false",
    "Geec.C40_absent_points",
    "Geec.C40_partial",
    "Geec.C40_points",
    "Geec.C40_exact"
   ],
   "note": "False of the code if a key is absent: refuted by C40_false; true with the keys present. C40_exact says for every configuration which numbers are read."
  },
  {
   "property": "C41",
   "status": "proved",
   "theorems": [
    "Geec.C41_grid",
    "Geec.C41_zero_step"
   ],
   "note": "Exact arithmetic."
  },
  {
   "property": "C42",
   "status": "proved",
   "theorems": [
    "Geec.C42_precedence",
    "Geec.C42_setup",
    "Geec.C42_no_mention",
    "Geec.C42_no_override"
   ],
   "note": "On the model of confuse's look-up."
  },
  {
   "property": "C43",
   "status": "partial",
   "theorems": [
    "Geec.C43_ref",
    "Geec.C43_false",
    "Geec.C43_egm2008_rejected",
    "Geec.C43_partial",
    "Geec.C43_exact"
   ],
   "note": "Reference systems proved; for vertical datums the statement is false of the code: refuted by C43_false. C43_exact says exactly which names are accepted and as what."
  },
  {
   "property": "C44",
   "status": "proved",
   "theorems": [
    "Geec.C44_named",
    "Geec.C44_unknown",
    "Geec.C44_axes",
    "Geec.C44_default",
    "Geec.C44_constructor",
    "Geec.C44_used"
   ],
   "note": "Any arithmetic."
  },
  {
   "property": "C45",
   "status": "partial",
   "theorems": [
    "Geec.C45_false",
    "Geec.C45_partial",
    "Geec.C45_exact"
   ],
   "note": "The statement is false of the code: refuted by C45_false. C45_exact says exactly when it holds."
  },
  {
   "property": "C46",
   "status": "proved",
   "theorems": [
    "Geec.C46_vector_product",
    "Geec.C46_rows",
    "Geec.C46_shape",
    "Geec.C46_shape_rows",
    "Geec.C46_shape_table"
   ],
   "note": "Exact arithmetic for the algebra, any arithmetic for shapes."
  },
  {
   "property": "C47",
   "status": "proved",
   "theorems": [
    "Geec.C47_no_bodies",
    "Geec.C47_no_points"
   ],
   "note": "Any arithmetic."
  },
  {
   "property": "C52",
   "status": "partial",
   "theorems": [
    "Geec.C52_false",
    "Geec.C52_int_raises",
    "Geec.C52_partial",
    "Geec.C52_exact"
   ],
   "note": "The statement is false of the code: refuted by C52_false. C52_exact says exactly when it holds."
  },
  {
   "property": "C53",
   "status": "partial",
   "theorems": [
    "Geec.C53_false_real",
    "Geec.C53_false",
    "Geec.C53_vdatum_ignored",
    "Geec.C53_partial",
    "Geec.C53_exact"
   ],
   "note": "The statement is false of the code: refuted by C53_false_real in exact arithmetic. C53_exact says exactly when it holds."
  },
  {
   "property": "C54",
   "status": "partial",
   "theorems": [
    "Geec.C54_false_real",
    "Geec.C54_false",
    "Geec.C54_absent_parameter",
    "Geec.C54_partial",
    "Geec.C54_exact"
   ],
   "note": "The statement is false of the code: refuted by C54_false_real in exact arithmetic. C54_exact says exactly when the first check of a run passes."
  },
  {
   "property": "C55",
   "status": "proved",
   "theorems": [
    "Geec.C55_files"
   ],
   "note": "Any arithmetic; assumes that writing a file succeeds."
  },
  {
   "property": "C23",
   "status": "proved",
   "theorems": [
    "Geec.C23_outward_unit_normals"
   ],
   "note": "Exact arithmetic; for every hull library result meeting the contract IsHull."
  },
  {
   "property": "C24",
   "status": "proved",
   "theorems": [
    "Geec.C24_counter_clockwise"
   ],
   "note": "Exact arithmetic; for every hull library result meeting the contract IsHull."
  },
  {
   "property": "C25",
   "status": "proved",
   "theorems": [
    "Geec.C25_twins",
    "Geec.C25_no_twin_error"
   ],
   "note": "Exact arithmetic; for every hull library result meeting the contract IsHull."
  },
  {
   "property": "C26",
   "status": "proved",
   "theorems": [
    "Geec.C26_search_not_entered",
    "Geec.C26_search_raises"
   ],
   "note": "Exact arithmetic; for every hull library result meeting the contract IsHull."
  },
  {
   "property": "C09",
   "status": "proved",
   "theorems": [
    "Geec.C09_linear",
    "Geec.C09_hull"
   ],
   "note": "Exact arithmetic; every polyhedron with twinned edges."
  },
  {
   "property": "C10",
   "status": "proved",
   "theorems": [
    "Geec.C10_translation",
    "Geec.C10_constructs"
   ],
   "note": "Exact arithmetic; the hull library is assumed to return the same indices for the moved points."
  },
  {
   "property": "C12",
   "status": "proved",
   "theorems": [
    "Geec.C12_rotation"
   ],
   "note": "Exact arithmetic; the hull library is assumed to return the same indices for the rotated points."
  },
  {
   "property": "C21",
   "status": "proved",
   "theorems": [
    "Geec.C21_vertex",
    "Geec.C21_corner"
   ],
   "note": "Exact arithmetic; both values of gradient."
  },
  {
   "property": "C22",
   "status": "proved",
   "theorems": [
    "Geec.C22_total",
    "Geec.C22_raises_iff",
    "Geec.C22_gradient",
    "Geec.C22_gradient_iff"
   ],
   "note": "Exact arithmetic. C22_gradient_iff says exactly where a query with gradient raises: at corners, and at the places of the first special case of an edge where the logarithm is of zero (no edge shorter than eps)."
  },
  {
   "property": "C02",
   "status": "partial",
   "theorems": [
    "Geec.C02_false",
    "Geec.C02_poisoned",
    "Geec.C02_partial",
    "Geec.C02_silent",
    "Geec.C02_wrong_value",
    "Geec.C02_false_value"
   ],
   "note": "The statement is false of the code: refuted by C02_false, and for every body by C02_poisoned. C02_silent: later queries without gradient return; C02_wrong_value: with wrong values."
  },
  {
   "property": "C13",
   "status": "proved",
   "theorems": [
    "Geec.C13_line_integral",
    "Geec.C13_constructed",
    "Geec.C13_hull",
    "Geec.C13_exact"
   ],
   "note": "Exact arithmetic. C13_exact: off the line and not within epsilon of the start, the value is the line integral if and only if the station is outside the thin tube."
  },
  {
   "property": "C14",
   "status": "proved",
   "theorems": [
    "Geec.C14_antisymmetric",
    "Geec.C14_twin_value",
    "Geec.C14_stored",
    "Geec.C14_stored_gradient"
   ],
   "note": "Exact arithmetic. C14_stored is about the arrays that _set_twin_pqr leaves in the twin, C14_stored_gradient the same with gradients for stations not in line with the edge."
  },
  {
   "property": "C15",
   "status": "proved",
   "theorems": [
    "Geec.C15_solid_angle"
   ],
   "note": "Exact arithmetic."
  },
  {
   "property": "C11",
   "status": "proved",
   "theorems": [
    "Geec.C11_scaling"
   ],
   "note": "exact arithmetic, regular stations; the triangulations of the two hulls may differ"
  },
  {
   "property": "C16",
   "status": "proved",
   "theorems": [
    "Geec.C16_newton",
    "Geec.C16_newton_returned"
   ],
   "note": "exact arithmetic; stations outside, inside and on the surface (faces and edges) in the sense of Hull.Regular, i.e. outside the epsilon regions; convergence of the integrals is part of the claim"
  },
  {
   "property": "C17",
   "status": "proved",
   "theorems": [
    "Geec.C17_towards"
   ],
   "note": "exact arithmetic, regular stations"
  },
  {
   "property": "C18",
   "status": "proved",
   "theorems": [
    "Geec.C18_tiling"
   ],
   "note": "exact arithmetic, any finite tiling, total accumulated by compute_gravity"
  },
  {
   "property": "C50",
   "status": "proved",
   "theorems": [
    "Geec.C50_centre"
   ],
   "note": "exact arithmetic, regular stations"
  },
  {
   "property": "C51",
   "status": "proved",
   "theorems": [
    "Geec.C51_bound"
   ],
   "note": "exact arithmetic, regular stations"
  },
  {
   "property": "C56",
   "status": "proved",
   "theorems": [
    "Geec.C56_triangulation"
   ],
   "note": "exact arithmetic, regular stations"
  },
  {
   "property": "C57",
   "status": "proved",
   "theorems": [
    "Geec.C57_congruent"
   ],
   "note": "exact arithmetic, regular stations"
  },
  {
   "property": "C19",
   "status": "proved",
   "theorems": [
    "Geec.C19_gradient",
    "Geec.C19_near",
    "Geec.C19_newton",
    "Geec.C19_newton_returned"
   ],
   "note": "C19_gradient: regular stations in no face plane, derivative of the returned field; C19_newton: every regular station off the surface and clear of the edges, also in face planes and on edge lines, derivative of Newton's integral"
  },
  {
   "property": "C20",
   "status": "proved",
   "theorems": [
    "Geec.C20_laplace"
   ],
   "note": "all regular stations outside the body, in-plane stations included"
  },
  {
   "property": "C49",
   "status": "proved",
   "theorems": [
    "Geec.C49_poisson"
   ],
   "note": "all regular stations in the interior of the body"
  },
  {
   "property": "C58",
   "status": "proved",
   "theorems": [
    "Geec.C58_tensor_triangulation"
   ],
   "note": "exact arithmetic, regular stations off the surface and clear of the edges"
  },
  {
   "property": "C59",
   "status": "proved",
   "theorems": [
    "Geec.C59_tensor_scaling"
   ],
   "note": "exact arithmetic, regular stations off the surface and clear of the edges"
  },
  {
   "property": "C60",
   "status": "proved",
   "theorems": [
    "Geec.C60_tensor_congruent"
   ],
   "note": "exact arithmetic, regular stations off the surface and clear of the edges"
  },
  {
   "property": "C61",
   "status": "proved",
   "theorems": [
    "Geec.C61_tensor_tiling"
   ],
   "note": "exact arithmetic, regular stations off the surface and clear of the edges"
  },
  {
   "property": "C62",
   "status": "proved",
   "theorems": [
    "Geec.C62_tidal_integrals"
   ],
   "note": "exact arithmetic, regular stations off the surface and clear of the edges"
  },
  {
   "property": "C63",
   "status": "proved",
   "theorems": [
    "Geec.C63_tensor_bound"
   ],
   "note": "exact arithmetic, regular stations off the surface and clear of the edges"
  },
  {
   "property": "C64",
   "status": "partial",
   "theorems": [
    "Geec.C64_false",
    "Geec.C64_thin_tensor",
    "Geec.C13_thin_tube",
    "Geec.C64_partial",
    "Geec.C64_exact"
   ],
   "note": "refuted: beside the prolongation of an edge the edge integral has the wrong sign and the tensor is wrong; proved outside the thin tubes, including face planes and edge lines; inside the tube of one edge the tensor is right iff the edge is flat, i.e. wrong at every edge of the solid (C64_exact)"
  },
  {
   "property": "C65",
   "status": "proved",
   "theorems": [
    "Geec.C65_copy",
    "Geec.C65_no_directory",
    "Geec.C65_raises"
   ],
   "note": "permissions and full disks are not modelled"
  },
  {
   "property": "C66",
   "status": "partial",
   "theorems": [
    "Geec.C66_false",
    "Geec.C66_show",
    "Geec.C66_masses",
    "Geec.C66_observers",
    "Geec.C66_grid",
    "Geec.C66_partial",
    "Geec.C66_exact",
    "Geec.C66_run"
   ],
   "note": "refuted for the vdatum of the observers, which the template lacks; proved if no other file sets it; C66_exact says exactly what the other files change; C66_run: the table of the run is the same for any known vdatum in them"
  },
  {
   "property": "C67",
   "status": "partial",
   "theorems": [
    "Geec.C67_false",
    "Geec.C67_first_body",
    "Geec.C67_observers",
    "Geec.C67_partial",
    "Geec.C67_exact"
   ],
   "note": "refuted for the first mass body (egm96) and the ellipsoid of the observers (airy); proved for null values, other bodies and the vdatum of observers; C67_exact: the vertical datum is the documented one exactly for bodies other than the first"
  },
  {
   "property": "C68",
   "status": "partial",
   "theorems": [
    "Geec.C68_false",
    "Geec.C68_complete",
    "Geec.C68_partial",
    "Geec.C68_exact"
   ],
   "note": "refuted for entries that rely on the defaults; proved for complete entries; C68_exact: it holds for all orders of a list of entries if and only if each entry gives the same body at every place of the list"
  },
  {
   "property": "C69",
   "status": "proved",
   "theorems": [
    "Geec.C69_newton",
    "Geec.C69_tidal",
    "Geec.C69_cartesian",
    "Geec.C69_returns"
   ],
   "note": "for equal densities and constants (C37 is false otherwise), bodies and stations as transformed by the run (C36), regular stations, exact arithmetic"
  },
  {
   "property": "C70",
   "status": "proved",
   "theorems": [
    "Geec.C70_reset_repairs",
    "Geec.C70_session"
   ],
   "note": "any arithmetic, any sequence of calls of Polyhedron/Face/Edge methods before the reset"
  },
  {
   "property": "C71",
   "status": "partial",
   "theorems": [
    "Geec.C71_false",
    "Geec.C71_poisoned",
    "Geec.C71_partial",
    "Geec.C71_wrong_value"
   ],
   "note": "refuted: one Face.get_gravity makes a later query with gradient of the same polyhedron raise; proved when Polyhedron.reset is called in between; C71_wrong_value: without gradient the later query returns a wrong value"
  },
  {
   "property": "C72",
   "status": "proved",
   "theorems": [
    "Geec.C72_error",
    "Geec.C72_metres"
   ],
   "note": "exact arithmetic; for all stations farther than eps from the corners and not exactly on a surface |a-s| + (a-s).u = eps of an edge"
  },
  {
   "property": "C73",
   "status": "proved",
   "theorems": [
    "Geec.C73_point_mass"
   ],
   "note": "exact arithmetic, regular stations"
  },
  {
   "property": "C74",
   "status": "proved",
   "theorems": [
    "Geec.C74_precision",
    "Geec.C74_precision_tensor"
   ],
   "note": "limit of increasing precision; regular stations aside the lines of the edges"
  },
  {
   "property": "C75",
   "status": "partial",
   "theorems": [
    "Geec.C75_edge_line",
    "Geec.C75_false",
    "Geec.C75_partial"
   ],
   "note": "false on the lines of edges (C75_false, with the size of the error in C75_edge_line); holds aside of them (C75_partial)"
  },
  {
   "property": "C76",
   "status": "proved",
   "theorems": [
    "Geec.C76_field",
    "Geec.C76_tensor",
    "Geec.C76_newton"
   ],
   "note": "limit of increasing precision at every station where no strict comparison is a tie in exact arithmetic"
  },
  {
   "property": "C77",
   "status": "partial",
   "theorems": [
    "Geec.C77_false",
    "Geec.C77_shared_crs",
    "Geec.C77_shared_array",
    "Geec.C77_caller_array",
    "Geec.C77_partial",
    "Geec.C77_exact"
   ],
   "note": "false with shared arrays or CRS objects; holds for datasets that share nothing, any program of calls; C77_exact: necessary and sufficient conditions for one call to leave another dataset as it was"
  },
  {
   "property": "C78",
   "status": "proved",
   "theorems": [
    "Geec.C78_atomic",
    "Geec.C78_proviso"
   ],
   "note": "with the stated proviso on the library; C78_proviso shows that it is needed"
  },
  {
   "property": "C79",
   "status": "proved",
   "theorems": [
    "Geec.C79_loop",
    "Geec.C79_masses",
    "Geec.C79_methods"
   ],
   "note": ""
  },
  {
   "property": "C80",
   "status": "partial",
   "theorems": [
    "Geec.C80_labels",
    "Geec.C80_false",
    "Geec.C80_partial",
    "Geec.C80_exact"
   ],
   "note": "labels are never stale, but metres are labelled as degrees; right after to_wgs84; C80_exact: they are right exactly for geographic and Cartesian data"
  },
  {
   "property": "C81",
   "status": "proved",
   "theorems": [
    "Geec.C81_lp",
    "Geec.C81_centroid",
    "Geec.C81_no_search"
   ],
   "note": "over the reals; a solver that is right about feasibility is a hypothesis of the last two"
  },
  {
   "property": "C82",
   "status": "proved",
   "theorems": [
    "Geec.C82_count",
    "Geec.C82_reversed",
    "Geec.C82_even"
   ],
   "note": ""
  },
  {
   "property": "C83",
   "status": "proved",
   "theorems": [
    "Geec.C83_effects",
    "Geec.C83_failure",
    "Geec.C83_run_creates",
    "Geec.C83_readonly"
   ],
   "note": ""
  },
  {
   "property": "C84",
   "status": "proved",
   "theorems": [
    "Geec.C84_gradient",
    "Geec.C84_work",
    "Geec.C84_closed",
    "Geec.C84_work_error"
   ],
   "note": "over the reals"
  },
  {
   "property": "C85",
   "status": "proved",
   "theorems": [
    "Geec.C85_continuous",
    "Geec.C85_bounded"
   ],
   "note": "over the reals"
  },
  {
   "property": "C86",
   "status": "proved",
   "theorems": [
    "Geec.C86_field",
    "Geec.C86_table",
    "Geec.C86_newton"
   ],
   "note": "geographic and ENU sections, and grids of observation points, are outside this statement"
  },
  {
   "property": "C87",
   "status": "proved",
   "theorems": [
    "Geec.C87_sequences",
    "Geec.C87_roundtrip",
    "Geec.C87_geodetic",
    "Geec.C87_wgs84",
    "Geec.earth_lawful"
   ],
   "note": "closed formulas of the geodesy library over the reals; its iterative inverse is taken to be the exact inverse"
  },
  {
   "property": "C88",
   "status": "proved",
   "theorems": [
    "Geec.C88_rigid",
    "Geec.C88_up",
    "Geec.C88_axes",
    "Geec.C88_gravity",
    "Geec.C88_same_triangulation"
   ],
   "note": "over the reals, closed formulas of the geodesy library"
  },
  {
   "property": "C89",
   "status": "partial",
   "theorems": [
    "Geec.C89_false",
    "Geec.C89_displaced_partial",
    "Geec.C89_field_partial"
   ],
   "note": "false: longitude, latitude and height are used as metres; proved instead: the place used is more than 6000 km from the point, and how small the field written is"
  },
  {
   "property": "C90",
   "status": "proved",
   "theorems": [
    "Geec.C90_difference",
    "Geec.C90_stable"
   ],
   "note": "over the reals; the field only, not the tensor"
  },
  {
   "property": "C91",
   "status": "proved",
   "theorems": [
    "Geec.C91_centre_of_mass",
    "Geec.centreOfMass_mem",
    "Geec.centreOfMass_spec"
   ],
   "note": "over the reals"
  },
  {
   "property": "C92",
   "status": "proved",
   "theorems": [
    "Geec.C92_atomic",
    "Geec.C92_types",
    "Geec.C92_set_pqr",
    "Geec.C92_set_dpqr",
    "Geec.C92_set_twin",
    "Geec.C92_reset"
   ],
   "note": "edges of other bodies as twins, and arrays of other shapes, are not passed"
  },
  {
   "property": "C93",
   "status": "proved",
   "theorems": [
    "Geec.C93_same",
    "Geec.C93_closed",
    "Geec.C93_faces",
    "Geec.C93_station"
   ],
   "note": "the layout by rich is not modelled: the fields shown are"
  },
  {
   "property": "C94",
   "status": "proved",
   "theorems": [
    "Geec.C94_outside",
    "Geec.C94_between",
    "Geec.C94_dense",
    "Geec.C94_sphere",
    "Geec.newton_ball"
   ],
   "note": "over the reals"
  },
  {
   "property": "C95",
   "status": "proved",
   "theorems": [
    "Geec.C95_density",
    "Geec.C95_same",
    "Geec.C95_cavity",
    "Geec.C95_part",
    "Geec.C95_hollow"
   ],
   "note": "over the reals"
  },
  {
   "property": "C96",
   "status": "proved",
   "theorems": [
    "Geec.C96_field",
    "Geec.C96_tensor"
   ],
   "note": "over the reals"
  },
  {
   "property": "C97",
   "status": "proved",
   "theorems": [
    "Geec.C97_rows",
    "Geec.C97_split",
    "Geec.C97_bodies",
    "Geec.C97_density",
    "Geec.C97_order"
   ],
   "note": "C97_rows and C97_split in any arithmetic, the others over the reals"
  },
  {
   "property": "C98",
   "status": "proved",
   "theorems": [
    "Geec.C98_rate",
    "Geec.C98_roundoff",
    "Geec.C98_newton",
    "Geec.C98_newton_tensor",
    "Geec.C98_run",
    "Geec.C98_run_newton"
   ],
   "note": "Arithmetic on the reals rounded after every operation (gradual underflow, no overflow up to K); K exists but is not computed. Same conditions on comparisons as C76, C86."
  },
  {
   "property": "C99",
   "status": "partial",
   "theorems": [
    "Geec.C99_show",
    "Geec.C99_partial",
    "Geec.C99_grids",
    "Geec.C99_main",
    "Geec.C99_false"
   ],
   "note": "That equal logs mean equal tables is refuted (C99_false): the grid of a mass is read but not logged. It is proved for masses that have points or a file (C99_partial), and for any masses if the grids that are not logged are the same (C99_grids). The statements on failing and on config.main are proved in full."
  },
  {
   "property": "C100",
   "status": "proved",
   "theorems": [
    "Geec.C100_elapsed",
    "Geec.C100_program",
    "Geec.C100_times"
   ],
   "note": "timing.py is not imported by the rest of the package. Elapsed seconds are modelled as integer microseconds, to which timedelta rounds them."
  },
  {
   "property": "C101",
   "status": "proved",
   "theorems": [
    "Geec.C101_joint",
    "Geec.C101_lipschitz",
    "Geec.C101_roundoff",
    "Geec.C101_newton",
    "Geec.C101_run",
    "Geec.C101_run_newton"
   ],
   "note": "The hull library is supposed to return the same triangulation for the changed points. C101_joint and C101_lipschitz suppose that the points of the body are distinct. C101_run and C101_run_newton are for geec run of a configuration without grids whose numbers are rounded when read."
  },
  {
   "property": "C102",
   "status": "partial",
   "theorems": [
    "Geec.C102_false",
    "Geec.C102_count",
    "Geec.C102_exact_count",
    "Geec.C102_partial",
    "Geec.C102_bits"
   ],
   "note": "Refuted (C102_false): with double precision numbers the grid from 1 to 1.3 by 0.1 has four values instead of three. C102_count: there is at most one value more, and only if the end is a whole number of steps away from the start. C102_exact_count: the numbers of values agree in every arithmetic that is accurate enough if and only if it is not. C102_partial and C102_bits: proved in full for grids whose axes have no such end, or consist of integers."
  },
  {
   "property": "C103",
   "status": "proved",
   "theorems": [
    "Geec.C103_stable",
    "Geec.C103_firm",
    "Geec.C103_newton",
    "Geec.C103_newton_general",
    "Geec.C103_run",
    "Geec.C103_run_general",
    "Geec.C103_tensor",
    "Geec.C103_run_tidal",
    "Geec.C101_run_tidal"
   ],
   "note": "The points are Firm: they span a solid and each is a strict corner or inside; points in the middle of a face or an edge are excluded (rounding may make them corners). The hull library may return any triangulated hull of the rounded points that lists no vertex and no neighbour twice (Tidy). C103_firm: a hull of nearby points is a hull of the points. The _general versions are for points of which no four are coplanar, where regularity for one hull is enough. C103_run is for geec run of a configuration without grids whose bodies have equal density and gravity constant. C103_tensor and C103_run_tidal (through C101_run_tidal) are the same for the tensor and for the whole table of geec run --gradient, at points off the lines of the edges."
  },
  {
   "property": "C104",
   "status": "proved",
   "theorems": [
    "Geec.C104_exists",
    "Geec.C104_unique",
    "Geec.C104_library"
   ],
   "note": "Existence for all lists of points that span a solid; uniqueness of the triangles for points in general position (a square face has two triangulations)."
  },
  {
   "property": "C105",
   "status": "proved",
   "theorems": [
    "Geec.C105_answer",
    "Geec.C105_returns",
    "Geec.C105_density",
    "Geec.C105_run",
    "Geec.C105_run_returns"
   ],
   "note": "For any arithmetic with a predicate NaNLike: results of operations on NaN are NaN, comparisons with NaN are false (IEEE 754). NaN among the points of a body is outside of the claim (the hull library decides)."
  },
  {
   "property": "C106",
   "status": "partial",
   "theorems": [
    "Geec.C106_false",
    "Geec.C106_not_a_number",
    "Geec.C106_partial",
    "Geec.C106_exact",
    "Geec.C106_constructs",
    "Geec.C106_newton",
    "Geec.C106_tensor",
    "Geec.C106_no_nan",
    "Geec.C106_returns",
    "Geec.C106_run",
    "Geec.C106_run_newton",
    "Geec.C106_run_returns",
    "Geec.C106_run_not_a_number"
   ],
   "note": "False as stated: without gradient, where the distance to an end of an edge equals the length of the edge and |a-s|+(a-s).u is exactly eps (a circle some 2e-8 from the other end), the code takes log(0): C106_not_a_number exhibits it for the unit tetrahedron, where all components of the attraction are then undefined. Everywhere else (all stations with gradient; Hull.Tame without) the claim is proved for every arithmetic that agrees with the real numbers on the domains of the operations (Extends). C106_exact says exactly where it fails."
  },
  {
   "property": "C107",
   "status": "proved",
   "theorems": [
    "Geec.C107_read",
    "Geec.C107_same"
   ],
   "note": "For the tokenizer of pandas' C engine as modelled in Model/Csv; the reading of a single number is a parameter."
  },
  {
   "property": "C108",
   "status": "partial",
   "theorems": [
    "Geec.Toy.C108_false",
    "Geec.C108_long",
    "Geec.C108_empty",
    "Geec.C108_short",
    "Geec.C108_run",
    "Geec.C108_exact",
    "Geec.C108_exact_numbers"
   ],
   "note": "False as stated: a line that is shorter than the first one is filled up with NaN (C108_short), and the run goes on with NaN in the results of that station (C108_run). Files with a longer line, or with no line, are refused (C108_long, C108_empty). Exactly: a file is accepted iff its first line has three numbers and every other line two or three, where the empty text counts as a number (C108_exact); the claim would hold iff the number reading refused the empty text (C108_exact_numbers)."
  },
  {
   "property": "C109",
   "status": "proved",
   "theorems": [
    "Geec.C109_lines",
    "Geec.C109_injective",
    "Geec.C109_not_input",
    "Geec.C109_text"
   ],
   "note": "The text of a single number is a parameter; C109_text is for texts without commas, quotes and line ends."
  },
  {
   "property": "C110",
   "status": "partial",
   "theorems": [
    "Geec.Toy.C110_false",
    "Geec.C110_partial",
    "Geec.C110_exact",
    "Geec.C110_again",
    "Geec.C110_overwritten"
   ],
   "note": "False as stated: the suffix of the output is replaced by .csv, so the output obs.txt overwrites the stations obs.csv (Toy.C110_false); the same run again then raises ValueError (C110_overwritten). It holds when the name with the suffix .csv is not an input (C110_partial; C110_exact: a run leaves its input files as they were if and only if none of them is the name with the suffix .csv, and otherwise the same run again raises ValueError), and then the run can be repeated with the same result (C110_again)."
  },
  {
   "property": "C111",
   "status": "partial",
   "theorems": [
    "Geec.C111_false",
    "Geec.C111_partial",
    "Geec.C111_needed",
    "Geec.C111_shipped",
    "Geec.C111_unused"
   ],
   "note": "False as stated: importing geec.crs opens the three grids, so every command, --version included, raises ValueError if one of them is missing (C111_false, C111_needed), which is the case for the checked-out repository (C111_shipped; only egm84-15.pgm is there). True: nothing on the disk changes then; with the grids installed every command does what C83 says (C111_partial); the contents of the grids do not influence the table of a run whose bodies have ellipsoidal heights or are not geographic (C111_unused)."
  },
  {
   "property": "C112",
   "status": "proved",
   "theorems": [
    "Geec.C112_field",
    "Geec.C112_tensor",
    "Geec.C112_far"
   ],
   "note": "Exact arithmetic, hulls that satisfy IsHull, stations regular and off the planes of the faces. The proof continues the difference of the two attractions analytically along segments, through the faces of one of the bodies along the tangent directions, and contradicts the trace of the derivative (C49)."
  },
  {
   "property": "C113",
   "status": "proved",
   "theorems": [
    "Geec.C113_compare",
    "Geec.C113_part",
    "Geec.C113_plate",
    "Geec.C113_width",
    "Geec.C113_cylinder",
    "Geec.C113_wide"
   ],
   "note": "Exact arithmetic, hulls that satisfy IsHull, regular stations. The cylinder is integrated by slices (disc_integral)."
  },
  {
   "property": "C114",
   "status": "proved",
   "theorems": [
    "Geec.C114_force",
    "Geec.C114_moment",
    "Geec.C114_mean",
    "Geec.C114_force_error",
    "Geec.C114_mean_error"
   ],
   "note": "Exact arithmetic, hulls that satisfy IsHull. In the exact statements every point of the one body (of the ball) is a regular station of the other body, so that no plane of a face comes within epsilon of them; the statements with an error only need them farther than epsilon from the corners."
  },
  {
   "property": "C115",
   "status": "proved",
   "theorems": [
    "Geec.C115_flux",
    "Geec.C115_mass",
    "Geec.C115_empty"
   ],
   "note": "Exact arithmetic, hulls that satisfy IsHull; the stations of the surface farther than epsilon from the corners of the body and within a distance D that enters the error bound."
  },
  {
   "property": "C116",
   "status": "proved",
   "theorems": [
    "Geec.C116_field",
    "Geec.C116_tensor",
    "Geec.C116_block",
    "Geec.C116_run",
    "Geec.C116_float",
    "Geec.C116_tensor_float",
    "Geec.C116_run_float"
   ],
   "note": "Exact arithmetic, hulls that satisfy IsHull; C116_float, C116_tensor_float, C116_run_float: in floating point with any hull library, to within K times the unit roundoff, field, tensor and all nine columns of geec run. C116_field supposes that the query returned (it can fail on edges and corners); C116_block: off the six planes it does return. C116_run is about columns Gx, Gy, Gz."
  },
  {
   "property": "C117",
   "status": "proved",
   "theorems": [
    "Geec.C117_columns",
    "Geec.C117_lon180",
    "Geec.C117_height",
    "Geec.C117_wgs84"
   ],
   "note": "C117_lon180 and C117_height in exact arithmetic, C117_height for float coordinates with latitudes and longitudes that the library accepts."
  },
  {
   "property": "C118",
   "status": "proved",
   "theorems": [
    "Geec.C118_value",
    "Geec.C118_unique",
    "Geec.C118_source",
    "Geec.C118_parameter"
   ],
   "note": "PyYAML is modelled (Model/Yaml) for block mappings and sequences, lists in brackets, plain words, decimal numbers, double quoted strings without escapes, null, booleans and comments, each scalar on one line; lines without tabs and carriage returns. The model returns none on other texts, and nothing is said about them."
  },
  {
   "property": "C119",
   "status": "proved",
   "theorems": [
    "Geec.C119_exact",
    "Geec.C119_parameter",
    "Geec.C119_false"
   ],
   "note": "In the modelled part of YAML. C119_false: that every decimal notation is a number is refuted. Not covered: other notations with superfluous leading zeros (octal numbers in YAML 1.1), underscores, base 60."
  },
  {
   "property": "C120",
   "status": "proved",
   "theorems": [
    "Geec.C120_shipped",
    "Geec.C120_config"
   ],
   "note": "The texts of the files are transcribed line by line (Model/ShippedText) and read by the model of the parser, by kernel computation."
  },
  {
   "property": "C121",
   "status": "proved",
   "theorems": [
    "Geec.C121_grids",
    "Geec.C121_app",
    "Geec.C121_command",
    "Geec.C121_logger",
    "Geec.C121_run",
    "Geec.C121_help",
    "Geec.C121_refused",
    "Geec.C121_unique",
    "Geec.C121_unreadable",
    "Geec.C121_config",
    "Geec.C121_files"
   ],
   "note": "The parser of click 8.1 is modelled word by word (Model/CommandLine); not modelled: environment variables for shell completion, wildcards on Windows. Where a configuration file that is read is outside the modelled part of YAML the model of the program gives none and nothing is said."
  },
  {
   "property": "C122",
   "status": "proved",
   "theorems": [
    "Geec.C122_read",
    "Geec.C122_run",
    "Geec.C122_gradient"
   ],
   "note": "Exact arithmetic, a hull library that satisfies Honest, number texts without commas, quotes and line ends, points in regular position (ClearPoint, ClearTensor). The points are not corners; with gradient they are outside. C122_read holds in any arithmetic."
  },
  {
   "property": "C123",
   "status": "proved",
   "theorems": [
    "Geec.C123_first",
    "Geec.C123_gradient",
    "Geec.C123_exact"
   ],
   "note": "As C122, for any densities and constants; C123_exact for two bodies and observation points outside the second one."
  },
  {
   "property": "C124",
   "status": "proved",
   "theorems": [
    "Geec.C124_run",
    "Geec.C124_gradient"
   ],
   "note": "Composes C122_read, C103_run and C103_run_tidal with the command line and the text of the output; the rounding has rnd 0 = 0 for the six zeros of C124_run."
  },
  {
   "property": "C125",
   "status": "proved",
   "theorems": [
    "Geec.C125_same"
   ],
   "note": "Any arithmetic and libraries, which are the same for both calls; the configuration files are in the modelled part of YAML (Holds, Names). The configuration and the files of points are not the log."
  },
  {
   "property": "C126",
   "status": "proved",
   "theorems": [
    "Geec.C126_prisms"
   ],
   "note": "As C124_gradient; the closed formula is that of C116. Points apart from the planes of the faces: SeesBlock and off the planes, with a bound D on the distances."
  },
  {
   "property": "C127",
   "status": "proved",
   "theorems": [
    "Geec.C127_read",
    "Geec.C127_run",
    "Geec.C127_gradient"
   ],
   "note": "Exact arithmetic (the numbers of nodes in floating point are those of C102), Int.ceil as math.ceil, hulls that satisfy IsHull; bodies with listed points or files of points."
  },
  {
   "property": "C128",
   "status": "proved",
   "theorems": [
    "Geec.C128_zero_step",
    "Geec.C128_behind",
    "Geec.C128_points",
    "Geec.C128_exact",
    "Geec.C128_run",
    "Geec.C128_program"
   ],
   "note": "Exact arithmetic, Int.ceil as math.ceil; the exceptions of numpy 1.24 mgrid are known from its source, which is not in /repo (trusted); axes whose entries are neither numbers nor missing are not covered, and C128_program has no missing entries; its example is the ValueError case, a step of 0 is shown beside C128_run."
  }
 ]
}