{"id": "C01", "title": "Repeated gravity queries are independent of history", "statement": "Any finite sequence of successful Polyhedron.get_gravity calls on one Polyhedron object gives, for each call, exactly the value (G, T) that the same call gives on a freshly constructed Polyhedron; no earlier station, density, constant or gradient flag influences a later answer, although intermediate values are cached in the faces and edges and arrays are aliased and updated in place.", "quantifier": "all polyhedra with twinned edges, all finite histories of successful calls, every arithmetic (including IEEE floats)", "why_tests_cant": "the number of histories is infinite; a stale cache shows up only for particular orders of stations and flags", "anchors": ["geec/polyhedron.py:Polyhedron.get_gravity", "geec/polyhedron.py:Polyhedron.reset", "geec/polyhedron.py:Face.reset", "geec/polyhedron.py:Edge.reset", "geec/polyhedron.py:Face._add_pqr", "geec/polyhedron.py:Edge._set_twin_pqr"]}
{"id": "C02", "title": "A failed gravity query leaves no trace", "statement": "If Polyhedron.get_gravity raises, a later get_gravity call on the same object still returns the value a fresh Polyhedron would return.", "quantifier": "all polyhedra, all histories that contain raising calls", "why_tests_cant": "needs a raise at every possible point of the face loop followed by an arbitrary query", "anchors": ["geec/polyhedron.py:Polyhedron.get_gravity", "geec/polyhedron.py:Polyhedron.reset", "geec/polyhedron.py:Edge._get_ccw_line_integrals"]}
{"id": "C03", "title": "The gradient flag does not change the gravity vector", "statement": "Whenever get_gravity succeeds with gradient=True and with gradient=False for the same arguments, the vector G is identical.", "quantifier": "all polyhedra, stations, densities, constants, every arithmetic", "why_tests_cant": "equality must hold for every input and every rounding behaviour", "anchors": ["geec/polyhedron.py:Face.get_gravity", "geec/polyhedron.py:Face._get_omega", "geec/polyhedron.py:Edge._line_integral_along_edge"]}
{"id": "C04", "title": "Without gradient the tensor is zero", "statement": "With gradient=False, get_gravity returns the zero 3x3 tensor, compute_gravity leaves Station.T unchanged, and the six gradient columns written by `geec run` without --gradient are zero on every row.", "quantifier": "all polyhedra, stations, bodies lists", "why_tests_cant": "quantifies over every input", "anchors": ["geec/polyhedron.py:Face.get_gravity", "geec/station.py:Station.compute_gravity", "geec/cli.py:run"]}
{"id": "C05", "title": "The gradient tensor is symmetric", "statement": "The tensor returned by get_gravity(gradient=True) and accumulated in Station.T is exactly symmetric (bit for bit), for every input, so that the six values kept by the CLI determine it.", "quantifier": "all polyhedra, stations, body lists, every arithmetic", "why_tests_cant": "holds for all inputs including ones where intermediate terms are inexact", "anchors": ["geec/polyhedron.py:Face.get_gravity", "geec/station.py:Station.compute_gravity", "geec/cli.py:run"]}
{"id": "C06", "title": "Station accumulates exactly the sum of the bodies", "statement": "compute_gravity(list) adds to Station.G and Station.T the get_gravity results of the listed bodies, in list order, onto whatever the station held before; one call on a concatenated list equals two successive calls; a body listed twice counts twice.", "quantifier": "all stations, all lists of polyhedra (with repetitions of the same object), all prior station contents", "why_tests_cant": "unbounded lists, and sharing of mutable bodies between list positions", "anchors": ["geec/station.py:Station.compute_gravity", "geec/station.py:Station.__init__"]}
{"id": "C07", "title": "compute_gravity rejects wrong arguments atomically", "statement": "If the argument is neither a Polyhedron nor a list of Polyhedron objects, compute_gravity raises TypeError and neither the station nor any body is modified; a bare Polyhedron behaves as a one-element list; a tuple of polyhedra is rejected.", "quantifier": "all argument values, all states", "why_tests_cant": "quantifies over every argument shape and position of the offending element", "anchors": ["geec/station.py:Station.compute_gravity"]}
{"id": "C08", "title": "Total gravity does not depend on the order of bodies", "statement": "Permuting the list of bodies given to compute_gravity does not change the resulting G and T (exact arithmetic).", "quantifier": "all lists and permutations", "why_tests_cant": "factorially many permutations of unbounded lists", "anchors": ["geec/station.py:Station.compute_gravity"]}
{"id": "C09", "title": "Gravity is linear in density and gravitational constant", "statement": "G and T scale by k when density or Gc is scaled by k, are additive in density, depend on density and Gc only through their product, and vanish when either is zero (exact arithmetic).", "quantifier": "all polyhedra, stations, real densities and constants", "why_tests_cant": "quantifies over all reals", "anchors": ["geec/polyhedron.py:Face.get_gravity", "geec/polyhedron.py:Polyhedron.get_gravity"]}
{"id": "C10", "title": "Translation invariance", "statement": "Moving the body and the station by the same vector leaves G and T unchanged, including which exception is raised if any (exact arithmetic).", "quantifier": "all polyhedra, stations, translation vectors", "why_tests_cant": "quantifies over all reals", "anchors": ["geec/polyhedron.py:Polyhedron.get_gravity", "geec/polyhedron.py:Face._get_dot_point1", "geec/polyhedron.py:Face._get_omega", "geec/polyhedron.py:Edge._get_ccw_line_integrals"]}
{"id": "C11", "title": "Scaling law", "statement": "Scaling body and station by a factor k > 0 multiplies G by k (Newtonian gravity of a homogeneous body is homogeneous of degree one), away from the epsilon thresholds.", "quantifier": "all polyhedra, stations, k > 0", "why_tests_cant": "quantifies over all reals", "anchors": ["geec/polyhedron.py:Polyhedron.get_gravity"]}
{"id": "C12", "title": "Rotation equivariance", "statement": "Rotating body and station about the origin rotates G in the same way.", "quantifier": "all polyhedra, stations, rotations", "why_tests_cant": "quantifies over the rotation group", "anchors": ["geec/polyhedron.py:Polyhedron.get_gravity"]}
{"id": "C13", "title": "Edge integrals are the true line integrals", "statement": "For a station that is not on the edge, the vector (P,Q,R) computed for an edge equals the integral along the edge, from start to end, of the unit tangent divided by the distance to the station, including stations in line with the edge on either side of it.", "quantifier": "all edges of non-zero length, all stations off the edge and outside the epsilon tube around its line", "why_tests_cant": "an integral identity over a continuum; collinear branches are reached only on a null set", "anchors": ["geec/polyhedron.py:Edge._get_ccw_line_integrals", "geec/polyhedron.py:Edge._line_integral_along_edge"]}
{"id": "C14", "title": "Twin edges: reusing the negated value is sound", "statement": "The value an edge gets from its twin (the negated value) equals the value it would have computed itself, so the result does not depend on the order in which faces are visited.", "quantifier": "all edges, all stations off the edge and outside the epsilon tubes", "why_tests_cant": "equality of two different formulas over a continuum", "anchors": ["geec/polyhedron.py:Edge._set_twin_pqr", "geec/polyhedron.py:Edge._get_ccw_line_integrals"]}
{"id": "C15", "title": "Face solid angle is the true solid angle", "statement": "For a triangular face the computed omega equals minus the signed solid angle of the face seen from the station, i.e. minus the integral over the face of (n.r)/r^3.", "quantifier": "all non-degenerate triangles, all stations farther than epsilon from the plane of the face", "why_tests_cant": "Girard-type identity over a continuum of spherical triangles", "anchors": ["geec/polyhedron.py:Face._get_omega", "geec/polyhedron.py:Face._get_angle", "geec/polyhedron.py:Face._get_A1A2", "geec/polyhedron.py:Face._get_perp"]}
{"id": "C16", "title": "Gravity obeys Newton's law", "statement": "For a convex body the vector G returned by get_gravity equals 1e5*Gc*density times the volume integral over the body of (x-s)/|x-s|^3, in mGal, for stations s outside, inside or on the surface of the body (not at a vertex, not within epsilon of a degenerate configuration).", "quantifier": "all convex polyhedra, all stations, densities, constants", "why_tests_cant": "equality with a volume integral for a continuum of inputs", "anchors": ["geec/polyhedron.py:Polyhedron.get_gravity", "geec/polyhedron.py:Face.get_gravity", "geec/station.py:Station.compute_gravity"]}
{"id": "C17", "title": "Attraction points to the body", "statement": "For positive density and constant, if a plane separates the station from the body then G has a strictly positive component towards the body.", "quantifier": "all convex bodies, stations, separating planes", "why_tests_cant": "quantifies over all reals", "anchors": ["geec/polyhedron.py:Face.get_gravity", "geec/polyhedron.py:Polyhedron.get_gravity"]}
{"id": "C18", "title": "Splitting a body does not change the total gravity", "statement": "If two bodies tile a third one (same density), the total G of the two computed by compute_gravity equals the G of the whole.", "quantifier": "all bodies, all tilings in two, all stations", "why_tests_cant": "quantifies over all decompositions", "anchors": ["geec/station.py:Station.compute_gravity", "geec/polyhedron.py:Polyhedron.get_gravity"]}
{"id": "C19", "title": "The tensor is the gradient of gravity", "statement": "At stations outside the body's degenerate sets, T[i][j] returned with gradient=True equals 1e4 times the partial derivative of G[i] with respect to station coordinate j (mGal/m to Eotvos).", "quantifier": "all convex polyhedra, all stations", "why_tests_cant": "derivative identity at a continuum of points", "anchors": ["geec/polyhedron.py:Face.get_gravity", "geec/polyhedron.py:Face._get_dangle", "geec/polyhedron.py:Edge._line_integral_along_edge"]}
{"id": "C20", "title": "Laplace's equation outside the body", "statement": "For a station outside the body the trace of T is zero.", "quantifier": "all convex polyhedra, all exterior stations", "why_tests_cant": "the repo tests one station of one cube", "anchors": ["geec/polyhedron.py:Face.get_gravity", "geec/polyhedron.py:Polyhedron.get_gravity", "tests/test_station.py"]}
{"id": "C21", "title": "Station on a vertex raises ZeroDivisionError", "statement": "If the station coincides with a vertex of the body get_gravity raises ZeroDivisionError instead of returning a number.", "quantifier": "all polyhedra, all vertices", "why_tests_cant": "quantifies over all bodies and face orders", "anchors": ["geec/polyhedron.py:Edge._line_integral_along_edge"]}
{"id": "C22", "title": "Gravity never raises away from the vertices", "statement": "In exact arithmetic get_gravity(gradient=False) returns a value for every station that is not a vertex of the body, including stations on edges, faces, face planes and edge lines.", "quantifier": "all polyhedra, all stations", "why_tests_cant": "degenerate positions have measure zero", "anchors": ["geec/polyhedron.py:Polyhedron.get_gravity", "geec/polyhedron.py:Face._get_angle"]}
{"id": "C23", "title": "Faces carry outward unit normals", "statement": "Every face of a constructed Polyhedron has a unit normal, orthogonal to the face, such that the whole body lies on the non-positive side, whatever vertex order the hull library returned.", "quantifier": "all point sets with a full-dimensional hull, all vertex orders of the simplices", "why_tests_cant": "depends on the order chosen by qhull", "anchors": ["geec/polyhedron.py:Polyhedron._get_faces"]}
{"id": "C24", "title": "Face vertices are counter-clockwise seen from outside", "statement": "The three vertices of every constructed face are in counter-clockwise order with respect to its outward normal, are the same three indices as in the hull simplex, and the face's edges form the closed cycle over them.", "quantifier": "all full-dimensional hulls, all simplex orders", "why_tests_cant": "depends on the order chosen by qhull", "anchors": ["geec/polyhedron.py:Polyhedron._get_faces", "geec/polyhedron.py:Face._get_edges"]}
{"id": "C25", "title": "Every edge has exactly one reversed twin", "statement": "After construction every edge has a twin; the twin belongs to the adjacent face, has start and end exchanged, and its twin is the original edge; hence the error \"'twin' undefined\" cannot occur.", "quantifier": "all full-dimensional triangulated hulls", "why_tests_cant": "combinatorial claim for every hull and every visiting order", "anchors": ["geec/polyhedron.py:Polyhedron._get_edge_twin", "geec/polyhedron.py:Face._get_twinface", "geec/polyhedron.py:Edge.set_twin", "geec/polyhedron.py:Edge._set_twin_pqr"]}
{"id": "C26", "title": "Interior-point search is never entered for a solid body", "statement": "For a full-dimensional hull the construction never enters the random search for an interior point; if it were entered, it would raise NameError rather than search.", "quantifier": "all point sets", "why_tests_cant": "requires reasoning about a branch that no test reaches", "anchors": ["geec/polyhedron.py:Polyhedron._get_faces", "geec/polyhedron.py:Polyhedron._in_hull"]}
{"id": "C27", "title": "Longitude wrapping", "statement": "wrap180 changes only the longitude column, maps x to a value congruent to x modulo 360, returns a value in (-180,180] exactly for inputs in (-180,540], is the identity on values <= 180 and is idempotent on that range.", "quantifier": "all arrays of points", "why_tests_cant": "all reals and array lengths; inputs above 540 or below -180 are not normalised", "anchors": ["geec/crs.py:wrap180", "geec/dataset.py:Dataset.to_lon180"]}
{"id": "C28", "title": "to_lon180 leaves metric coordinates alone", "statement": "to_lon180 only alters longitudes: datasets in metric coordinate systems (Cartesian, ECEF, local ENU) are unchanged.", "quantifier": "all datasets", "why_tests_cant": "the offending inputs are ENU bodies extending more than 180 m to the east", "anchors": ["geec/dataset.py:Dataset.to_lon180", "geec/crs.py:wrap180"]}
{"id": "C29", "title": "Height conversion applies the geoid exactly once", "statement": "For geographic datasets to_ellipsoid_height adds to each altitude the geoid undulation at that longitude/latitude, leaves longitude and latitude alone, marks the vertical datum as ellipsoid, and is idempotent.", "quantifier": "all datasets, vertical datums, geoid models", "why_tests_cant": "all arrays and repeated applications", "anchors": ["geec/crs.py:ellipsoid_height", "geec/dataset.py:Dataset.to_ellipsoid_height"]}
{"id": "C30", "title": "Height conversion of local ENU data is position independent", "statement": "For a local ENU dataset the height correction must not interpret east/north offsets in metres as longitude/latitude in degrees.", "quantifier": "all ENU datasets with a geoid vertical datum", "why_tests_cant": "quantifies over all offsets", "anchors": ["geec/dataset.py:Dataset.to_ellipsoid_height", "geec/crs.py:ellipsoid_height"]}
{"id": "C31", "title": "to_ecef", "statement": "After to_ecef a non-Cartesian dataset is labelled ECEF with no ellipsoid and no origin, its points are the geocentric positions of the original points, the number and order of points is kept, and the operation is idempotent; Cartesian data are untouched.", "quantifier": "all datasets", "why_tests_cant": "all datasets and repeated applications", "anchors": ["geec/dataset.py:Dataset.to_ecef", "geec/crs.py:ellps_to_ecef", "geec/crs.py:enu_to_ecef"]}
{"id": "C32", "title": "to_wgs84", "statement": "After to_wgs84 a non-Cartesian dataset is labelled geographic on WGS84 with no local origin, geocentric positions are preserved, and a second call changes nothing.", "quantifier": "all datasets", "why_tests_cant": "all datasets and repeated applications", "anchors": ["geec/dataset.py:Dataset.to_wgs84", "geec/crs.py:ecef_to_wgs84", "geec/crs.py:ellps_to_wgs84", "geec/crs.py:enu_to_wgs84"]}
{"id": "C33", "title": "to_enu expresses points about the requested origin", "statement": "After to_enu(lon0,lat0,alt0) a non-Cartesian dataset is expressed in the local frame with that origin.", "quantifier": "all datasets and origins", "why_tests_cant": "all datasets and origins, including data already local to another origin", "anchors": ["geec/dataset.py:Dataset.to_enu", "geec/crs.py:wgs84_to_enu", "geec/crs.py:ecef_to_enu"]}
{"id": "C34", "title": "CRS consistency is an invariant", "statement": "Every sequence of dataset transformations keeps the consistency that CRS construction enforces: a local ENU system refers to the same ellipsoid as its CRS.", "quantifier": "all initial datasets, all finite sequences of transformations", "why_tests_cant": "unbounded sequences of operations", "anchors": ["geec/crs.py:CRS.__post_init__", "geec/crs.py:ecef_to_enu", "geec/crs.py:wgs84_to_enu"]}
{"id": "C35", "title": "Transformations preserve physical position", "statement": "Any finite sequence of to_ecef, to_wgs84, to_enu calls on a non-Cartesian dataset preserves the geocentric position of each point, given that the geodesy library's conversions are mutually inverse.", "quantifier": "all initial datasets, all finite sequences of operations", "why_tests_cant": "unbounded sequences of operations", "anchors": ["geec/dataset.py:Dataset", "geec/crs.py"]}
{"id": "C36", "title": "Bodies and stations share a coordinate frame in `geec run`", "statement": "When `geec run` evaluates gravity, the body vertices and the station coordinates are expressed in the same Cartesian frame.", "quantifier": "all configurations", "why_tests_cant": "all combinations of reference systems", "anchors": ["geec/cli.py:run", "geec/observer.py:Observer.to_wgs84", "geec/mass.py:to_ecef"]}
{"id": "C37", "title": "Each body contributes with its own density", "statement": "In `geec run`, each mass body contributes with the density and gravity constant configured for it.", "quantifier": "all configurations with any number of bodies", "why_tests_cant": "unbounded number of bodies", "anchors": ["geec/cli.py:run", "geec/mass.py:get_masses"]}
{"id": "C38", "title": "The output table is complete and correctly labelled", "statement": "The table written by `geec run` has one row per observation point, in input order; each row holds the station coordinates, Gx,Gy,Gz and txx,txy,txz,tyy,tyz,tzz under the matching label, equal to what a new Station computes for that point, independently of the other rows.", "quantifier": "all configurations, any number of observation points", "why_tests_cant": "unbounded tables; rows share mutable bodies", "anchors": ["geec/cli.py:run", "geec/station.py:Station"]}
{"id": "C39", "title": "Coordinate labels match the coordinate system", "statement": "The observer coordinate labels are x/y/z in metres exactly when the coordinates in the table are Cartesian, and lon/lat/alt otherwise, also after to_wgs84.", "quantifier": "all observers", "why_tests_cant": "all reference systems and conversions", "anchors": ["geec/observer.py:Observer", "geec/cli.py:run"]}
{"id": "C40", "title": "Source of coordinates", "statement": "Coordinates come from `points` if it is non-empty, else from `file_path` if set (FileNotFoundError if the file does not exist), else from `grid` if set, else TypeError.", "quantifier": "all configurations", "why_tests_cant": "all combinations", "anchors": ["geec/dataset.py:_read_coords"]}
{"id": "C41", "title": "Grid enumeration", "statement": "A grid (start,end,step per axis, positive steps) enumerates exactly the points start+k*step < end on each axis, each once, x slowest and z fastest; the number of points is the product of the axis counts.", "quantifier": "all starts, ends, positive steps", "why_tests_cant": "all rationals and unbounded sizes", "anchors": ["geec/dataset.py:_read_coords"]}
{"id": "C42", "title": "Configuration precedence", "statement": "Each parameter is taken from the argument file if present there, else from the user file, else from the defaults; lower-priority files never override, and a file not mentioning a parameter has no effect on it.", "quantifier": "all configuration sources and parameter paths", "why_tests_cant": "unbounded trees and sources", "anchors": ["geec/config.py:setup", "geec/config.py:_default_setup", "docs/usage.md"]}
{"id": "C43", "title": "Documented vertical datums and reference systems are accepted", "statement": "Every vertical datum documented in the configuration template (ellps, egm84, egm96, egm2008) and every reference system name (cart, ellps, enu, ecef) is accepted, in any letter case, everything else is rejected, and missing or null means ellps.", "quantifier": "all strings", "why_tests_cant": "all strings and letter cases", "anchors": ["geec/crs.py:read_vdatum", "geec/crs.py:read_ref", "geec/cfg/config_template.yaml"]}
{"id": "C44", "title": "Choice of the ellipsoid", "statement": "A named ellipsoid takes precedence over axes; both axes given (non-zero) define a custom ellipsoid; otherwise WGS84 is used; unknown names are rejected when read from a configuration.", "quantifier": "all parameter combinations", "why_tests_cant": "all combinations", "anchors": ["geec/crs.py:Ellipsoid.__init__", "geec/crs.py:read_ellipsoid_parameters"]}
{"id": "C45", "title": "Distinct outputs go to distinct files", "statement": "Two runs with different output arguments in the same directory do not overwrite each other's result.", "quantifier": "all output paths", "why_tests_cant": "all strings", "anchors": ["geec/api.py:write_file", "geec/cli.py:config"]}
{"id": "C46", "title": "Cross product", "statement": "cross_product of two 3-vectors is the vector product (antisymmetric, orthogonal to both, Lagrange identity); on a 2-D first or second argument it maps over rows; any other shape raises TypeError.", "quantifier": "all arrays of rank one or two", "why_tests_cant": "all reals and shapes", "anchors": ["geec/utils.py:cross_product"]}
{"id": "C47", "title": "Empty inputs are rejected", "statement": "`geec run` with no mass bodies raises IndexError and with no observation points raises ValueError; no output file is written in either case.", "quantifier": "all configurations", "why_tests_cant": "all configurations", "anchors": ["geec/cli.py:run"]}
{"id": "C48", "title": "Gravity queries do not modify geometry", "statement": "get_gravity and compute_gravity never modify the points, faces, normals or edges of the bodies nor the coordinates of the station, also when they raise.", "quantifier": "all histories", "why_tests_cant": "all histories including raising ones", "anchors": ["geec/polyhedron.py:Polyhedron.get_gravity", "geec/station.py:Station.compute_gravity"]}
{"id": "C49", "title": "Poisson's equation inside the body", "statement": "For a station strictly inside the body the trace of T is -4*pi*Gc*density*1e9.", "quantifier": "all convex polyhedra and interior stations", "why_tests_cant": "a continuum of stations", "anchors": ["geec/polyhedron.py:Face.get_gravity"]}
{"id": "C50", "title": "Zero field at the centre of symmetry", "statement": "At the centre of a centrally symmetric body G is zero.", "quantifier": "all centrally symmetric bodies", "why_tests_cant": "a continuum of bodies", "anchors": ["geec/polyhedron.py:Polyhedron.get_gravity"]}
{"id": "C51", "title": "Field magnitude bound", "statement": "|G| <= 1e5*Gc*density*Volume/d^2 for a station at distance d > 0 from the body.", "quantifier": "all convex bodies and exterior stations", "why_tests_cant": "a continuum of inputs", "anchors": ["geec/polyhedron.py:Polyhedron.get_gravity"]}
{"id": "C52", "title": "Integer coordinates behave like float coordinates", "statement": "to_ellipsoid_height on a dataset whose coordinates are an integer array has the same outcome as on the same coordinates as floats.", "quantifier": "all datasets, vertical datums, geoid models", "why_tests_cant": "Tests use float arrays; the failure depends on the dtype inferred from the configuration file (e.g. points written without decimals) combined with the datum.", "anchors": ["geec/crs.py:ellipsoid_height", "geec/dataset.py:Dataset.to_ellipsoid_height"]}
{"id": "C53", "title": "Observation heights are ellipsoidal", "statement": "In `geec run` the altitudes of the observation points used in the computation and written to the table are ellipsoidal heights, whatever vertical datum is configured for the observers.", "quantifier": "all configurations", "why_tests_cant": "A missing transformation shows only as a shift of a few tens of metres for particular datums; it must be excluded for all configurations.", "anchors": ["geec/cli.py:run", "geec/observer.py:Observer.to_wgs84"]}
{"id": "C54", "title": "Optional parameters may be left out", "statement": "A parameter that the readers treat as optional (vdatum) may be absent from a mass body in all configuration sources without preventing `geec run` from running.", "quantifier": "all configurations", "why_tests_cant": "The default configuration completes the first body only, so tests with one body never see an absent key.", "anchors": ["geec/config.py:show", "geec/crs.py:read_vdatum"]}
{"id": "C55", "title": "A failing run writes nothing", "statement": "If the function `run` raises, no file is created or changed; if it returns, the only file changed is the CSV file named after the output argument, and it holds the computed table. (The log file that the program opens before `run` is called is the subject of C83.)", "quantifier": "all configurations and output paths", "why_tests_cant": "Requires every failure point of the run, for all inputs.", "anchors": ["geec/cli.py:run", "geec/api.py:write_file"]}
{"id": "C56", "title": "The field depends only on the body", "statement": "Two point sets with the same convex hull (points reordered, interior or coplanar points added, flat faces cut into other triangles) give the same G at every regular station.", "quantifier": "all pairs of point sets with the same convex hull, all regular stations", "why_tests_cant": "all triangulations of all bodies", "anchors": ["geec/polyhedron.py"]}
{"id": "C57", "title": "Congruent bodies", "statement": "Applying an isometry (rotation, translation, reflection) to the points and the station applies its linear part to G, even if the hull library returns other triangles or another orientation for the moved points.", "quantifier": "all point sets, isometries, regular stations", "why_tests_cant": "a continuum of isometries and bodies", "anchors": ["geec/polyhedron.py"]}
{"id": "C58", "title": "The tensor depends only on the body", "statement": "Two point sets with the same convex hull give the same gravity-gradient tensor at every station off the surface and clear of the edges of both, however the hull library orders the points or cuts flat faces into triangles.", "quantifier": "all pairs of point sets with the same convex hull, all such stations", "why_tests_cant": "all triangulations of all bodies", "anchors": ["geec/polyhedron.py:Polyhedron.get_gravity", "geec/polyhedron.py:Face.get_gravity"]}
{"id": "C59", "title": "Scale invariance of the tensor", "statement": "Scaling the points and the station by a positive factor leaves the gravity-gradient tensor unchanged.", "quantifier": "all point sets, positive factors, stations off the surface and clear of the edges", "why_tests_cant": "a continuum of factors and bodies", "anchors": ["geec/polyhedron.py:Polyhedron.get_gravity", "geec/polyhedron.py:Face.get_gravity"]}
{"id": "C60", "title": "The tensor transforms as a tensor", "statement": "Applying an isometry with linear part R (rotation, translation, reflection) to the points and the station changes the gravity-gradient tensor T to R T R^t, whatever triangles the hull library returns for the moved points.", "quantifier": "all point sets, isometries, stations off the surface and clear of the edges", "why_tests_cant": "a continuum of isometries and bodies", "anchors": ["geec/polyhedron.py:Polyhedron.get_gravity", "geec/polyhedron.py:Face.get_gravity"]}
{"id": "C61", "title": "Tensors of tiles add up", "statement": "If convex bodies tile a convex body, Station.compute_gravity with gradient on the list adds to the station tensor exactly the tensor of the whole body.", "quantifier": "all tilings, stations off the surfaces and clear of the edges, densities", "why_tests_cant": "all tilings of all bodies", "anchors": ["geec/polyhedron.py:Polyhedron.get_gravity", "geec/polyhedron.py:Face.get_gravity", "geec/station.py:Station.compute_gravity"]}
{"id": "C62", "title": "The tensor outside the body is the tidal integral", "statement": "At a station outside the body, the returned tensor is 1e9 * Gc * density times the volume integral of (3 r_i r_j - delta_ij r^2) / r^5 over the body.", "quantifier": "all point sets, stations outside the body clear of the edges, densities", "why_tests_cant": "an identity between closed formulas and volume integrals for all bodies", "anchors": ["geec/polyhedron.py:Polyhedron.get_gravity", "geec/polyhedron.py:Face.get_gravity"]}
{"id": "C63", "title": "Decay of the tensor", "statement": "If every point of the body is at distance at least D from the station, then |e.T d| <= 2e9 * Gc * density * volume / D^3 for all unit vectors d, e.", "quantifier": "all point sets, stations clear of the edges, densities", "why_tests_cant": "an inequality over a continuum of bodies and stations", "anchors": ["geec/polyhedron.py:Polyhedron.get_gravity", "geec/polyhedron.py:Face.get_gravity"]}
{"id": "C64", "title": "The tensor is the gradient at every station away from the body and off the edge lines", "statement": "At a station at least one length unit away from the body, on no line of an edge, and in the plane of each face or farther than eps from it, get_gravity(gradient=True) returns the gradient of the attraction of the body. This fails: within a tube of radius about sqrt(2*eps*r) around the prolongation of an edge beyond its second end the code turns the edge but not the sign of its integral (np.dot(R1,R2)/(r1*r2)==1 is exact while abs(r1+b2)<epsilon is not), and the tensor is wrong by an amount of order Gc*rho. It holds outside these tubes.", "quantifier": "all convex bodies, all such stations, densities and gravitational constants", "why_tests_cant": "the tube has a radius of about 1e-8 body sizes; random stations never fall in it, stations computed as prolongations of edges do", "anchors": ["geec/polyhedron.py:Edge._get_ccw_line_integrals", "geec/polyhedron.py:Edge._line_integral_along_edge", "geec/polyhedron.py:Polyhedron.get_gravity"]}
{"id": "C65", "title": "`geec config` copies the template and nothing else", "statement": "`geec config` writes a copy of the package's config_template.yaml to the output path with the extension of its name replaced by .yaml (./config_template.yaml without option), overwriting a file of that name; nothing else changes. A missing output directory is not created: FileNotFoundError. If the command raises, no file has changed.", "quantifier": "all file systems, output paths, working directories, outcomes of the configuration set-up", "why_tests_cant": "statement about all file systems and paths, including names with several dots and failing runs", "anchors": ["geec/cli.py:config"]}
{"id": "C66", "title": "The template is a self-contained configuration", "statement": "With the unedited template as --config file every parameter shown is present, one mass body (the cube, 1000 kg/m3, geographic WGS84) and 484 observation points are read, independently of the user's file and of the defaults. This fails for one parameter: the template has no vdatum for the observers, so a user's file that sets it takes effect; it holds if the other files do not set it.", "quantifier": "all user files, all default files, all geodesy libraries that know WGS84", "why_tests_cant": "quantifies over all contents of the other configuration files", "anchors": ["geec/cfg/config_template.yaml", "geec/config.py:setup", "geec/config.py:show", "geec/mass.py:get_masses", "geec/observer.py:get_observer"]}
{"id": "C67", "title": "Left-out parameters get their documented default", "statement": "A vdatum or an ellipsoid that the configuration file leaves out gets the default documented in the shipped files (ellps, wgs84). This fails: below the user's file lies config_default.yaml, which sets vdatum egm96 for the first mass body and the ellipsoid airy for the observers. It holds for parameters set to null, for bodies other than the first and for the vdatum of observers.", "quantifier": "all configuration files over the shipped defaults", "why_tests_cant": "quantifies over all configuration files", "anchors": ["geec/cfg/config_default.yaml", "geec/crs.py:read_vdatum", "geec/crs.py:read_ellipsoid_parameters", "geec/config.py:setup"]}
{"id": "C68", "title": "The order of the mass bodies in the file is irrelevant to what is read", "statement": "Reordering the entries of masses in the configuration file reorders the bodies that get_masses returns. This fails: confuse overlays the first entry with the first entry of the defaults, so a body that leaves out parameters is accepted as first body only. It holds for entries that have all their parameters, which are read independently of position and other files, and exactly for those lists of which each entry gives the same body at every place.", "quantifier": "all configuration files, permutations, user files and defaults", "why_tests_cant": "quantifies over all files and permutations", "anchors": ["geec/mass.py:get_masses", "geec/config.py:setup", "geec/cfg/config_default.yaml"]}
{"id": "C69", "title": "geec run tabulates Newton's field of the configured bodies", "statement": "For bodies of equal density and gravity constant, the line of each observation point in the table of a returning geec run holds its coordinates and, under Gx, Gy, Gz, 1e5 G rho times the sum over the bodies of the Newton integral over the solid spanned by the body's points; with --gradient and at points outside the bodies txx..tzz are 1e9 G rho times the sums of the tidal integrals. A complete Cartesian configuration with no observation point at a corner of a body does return.", "quantifier": "all configurations, hull libraries that return triangulated hulls, regular observation points; exact arithmetic", "why_tests_cant": "quantifies over all bodies and stations and compares with an integral", "anchors": ["geec/cli.py:run", "geec/station.py:Station.compute_gravity", "geec/polyhedron.py:Polyhedron.get_gravity"]}
{"id": "C70", "title": "Polyhedron.reset repairs an object", "statement": "After any sequence of calls of get_gravity and reset on a polyhedron, of get_gravity and reset on its faces and of reset on its edges, whether they returned or raised, one call of Polyhedron.reset restores the object: every later get_gravity gives what it gives on a newly built polyhedron.", "quantifier": "all polyhedra built by the constructor, all call sequences, all arguments, any arithmetic", "why_tests_cant": "quantifies over all histories, including ones that raise midway", "anchors": ["geec/polyhedron.py:Polyhedron.reset", "geec/polyhedron.py:Face.reset", "geec/polyhedron.py:Edge.reset", "geec/polyhedron.py:Face.get_gravity"]}
{"id": "C71", "title": "Asking one face for its gravity does not disturb the polyhedron", "statement": "Face.get_gravity on a face of a polyhedron does not change what later Polyhedron.get_gravity calls return. This fails: the caches of the face and its edges are left behind, and after one Face.get_gravity without gradient on the first face every query of the polyhedron with gradient raises. It holds when Polyhedron.reset is called in between.", "quantifier": "all polyhedra, stations and arguments", "why_tests_cant": "quantifies over all bodies and stations", "anchors": ["geec/polyhedron.py:Face.get_gravity", "geec/polyhedron.py:Polyhedron.get_gravity"]}
{"id": "C72", "title": "The field is Newton's up to an explicit small error, even where the special cases of the code misfire", "statement": "At every station farther than eps from the corners of the body and not exactly on a surface where the code switches formulas, the G that get_gravity returns differs from 1e5 G rho times the Newton integral by at most 1e5 G rho times the number of faces times 2 pi eps + 3 sqrt(2 eps D) (log(2 D / eps) + 2), D bounding corner distance plus edge length; for D up to 1000 km this is below 4 mm of the layer constant per face. This includes the tubes around prolongations of edges where edge integrals get the wrong sign, and the slabs around face planes where the solid angle is dropped.", "quantifier": "all convex bodies, all stations as described, all densities; exact arithmetic", "why_tests_cant": "the error is compared with an integral for a continuum of stations", "anchors": ["geec/polyhedron.py:Polyhedron.get_gravity", "geec/polyhedron.py:Edge._get_ccw_line_integrals", "geec/polyhedron.py:Face._get_omega"]}
{"id": "C73", "title": "Far from the body the field is that of a point mass", "statement": "If the body lies within distance D of a point c and the station is at a distance d > D from c, then the returned G differs from 1e5 G M (c - s) / d^3, M the mass of the body, by at most 1e5 G M 4 D / (d - D)^3.", "quantifier": "all convex bodies, points c, regular stations; exact arithmetic", "why_tests_cant": "quantifies over all bodies and stations", "anchors": ["geec/polyhedron.py:Polyhedron.get_gravity"]}
{"id": "C74", "title": "With accurate enough arithmetic the field and the tensor come out to any accuracy", "statement": "For every convex body, every regular station that is not on the line of an edge (nor within the eps tests of the code around it), every density and every tolerance there is an accuracy u such that any arithmetic whose operations and comparisons are accurate to u (on numbers of size up to 1/u, any rounding rule) constructs the Polyhedron without an exception, with the same faces, edges and twins as exact arithmetic, and get_gravity returns a G within the tolerance of 1e5 G rho times the Newton integral and, off the surface, a T within the tolerance of its matrix of derivatives. No branch of the code is decided by rounding errors there.", "quantifier": "all convex bodies, all stations as described, all densities, all tolerances, all sufficiently accurate arithmetics", "why_tests_cant": "quantifies over all arithmetics; tests run in one arithmetic at finitely many stations", "anchors": ["geec/polyhedron.py:Polyhedron.__init__", "geec/polyhedron.py:Polyhedron.get_gravity", "geec/polyhedron.py:Face._get_omega", "geec/polyhedron.py:Edge._get_ccw_line_integrals"]}
{"id": "C75", "title": "The tensor is stable against rounding wherever the exact tensor is right", "statement": "Wherever exact arithmetic gives the right tensor (regular stations off the surface, each edge aside or on its line but clear of its ends), get_gravity(gradient=True) with accurate enough arithmetic returns a tensor within any tolerance of it. This is false: on the line of an edge Edge._get_ccw_line_integrals chooses the formula by the exact comparison np.dot(R1, R2)/(r1*r2) == 1, which a rounding error of any size turns the other way, and the fall-back formula has the wrong sign there. For the tetrahedron with corners (0,0,0), (1,0,0), (0,1,0), (0,0,1) and the station (2,-1,0), txx comes out too small by at least 1e9 Gc rho / 48 with arithmetics of any accuracy. It holds at stations aside the lines of all edges.", "quantifier": "all convex bodies, all stations where the exact tensor is right, all densities, all tolerances, all sufficiently accurate arithmetics", "why_tests_cant": "stations on the line of an edge are an exceptional set, and whether the comparison fails depends on the rounding of two square roots; no test can quantify over the accuracy of the arithmetic", "anchors": ["geec/polyhedron.py:Edge._get_ccw_line_integrals", "geec/polyhedron.py:Polyhedron.get_gravity"]}
{"id": "C76", "title": "The result in exact arithmetic is the limit of the results in floating point", "statement": "For every convex body and every station where no strict comparison of the code is a tie (the station is farther than eps from the corners, not at the distance eps exactly from a face plane, and not on one of the surfaces |a-s| + (a-s).u = eps of the edges; it may be inside, on the surface, in a face plane or on the line of an edge): whatever G get_gravity returns in exact arithmetic, arithmetics that are accurate enough construct the polyhedron, raise no exception and return a G within any tolerance of it. On the line of an edge rounding may choose either branch of Edge._get_ccw_line_integrals, but the field does not depend on the choice. If the station is on the line of no edge, the same holds for T. With C72, the G of accurate arithmetic is within a stated bound of the Newton integral also in the thin tubes around the lines of the edges where the code is wrong.", "quantifier": "all convex bodies, all stations as described, all densities and constants, all tolerances, all sufficiently accurate arithmetics", "why_tests_cant": "quantifies over all arithmetics and a continuum of stations; at the stations on the lines of edges the branch taken depends on the arithmetic", "anchors": ["geec/polyhedron.py:Polyhedron.get_gravity", "geec/polyhedron.py:Edge._get_ccw_line_integrals", "geec/polyhedron.py:Face._get_omega", "geec/polyhedron.py:Polyhedron.__init__"]}
{"id": "C77", "title": "Transforming one dataset does not affect another", "statement": "A method call (to_lon180, to_ellipsoid_height, to_ecef, to_wgs84, to_enu) on one Dataset leaves the values of every other Dataset unchanged. This is false in general: wrap180 and ellipsoid_height assign into the array they are given, which may be shared with another dataset or with the caller, and every conversion assigns to the attributes of the CRS object, which may be shared. With a shared CRS object the second dataset is declared ECEF while it still holds longitudes and latitudes, and its own to_ecef does nothing any more; with a shared array the geoid height is added twice; the array that the caller passed to Dataset(coords=...) is overwritten by to_lon180. It holds for datasets that share neither array nor CRS object: after any program of method calls on any datasets, exceptions caught, each dataset is what its own calls make of it.", "quantifier": "all worlds of datasets with any sharing, all programs of method calls on them, all geodesy libraries", "why_tests_cant": "quantifies over all sharing patterns and all interleavings of calls of any length", "anchors": ["geec/dataset.py:Dataset.to_lon180", "geec/dataset.py:Dataset.to_ecef", "geec/crs.py:wrap180", "geec/crs.py:ellipsoid_height", "geec/crs.py:ellps_to_ecef"]}
{"id": "C78", "title": "A transformation that raises changes nothing", "statement": "If to_lon180, to_ellipsoid_height, to_ecef, to_wgs84 or to_enu raises, then every dataset -- the one it was called on and any other, sharing arrays or CRS objects with it or not -- holds the values that it held before, provided that the geodesy library converts every geocentric position to geographic coordinates. The proviso is needed: to_wgs84 goes by way of ECEF, and if its second half raises the dataset is left declared as ECEF with the old coordinates.", "quantifier": "all worlds of datasets, all transformations, all geodesy libraries whose ecef2geodetic is total, all exceptions", "why_tests_cant": "quantifies over every point of failure in every transformation and every sharing pattern", "anchors": ["geec/dataset.py:Dataset.to_wgs84", "geec/crs.py:ellps_to_wgs84", "geec/crs.py:enu_to_wgs84", "geec/crs.py:ellipsoid_height"]}
{"id": "C79", "title": "The functions of mass.py convert each mass once", "statement": "For a list of different masses whose datasets share nothing, mass.to_lon180, to_ellipsoid_height, to_ecef, to_wgs84 and to_enu, if they return, have converted the dataset of each mass of the list exactly once and touched no other dataset; if one raises, the masses before the failing one have been converted, those after it have not, and the exception is the one of the failing mass. What `geec run` gets from these functions is therefore the list of converted masses. In any program of calls of the methods of Mass objects, a call has the outcome of the method of the dataset, no call changes the density, the gravity constant or the dataset of a mass, and the dataset of each mass ends as what its own calls make of it in their order.", "quantifier": "all lists of masses of any length, all transformations, all geodesy libraries, all failing positions", "why_tests_cant": "quantifies over lists of any length and over where the loop is interrupted", "anchors": ["geec/mass.py:to_lon180", "geec/mass.py:to_ellipsoid_height", "geec/mass.py:to_ecef", "geec/mass.py:to_wgs84", "geec/mass.py:to_enu", "geec/mass.py:Mass.to_ecef"]}
{"id": "C80", "title": "The column labels of an observer describe its coordinates", "statement": "The coords_name and coords_unit of an Observer are set once, when it is constructed. After any sequence of method calls, exceptions caught, they are those that a new Observer on the same dataset would get. That they describe the coordinates (degrees if and only if the dataset is in geographic coordinates) is false: geocentric and local coordinates in metres are labelled in degrees, e.g. after to_ecef. It holds after a to_wgs84 that returned, whatever went before: then a dataset labelled in degrees is in geographic coordinates on WGS84.", "quantifier": "all datasets, all sequences of method calls of any length, all geodesy libraries with reflexive equality of ellipsoids", "why_tests_cant": "quantifies over all sequences of calls, including ones that raise in between", "anchors": ["geec/observer.py:Observer.__post_init__", "geec/observer.py:Observer.to_ecef", "geec/observer.py:Observer.to_wgs84", "geec/observer.py:Observer.to_enu"]}
{"id": "C81", "title": "The point-in-hull test decides membership of the convex hull", "statement": "The linear program that _in_hull hands to the solver can be solved if and only if the point is in the convex hull of the given points, whatever the points (repeated, on a line, in a plane). Hence, with a solver that is right about feasibility, the centroid of the hull vertices is found inside, and the construction of a Polyhedron never enters the search loop for another inner point (which would raise NameError), whatever simplices and neighbours the hull library returns.", "quantifier": "all lists of points, all query points, all results of the hull library with at least one vertex and vertex indices in range", "why_tests_cant": "an equivalence over all finite point sets in space, including degenerate ones", "anchors": ["geec/polyhedron.py:Polyhedron._in_hull", "geec/polyhedron.py:Polyhedron._get_faces"]}
{"id": "C82", "title": "A plot draws every edge of the surface twice, in opposite directions", "statement": "For a Polyhedron built from a proper convex hull, plot draws exactly three segments per face; for every edge drawn there is exactly one edge of another face that joins the same two vertices in the opposite order, and it is drawn as the reversed segment. The number of faces is even.", "quantifier": "all convex hulls of any number of points", "why_tests_cant": "quantifies over all polyhedra; the parity follows from a fixed-point-free involution on the edges", "anchors": ["geec/polyhedron.py:Polyhedron.plot", "geec/polyhedron.py:Polyhedron._get_edge_twin"]}
{"id": "C83", "title": "What an invocation of the program changes on disk", "statement": "Whatever the options, the sub-command and the state of the disk, an invocation of `geec` only makes directories that were missing (the log directory beside the package and those above it, and for `run` those above the output), writes the log file of the invocation, and writes the one output file of the sub-command; every other path is unchanged. If it does not end as a command that returned, the text of every file other than the log file is unchanged. `run` creates missing directories above its output and leaves the table in the CSV file. If the directory of the installation cannot be written, every sub-command raises and changes nothing, also `config`; only `--version` works.", "quantifier": "all well-formed disks, permissions, installations, options, sub-commands, results of the computation and output paths", "why_tests_cant": "a frame condition over all paths of all disks and every point of failure", "anchors": ["geec/api.py:setup_logdir", "geec/api.py:setup_logger", "geec/api.py:write_file", "geec/cli.py:main", "geec/cli.py:_version_callback", "geec/cli.py:_logdir_callback", "geec/cli.py:run", "geec/cli.py:config"]}
{"id": "C84", "title": "The field is conservative", "statement": "At every regular station the field returned by get_gravity is the gradient of one function of the station, 1e5*Gc*density times the integral of 1/distance over the body. The work of the field along a segment of regular stations is the difference of this potential between its ends, and along every closed polygon of regular stations it is zero. Along a segment of ordinary stations (possibly within the tolerances of the code) the work is that difference up to the length of the segment times the error bound of C72.", "quantifier": "all convex hulls, densities, constants, regular stations, segments and closed polygons", "why_tests_cant": "equates the closed-form edge sums with the derivative of a volume integral, for all bodies and all paths", "anchors": ["geec/polyhedron.py:Polyhedron.get_gravity", "geec/polyhedron.py:Face.get_gravity", "geec/station.py:Station.compute_gravity"]}
{"id": "C85", "title": "The field is bounded and has no jumps", "statement": "Around every point of space (also on the surface of the body, on an edge or at a vertex), two regular stations close enough to the point are answered with fields as close as wanted. At every regular station, for every r > 0, the field is at most |1e5*Gc*density|*(24 r + volume/r^2): only the volume of the body enters, not its shape or its position.", "quantifier": "all convex hulls, densities, constants and regular stations", "why_tests_cant": "a limit at points where the formulas of the code are singular, and a bound over all shapes", "anchors": ["geec/polyhedron.py:Polyhedron.get_gravity", "geec/polyhedron.py:Face.get_gravity", "geec/station.py:Station.compute_gravity"]}
{"id": "C86", "title": "`geec run` in floating point", "statement": "For a configuration whose bodies are listed in CART or ECEF coordinates and whose observation points are listed in CART coordinates, and whose observation points make no comparison of the code a tie, the table written by `geec run` in any arithmetic whose operations are accurate enough has the columns and coordinates of the exact table, and each field component within any wanted tolerance of the exact one; the tensor components too, if no point is on the line of an edge. For bodies of one density and constant and points in regular position the field of each line is, within the tolerance, 1e5*Gc*density times the attraction of the configured solids.", "quantifier": "all configurations of plain sections, hull libraries that return hulls, tolerances, and accurate enough arithmetics", "why_tests_cant": "over all arithmetics, all configurations and every tolerance; compares the run with a volume integral", "anchors": ["geec/cli.py:run", "geec/station.py:Station.compute_gravity", "geec/polyhedron.py:Polyhedron.get_gravity"]}
{"id": "C87", "title": "Conversions with the closed WGS84 formulas", "statement": "With the closed formulas of the geodesy library (geodetic, geocentric and local ENU coordinates of an ellipsoid; the inverse conversion taken exact), every sequence of to_ecef, to_wgs84 and to_enu (latitudes of the origins between -90 and 90) on a dataset on WGS84 whose points have positions returns, and every point keeps its geocentric position. Geocentric data come back unchanged, coordinate by coordinate, from every such journey that ends with to_ecef. The laws of the library that other claims assume (C32 and following) all hold for these formulas. And longitude, latitude and altitude mean what they should: to_ecef puts a point at its altitude along the outward normal of the ellipsoid from a point of the ellipsoid, and the direction of that normal has the given latitude and longitude.", "quantifier": "all datasets, all sequences of conversions, all origins", "why_tests_cant": "unbounded sequences of conversions and every point of space, with exact equality", "anchors": ["geec/crs.py:ellps_to_ecef", "geec/crs.py:ecef_to_enu", "geec/crs.py:enu_to_ecef", "geec/dataset.py:Dataset.to_ecef", "geec/dataset.py:Dataset.to_enu", "geec/dataset.py:Dataset.to_wgs84"]}
{"id": "C88", "title": "Gravity turns with the local frame", "statement": "to_ecef on data of a local ENU frame is one rigid motion (a rotation and a shift) for all its points: the first coordinate is measured towards the east, the second towards the north, the third along the normal of the ellipsoid, so 'up' is height above it. For a body and a station in one ENU frame, both taken to ECEF, get_gravity returns at regular stations the same vector, turned from east/north/up to geocentric axes, with the same length; whatever the station, it returns the turned vector or raises the same exception if the hull library triangulates the moved points alike.", "quantifier": "all bodies, stations, ENU origins, densities and constants; hull libraries that return hulls", "why_tests_cant": "equality of two computations for every body and every origin on the ellipsoid", "anchors": ["geec/dataset.py:Dataset.to_ecef", "geec/crs.py:enu_to_ecef", "geec/polyhedron.py:Polyhedron.get_gravity", "geec/station.py:Station.compute_gravity"]}
{"id": "C89", "title": "`geec run` evaluates the field where the observation points are", "statement": "For bodies that are computed in geocentric coordinates and observation points given in geographic coordinates, the field on the line of a point is the field of the bodies at the geocentric position of the point.", "quantifier": "all configurations, hull libraries that return hulls, observation points whose two places are regular", "why_tests_cant": "over all configurations; the deviation is only seen by comparing with the attraction at the true place", "anchors": ["geec/cli.py:run", "geec/observer.py:Observer.to_wgs84", "geec/dataset.py:Dataset.to_wgs84", "geec/station.py:Station.compute_gravity"]}
{"id": "C90", "title": "Small errors of the points change the field little", "statement": "For bodies of one density and constant, the fields that get_gravity returns for two bodies at a station regular for both differ by at most |1e5*Gc*density| * (48 r + V/r^2) for every r > 0, where V is the volume that belongs to one body only. For every body and tolerance there is a distance such that every body whose points are within that distance of its points, and the other way round, has a field within the tolerance at every station regular for both, whatever the number of points and the triangulation.", "quantifier": "all pairs of bodies, stations, densities, constants, tolerances; hull libraries that return hulls", "why_tests_cant": "uniform over all stations and all perturbations, including those that change the triangulation", "anchors": ["geec/polyhedron.py:Polyhedron.__init__", "geec/polyhedron.py:Polyhedron.get_gravity"]}
{"id": "C91", "title": "Far away the body acts from its centre of mass", "statement": "If all points of the body are within D of its centre of mass, which is in the body, and the station is at a distance d > D from the centre of mass, the field returned differs from that of the mass at the centre of mass by at most 12 D^2/(d-D)^4 times 1e5*Gc*mass: one power of distance better than for any other point of the body.", "quantifier": "all bodies, stations, densities and constants; hull libraries that return hulls", "why_tests_cant": "bound for all bodies and stations against a volume integral", "anchors": ["geec/polyhedron.py:Polyhedron.get_gravity", "geec/polyhedron.py:Face.get_gravity"]}
{"id": "C92", "title": "Accessors of edges", "statement": "set_twin, _set_pqr and _set_dpqr raise TypeError exactly for arguments of another type, and then change nothing. Accepted, they change that attribute of that edge only: pqr and dpqr then return the array given, with what is written to it later, and set_twin does not set the twin's reference back. After any sequence of queries, resets and accessors, whatever raised, one Polyhedron.reset makes every query answer as a new object with the twins that the edges now have; the faces, points and edges are otherwise those of the construction.", "quantifier": "all bodies, all sequences of calls, all arguments", "why_tests_cant": "unbounded sequences of calls, with failures anywhere", "anchors": ["geec/polyhedron.py:Edge.set_twin", "geec/polyhedron.py:Edge._set_pqr", "geec/polyhedron.py:Edge._set_dpqr", "geec/polyhedron.py:Polyhedron.reset"]}
{"id": "C93", "title": "Printing objects", "statement": "Printing a polyhedron returns the empty string, changes nothing, and shows on the console the same whatever was called before on it, its faces and edges. For a body from a convex hull it shows as many faces as the hull has facets, three edges to a face, and with every edge from a to b one from b to a; each face shows the three corners of its facet, counter-clockwise about the outward unit normal that it shows, and its edges run from each corner to the next, with their vectors and lengths. A printed station shows its coordinates and the sum of the fields computed so far.", "quantifier": "all bodies, all sequences of calls before the printing, all stations", "why_tests_cant": "all bodies and unbounded sequences of calls", "anchors": ["geec/polyhedron.py:Edge.__rich_repr__", "geec/polyhedron.py:Face.__rich_repr__", "geec/polyhedron.py:Polyhedron.__rich_repr__", "geec/polyhedron.py:Polyhedron.__repr__", "geec/station.py:Station.__rich_repr__"]}
{"id": "C94", "title": "A finely meshed sphere has the field of a ball", "statement": "A polyhedron between two balls about the same centre, of radii r and R, has the field of the homogeneous ball of radius R up to an explicit error that vanishes with R - r: outside, that of a point mass at the centre; inside, proportional to the distance from the centre. Points that lie in the ball of radius R and leave no gap wider than delta on its sphere span a body between the balls of radii R - delta and R, however many they are and however the hull library connects them; so the computed G tends to the field of the ball as the mesh gets finer, at stations outside, inside and close to the surface alike.", "quantifier": "all meshes, centres, radii, densities and all regular stations", "why_tests_cant": "the limit over all meshes and the bound at every station, including those near the surface", "anchors": ["geec/polyhedron.py:Polyhedron.get_gravity", "geec/polyhedron.py:Polyhedron.__init__"]}
{"id": "C95", "title": "Overlapping bodies and cavities", "statement": "After one compute_gravity per body, each with its own density, the station holds Newton's integral over all space of the sum of the densities of the bodies containing a point, however they overlap. Hence two lists of bodies with the same sum of densities give the same total; a body with density rho and a body inside it with density -rho give the field of the rest; the field inside a hollow sphere vanishes up to the meshing error; and a body attracts at least as strongly as a part of it in every direction in which all of it lies.", "quantifier": "all lists of bodies and densities, all regular stations", "why_tests_cant": "all arrangements of bodies", "anchors": ["geec/station.py:Station.compute_gravity", "geec/polyhedron.py:Polyhedron.get_gravity"]}
{"id": "C96", "title": "Symmetric bodies have symmetric fields", "statement": "A rotation or reflection that maps the points of the body onto themselves and fixes the station fixes G, and commutes with the tensor. So at a station on an axis of symmetry G is along the axis, in a plane of symmetry it is in the plane - although the triangles returned by the hull library need not share the symmetry.", "quantifier": "all bodies, all symmetries, all regular stations", "why_tests_cant": "all bodies and symmetries; with floating point the components only nearly agree", "anchors": ["geec/polyhedron.py:Polyhedron.get_gravity", "geec/polyhedron.py:Face.get_gravity"]}
{"id": "C97", "title": "How the table of geec run follows the configuration", "statement": "The line of an observation point depends only on the point, its coordinate system and the bodies: runs that share them print the same line whatever other points are configured, in whatever order, as a list, a file or a grid. If the runs for two lists of points return, the run for both lists returns, and its lines are those of the two runs. In exact arithmetic: if two sets of bodies whose first bodies have the same density and gravity constant each give a table, all bodies together give the table whose fields are the sums, under the same coordinates and labels; multiplying density times constant of the first body by k multiplies every field by k; and the order of bodies does not matter as long as the first one has the same density and constant.", "quantifier": "all configurations, files, geodesy and hull libraries, all observation points", "why_tests_cant": "relates whole runs for every configuration; the caches of the bodies are shared by all observation points, so independence is not visible from one line", "anchors": ["geec/cli.py:run", "geec/station.py:Station.compute_gravity", "geec/mass.py:get_masses", "geec/observer.py:get_observer", "geec/dataset.py:Dataset.to_wgs84"]}
{"id": "C98", "title": "Rounding errors are at most proportional to the unit roundoff", "statement": "For every body and every station where no strict comparison is a tie there is a constant K, depending on body, station, density and constant only, such that with every number rounded with any unit roundoff d <= 1/K the polyhedron is built, nothing is raised, and G differs from its exact value by at most K d; so does the tensor, if the station is on the line of no edge. At regular stations the exact values are Newton's attraction and its derivative. The same holds for the whole table of geec run with Cartesian stations: same labels and coordinates, all fields within K d.", "quantifier": "all bodies, all decided stations, all densities and constants, all roundings with a small enough unit roundoff, all plain configurations", "why_tests_cant": "a bound for all precisions at once; tests know only double precision and no exact values to compare with", "anchors": ["geec/polyhedron.py:Polyhedron.get_gravity", "geec/polyhedron.py:Face.get_gravity", "geec/polyhedron.py:Edge.get_integral", "geec/station.py:Station.compute_gravity", "geec/cli.py:run"]}
{"id": "C99", "title": "The logged configuration is a record of the run", "statement": "Logging the configuration fails exactly as reading it for the log does and never changes it; if geec run returns with some files, then config.main completes with the same files and logs the same lines. The log is a record of the run: two runs that return and log the same configuration print the same table.", "quantifier": "all configurations, all geodesy and hull libraries, all files", "why_tests_cant": "the record property relates every pair of configurations with equal logs; a test would have to know which keys are read but not logged", "anchors": ["geec/config.py:show", "geec/config.py:main", "geec/cli.py:run"]}
{"id": "C100", "title": "The messages of the timing module tell all elapsed times", "statement": "A program that imports geec.timing logs one block of three messages at the start and one block of four for every call of midlog and at the end, each with date, label and the time since the start. The text of an elapsed time determines it to the microsecond, also beyond a day and when the clock is set back; so programs with the same log took the same times at every call.", "quantifier": "all clock readings, all labels, any number of calls", "why_tests_cant": "that no two durations have the same text is a statement about all pairs of durations, including days and negative ones", "anchors": ["geec/timing.py:_secondsToStr", "geec/timing.py:log", "geec/timing.py:midlog", "geec/timing.py:endlog"]}
{"id": "C101", "title": "Results are stable under small changes of all inputs and roundoff together", "statement": "Away from ties, the field of a body that the program returns changes by at most a constant times u when every coordinate of every point, the station, the density and the constant of gravitation are changed by at most u, and all arithmetic is accurate to u only; likewise the tensor if the station is not on the line of an edge. In particular, inputs that are rounded to floating point and processed in floating point with the unit roundoff d give results within K d of Newton's law for the exact inputs.", "quantifier": "all convex hulls with a triangulation of their boundary, all stations without ties (stations on edge lines included), all changes of inputs, all arithmetics of sufficient accuracy", "why_tests_cant": "one constant for all ways of changing all inputs and rounding all operations at once; tests sample few changes, and only with one arithmetic", "anchors": ["geec/polyhedron.py:Polyhedron.get_gravity", "geec/polyhedron.py:Polyhedron.__init__"]}
{"id": "C102", "title": "A grid of observation points is the same in floating point", "statement": "For a configuration with a Cartesian grid of observation points, geec run in floating point (numbers rounded on reading and after every operation) reads as many points as in exact arithmetic, in the same order, and prints a table with as many lines whose coordinates and field are within a constant times the unit roundoff of those of exact arithmetic for the numbers as written.", "quantifier": "all grids, all bodies in Cartesian or geocentric coordinates, all points of the grid without ties, all roundings of sufficient precision", "why_tests_cant": "whether the ceiling of a rounded quotient is right depends on the last bit of start, end and step; tests use few grids, mostly with numbers for which it is", "anchors": ["geec/dataset.py:_read_coords", "geec/observer.py:get_observer", "geec/cli.py:run"]}
{"id": "C103", "title": "Floating-point results with any hull library", "statement": "If the points of a body span a solid and each of them is a corner or inside (prisms, with more than three corners in a face, are allowed), then in floating-point arithmetic, with the points rounded when read, the field of the polyhedron at every observation point regular and without ties is within a constant times the unit roundoff of Newton's law for the solid spanned by the points as written, whatever triangulated hull of the rounded points the hull library returns: neither which triangulation of a flat face it finds nor the order, orientation and numbering of the triangles is assumed. The same holds for every line of the table printed by geec run. With gradient, at observation points which moreover are off the lines of the edges, the tensor is within such a bound of the derivative of the field, and every line of the table holds the attraction and its derivatives to within such a bound.", "quantifier": "all point sets whose points are corners or inside, all observation points regular and without ties for the hulls of the points as written, all hull libraries that return a triangulated hull of the rounded points, all roundings of sufficient precision", "why_tests_cant": "a test uses the one hull library and the one rounding at hand; that what any library may find for the rounded points is a triangulation of the points written, and that all of them give the same limit, is about all of them", "anchors": ["geec/polyhedron.py:Polyhedron", "geec/polyhedron.py:Polyhedron.get_gravity", "geec/mass.py:get_masses", "geec/cli.py:run"]}
{"id": "C104", "title": "The hull library's contract can be met and fixes the triangles", "statement": "What the code needs of the convex hull library can be met: a list of points has a triangulated hull, with the neighbours listed opposite the corners, exactly when its points are not all in a plane (repeated points, points inside and on faces or edges, and flat faces are allowed). So there is a library that is honest and returns for every solid, and with it every polyhedron of such points can be built. If no four points are in a plane, any two such hulls have the same triangles up to the order of triangles and of their corners, namely the triples of points that have all points on one side.", "quantifier": "all finite lists of points that span a solid; uniqueness for those in general position", "why_tests_cant": "existence and uniqueness for all point sets; a test shows them for some", "anchors": ["geec/polyhedron.py:Polyhedron", "geec/polyhedron.py:Polyhedron._get_faces"]}
{"id": "C105", "title": "A missing number gives NaN, not a number and not an exception", "statement": "If a coordinate of a station, the density or the gravity constant is NaN (what pandas gives for an empty cell), get_gravity never returns a number: all three components of the attraction, and all nine of the tensor when the gradient is asked for, are NaN, whatever the body and the history of the object. With a NaN coordinate a query of a closed polyhedron returns and does not raise; a NaN density or constant does not change whether a query raises. In geec run the line of a station with a NaN coordinate has NaN in its result columns, and such stations do not stop the run.", "quantifier": "all arithmetics in which NaN propagates and compares false, all polyhedra, stations, densities, constants, histories of calls and configurations", "why_tests_cant": "the code has five comparisons that a NaN can pass through either way, and functions that raise behind them; the claim is for all bodies and all places of the NaN", "anchors": ["geec/polyhedron.py:Polyhedron.get_gravity", "geec/polyhedron.py:Face.get_gravity", "geec/polyhedron.py:Face._get_omega", "geec/polyhedron.py:Edge._get_ccw_line_integrals", "geec/polyhedron.py:Edge._line_integral_along_edge", "geec/station.py:Station.compute_gravity", "geec/cli.py:run"]}
{"id": "C106", "title": "No operation of a query is used outside of its domain", "statement": "At a station that is not a corner of the body, get_gravity divides by nothing that is zero (other than in the divisions that raise ZeroDivisionError), and takes no logarithm, square root or arc cosine outside of its domain. So the answers are numbers, and the same in every arithmetic that agrees with the real numbers where the operations are defined, whatever it makes of 1/0 or log 0; in particular Newton's law and the derivative of the tensor hold without conventions about undefined values. The same holds for every line of the table of a run.", "quantifier": "all convex bodies, stations that are no corners, densities, constants, gradient flags, configurations, and all arithmetics that extend the real numbers", "why_tests_cant": "the places where an argument leaves its domain are surfaces of measure zero; no sample of stations meets them, and a proof over real numbers with total functions does not see them", "anchors": ["geec/polyhedron.py:Polyhedron.get_gravity", "geec/polyhedron.py:Face._get_omega", "geec/polyhedron.py:Face._get_angle", "geec/polyhedron.py:Face._get_dangle", "geec/polyhedron.py:Edge._get_ccw_line_integrals", "geec/polyhedron.py:Edge._line_integral_along_edge", "geec/polyhedron.py:Polyhedron.__init__"]}
{"id": "C107", "title": "Files of points are read as the points in them", "statement": "If the lines of a CSV file are blank or hold three numbers separated by commas, with any blanks around them or in quotes, with LF, CRLF or CR at the ends of the lines, in any mixture, and with or without an end of the last line, then a section whose file_path is that file has exactly these points, in the order of the lines; the array is one of integers if and only if all numbers are written as integers. get_dataset gives the same dataset as for a section that lists the same numbers under points.", "quantifier": "all texts of this form of any length, all readings of numbers, configurations and file systems", "why_tests_cant": "the number and the length of the lines, the blanks and the line ends are arbitrary; tests read the two files that are shipped", "anchors": ["geec/dataset.py:_read_coords", "geec/dataset.py:get_dataset", "geec/data/cube.csv"]}
{"id": "C108", "title": "A file with an incomplete line of points is refused", "statement": "A CSV file in which a line does not have three fields raises an exception: too many fields, too few fields, or no line at all. It never silently produces a table with values that are not in the file.", "quantifier": "all texts of plain fields, all line lengths, all configurations that name the file", "why_tests_cant": "needs every position of the incomplete line in every file, and what becomes of the point in the whole run", "anchors": ["geec/dataset.py:_read_coords", "geec/cli.py:run", "geec/station.py:Station.compute_gravity"]}
{"id": "C109", "title": "The output file holds the table of the run, and nothing is lost", "statement": "The text that geec run writes consists of a line of column names, a line of units, and one line for each station with its twelve numbers, separated by commas; read back field by field it gives the names, units and numbers in the order of the table. Two runs that write the same text have the same table, if different numbers have different texts. The output is never accepted as a file of points of another run.", "quantifier": "all configurations, bodies, stations, flags, arithmetics and formats of numbers", "why_tests_cant": "for all tables of any length; separators, quoting and line ends interact with the contents", "anchors": ["geec/api.py:write_file", "geec/cli.py:run", "geec/observer.py:Observer.__post_init__", "geec/dataset.py:_read_coords"]}
{"id": "C110", "title": "A run leaves the files that it reads as they are, and can be repeated", "statement": "geec run does not change the files named in the configuration if they are neither its output, as given on the command line, nor its log. Repeating the run then returns again and writes the same text.", "quantifier": "all configurations, file systems, working directories, output paths and log names", "why_tests_cant": "the output gets another suffix than the one given, so whether an input is hit depends on all names in the configuration; the claim is for all file systems and for two runs in a row", "anchors": ["geec/api.py:write_file", "geec/api.py:setup_logger", "geec/cli.py:run", "geec/dataset.py:_read_coords"]}
{"id": "C111", "title": "A command needs only the geoid data that it uses", "statement": "geec --version, --log and config work without the geoid grids, and so does geec run if the heights of the bodies refer to the ellipsoid. The contents of the grids do not influence such a run. If a grid is missing that is needed, the program says so and changes no file.", "quantifier": "all installations, file systems, options, sub-commands, and for runs all configurations, hull libraries, arithmetics and contents of the grids", "why_tests_cant": "tests run in an installation where the files are either all there or not; the claim is for all subsets of files, commands and configurations", "anchors": ["geec/crs.py:ellipsoid_height", "geec/crs.py:VDATUMREF", "geec/cli.py:run", "geec/mass.py:to_ellipsoid_height"]}
{"id": "C112", "title": "The answers determine the body", "statement": "If the gravity vectors that two bodies give agree at all stations in some ball, however small, around one regular station outside of both bodies, then the two bodies occupy the same points of space and have the same product of density and gravitational constant (when these are not zero). The same holds for the gravity gradient tensors alone, and for agreement at all regular stations beyond some distance. So no two different inputs can be confused by measuring.", "quantifier": "all pairs of point sets (with any correct hull), densities, gravitational constants, stations and radii", "why_tests_cant": "the premise and the conclusion both speak about infinitely many stations and points; a sample of stations can always be matched by two different bodies", "anchors": ["geec/polyhedron.py:Polyhedron.get_gravity", "geec/polyhedron.py:Face.get_gravity", "geec/polyhedron.py:Edge._get_ccw_line_integrals"]}
{"id": "C113", "title": "More mass on one side attracts more; the infinite plate is a bound", "statement": "If one body has more than another on one side of a plane through the station and less on the other side, then the component of its gravity vector towards that side is at least as large, at the same non-negative density. In particular a part of a body that lies on one side of the station attracts less than the body. If a body lies between two parallel planes, the component across them is at most 2*pi*G*rho times the thickness of the plate on the one side of the station, and at least minus that on the other side (Bouguer plate, scaled by 1e5); hence no component is larger than 2*pi*G*rho times the width of the body in its direction, wherever the station is. A body inside (or around) a cylinder with the station on its axis is answered with at most (at least) the closed formula for the cylinder; a layer that reaches to the distance R around the station is answered with the plate's value up to the fraction b/R.", "quantifier": "all point sets (with any correct hull), pairs of them, regular stations, directions, layers, cylinders, non-negative densities and gravitational constants", "why_tests_cant": "the bounds are for every body in the layer and every station; a test compares finitely many bodies with numbers computed elsewhere", "anchors": ["geec/polyhedron.py:Polyhedron.get_gravity", "geec/polyhedron.py:Face.get_gravity", "geec/polyhedron.py:Edge._get_ccw_line_integrals"]}
{"id": "C114", "title": "Action equals reaction; the field has the mean value property", "statement": "Take two bodies such that the points of each are regular stations of the other. The total force on the second, i.e. its density times the integral over its points of the gravity vectors that the first one gives there, is exactly opposite to the force on the first computed from the gravity vectors of the second; the same holds for the moments about the origin. For one body and any ball of regular stations that the body does not enter, the average of the gravity vectors over the ball is the gravity vector at its centre. If the stations are only farther than epsilon from the corners, forces and averages agree up to an explicit error.", "quantifier": "all pairs of point sets (with any correct hulls) in such positions, all densities and gravitational constants, all directions; all balls", "why_tests_cant": "both sides are integrals of the program's answers over infinitely many stations; a quadrature over finitely many stations agrees only approximately", "anchors": ["geec/polyhedron.py:Polyhedron.get_gravity", "geec/polyhedron.py:Face.get_gravity"]}
{"id": "C115", "title": "Gauss's law: the answers around a body weigh it", "statement": "Integrate the outward component of the gravity vectors that the program gives over the surface of any convex polyhedron whose points are farther than epsilon from the corners of the body. The result is -4 pi G (times 1e5 for mGal) times the mass that the body has inside the polyhedron (all of it if the body is inside, none if it is outside), up to an explicit error: the area times the error bound of C72. The gravity vector is a measurable function of the station, so that the integral makes sense.", "quantifier": "all point sets with any correct hull, all closed triangulated convex surfaces (crossing the body or not, containing parts of its faces and edges or not), all densities and gravitational constants", "why_tests_cant": "the left side is an integral of answers over all stations of a surface, which crosses the thin zones where the code changes formulas; tests sum finitely many stations", "anchors": ["geec/polyhedron.py:Polyhedron.get_gravity", "geec/polyhedron.py:Face.get_gravity", "geec/polyhedron.py:Face._get_omega"]}
{"id": "C116", "title": "A rectangular block has the field of the prism formula", "statement": "For points that span a rectangular block with edges along the axes (its corners and any other points of the block), the gravity vector is the closed formula of Nagy for a prism: 1e5 G rho times alternating sums over the eight corners of a log(b+r) + b log(a+r) - c arctan(ab/(cr)). The gradient tensor is 1e9 G rho times the alternating sums of logarithms and arctangents that are its derivatives. A run over blocks writes the sums of these values. The way the faces are triangulated does not matter. In floating point the gravity vector, the tensor and the nine columns of geec run --gradient approach the formula as fast as the unit roundoff, with any hull library.", "quantifier": "all blocks, all further points in them, all triangulations of the faces, all densities and constants, all stations (outside, inside, in face planes, on faces) except those nearer than epsilon and sqrt(2 epsilon D) to a face plane without being in it; the tensor at stations off the surface", "why_tests_cant": "tests compare the cube with stored numbers of an earlier run at 16 stations; they cannot say that these numbers are right, nor cover all sizes, places and triangulations", "anchors": ["geec/polyhedron.py:Polyhedron.get_gravity", "geec/polyhedron.py:Face.get_gravity", "geec/polyhedron.py:Face._get_omega", "geec/cli.py:run"]}
{"id": "C117", "title": "lon, lat and alt of a dataset are the columns of its points", "statement": "The attributes lon, lat, alt of a dataset list the first, second and third coordinate of its points, in order, at any time (they follow the transformations). to_lon180 on geographic data leaves lat and alt alone and changes each longitude by a multiple of 360, into (-180,180] if it was in (-180,540]. to_ellipsoid_height leaves lon and lat alone and raises each altitude by the geoid height at the longitude and latitude of the same point. After to_wgs84 the three columns are geodetic coordinates on WGS84 of the positions that the points denoted before.", "quantifier": "all datasets, all indices; geodesy libraries whose conversions invert each other where they return", "why_tests_cant": "a pair of swapped columns shows only on points whose coordinates differ and on the operations that use them; tests look at some points", "anchors": ["geec/dataset.py:Dataset.lon", "geec/dataset.py:Dataset.lat", "geec/dataset.py:Dataset.alt", "geec/dataset.py:Dataset.to_lon180", "geec/dataset.py:Dataset.to_ellipsoid_height", "geec/dataset.py:Dataset.to_wgs84"]}
{"id": "C118", "title": "A configuration file is read as the values written in it", "statement": "If the lines of a file hold a value - by indentation, hyphens, keys, lists in brackets, words, quoted strings, numbers, null and booleans, with blank lines and comments anywhere - the parser returns this value and no other. A mapping becomes a source of the configuration, a file of comments an empty one. What the file given with --config says about a parameter is what the program gets, whatever the user's file and the defaults say; what it does not mention is decided by those.", "quantifier": "all values, all nestings, all indentations, all ways to write them in the modelled part of YAML; all user files and defaults, all parameters", "why_tests_cant": "the shipped files are three examples; that nothing in a file changes the meaning of another part of it (a comment, a deeper block, a hyphen) is a statement about all files", "anchors": ["geec/config.py:setup", "geec/config.py:_default_setup", "geec/cli.py:run"]}
{"id": "C119", "title": "Which decimal notations are numbers in a configuration file", "statement": "A number in the notations of YAML 1.1 (an integer without leading zeros; or with a point, with digits before it or without a sign, and with a sign in the exponent) is read as the number that is written, as an integer just if it has neither point nor exponent. In any other decimal notation (1e-11, 1e3, 2.5e3, -.5) it is read as a string, and the program stops with a ConfigTypeError when it asks for the number, for instance the density or the gravitational constant.", "quantifier": "all decimal numbers with any digits, except those with superfluous zeros in front in the other notations; all files, all parameters", "why_tests_cant": "the shipped files use two notations; users write numbers as they like, and Python itself reads all of them", "anchors": ["geec/config.py:setup", "geec/mass.py:get_masses", "geec/cli.py:run"]}
{"id": "C120", "title": "The shipped configuration files hold the documented values", "statement": "The texts of config_default.yaml, config_template.yaml and config_test.yaml are read as the values that the other properties about these files suppose, in every arithmetic. The file that geec config writes is read as the template.", "quantifier": "all conversions of decimals to floats; all disks, output paths and working directories", "why_tests_cant": "a test reads the file with the installed parser on one machine and looks at some values", "anchors": ["geec/cli.py:config", "geec/config.py:setup"]}
{"id": "C121", "title": "What the words of the command line do", "statement": "The words of a command line have one meaning: options with their values (attached with an equals sign, or the next word whatever it is), flags, and other words; -- ends the options. geec run uses the last --config, the last of --gradient and --no-gradient, and the one other word as the output, wherever the options stand; --help is obeyed wherever it stands as an option; all other words are usage errors. A command is known by the first word. geec config uses the last --output. A usage error, --help and a configuration file that cannot be opened leave every file but the log unchanged; without the geoid grids nothing is done at all. Whatever the words are, a text file that changes is the log or the output that the words name, with the suffix that the program gives it.", "quantifier": "all lists of words, all disks, all installations, all arithmetics; configuration files in the modelled part of YAML", "why_tests_cant": "a test runs a few command lines; repeated options, swallowed words and options after the arguments are combinations without end", "anchors": ["geec/cli.py:run", "geec/cli.py:config", "geec/cli.py:main", "geec/__main__.py", "geec/config.py:setup"]}
{"id": "C122", "title": "From the text of the configuration to the text of the output", "statement": "geec run, called with any words that mean it, on a configuration file in which Cartesian bodies of the same density and gravity constant and Cartesian observation points are written (listed there or in files of points that it names), returns, and the output file then holds: a line of names, a line of units, and for each observation point in order a line with the texts of its coordinates, of 1e5 G rho times the sum of Newton's integrals over the convex hulls of the points of the bodies, and of six zeros; with --gradient, at points outside the bodies, of 1e9 G rho times the sums of the tidal integrals. No other file but the log changes, and the user's file and the defaults do not matter.", "quantifier": "all command lines, all configuration files in the modelled part of YAML with such bodies and points, any number of them, all disks on which the files can be read and written; exact arithmetic; points in regular position", "why_tests_cant": "joins command line, YAML, files of points, geometry, Newton's integral and CSV output; a test sees one input and compares with another program", "anchors": ["geec/cli.py:run", "geec/config.py:setup", "geec/mass.py:get_masses", "geec/observer.py:get_observer", "geec/polyhedron.py:Polyhedron.get_gravity", "geec/api.py"]}
{"id": "C123", "title": "From text to text with bodies of different densities", "statement": "As C122 for Cartesian bodies whose densities and gravity constants differ: geec run returns, and the output file is, character by character, the one for bodies that all have the density and the gravity constant of the first body of the configuration file (with --gradient also the tensor columns). With two bodies and observation points outside the second one the numbers written are those for the bodies' own densities if the products of density and constant are equal, and otherwise there is a wrong number on every line; the file is the right text if and only if the wrong numbers have the same texts as the right ones.", "quantifier": "all command lines, configuration files, densities, constants and points as in C122; exact arithmetic", "why_tests_cant": "the configuration accepts one density per body, the run silently uses the first; a test with one density, or with bodies far apart and low precision, does not notice", "anchors": ["geec/cli.py:run", "geec/mass.py:get_masses", "geec/station.py:Station.compute_gravity", "geec/api.py"]}
{"id": "C124", "title": "From text to text in floating point", "statement": "As C122 when every number of the configuration and of the files of points is rounded on reading and every arithmetic operation is rounded, and with any hull library that returns some triangulated hull of the rounded points: there is a constant K, depending on what the configuration file says, such that for every unit roundoff delta <= 1/K the program ends well, changes no file but the output and the log, and the output file has the two lines of titles and for each observation point in order a line with twelve numbers: the rounded coordinates, and numbers within K*delta of 1e5*Gc*rho times Newton's integrals over the bodies as written, at the point as written; the last six are zero, or with --gradient within K*delta of 1e9*Gc*rho times the tidal integrals.", "quantifier": "all command lines that mean run, all configuration files with Cartesian bodies of one density and constant whose points span a solid and each of whose points is a corner of it or in its inside (coplanar corners are allowed), all observation points in regular positions without ties, all roundings with unit roundoff delta, all hull libraries", "why_tests_cant": "a test fixes one floating point arithmetic, one version of the hull library and one input; the constant and the absence of jumps between branches are statements about all of them", "anchors": ["geec/cli.py:run", "geec/config.py", "geec/dataset.py", "geec/polyhedron.py", "geec/station.py:Station.compute_gravity", "geec/api.py"]}
{"id": "C125", "title": "What the output depends on", "statement": "Two calls of geec run, with any words, on any disks, from any working directories and with any installations (with grids), both or none with --gradient, whose configuration files hold the same values and whose files of points that are read have the same texts, both end well and write the same text to their output files, or both raise the same exception and write nothing but the log. In particular the texts of other files, an earlier output and the log have no influence.", "quantifier": "all command lines that mean run, all disks on which the log and the output can be written, all configurations (also geographic ones and grids), any arithmetic and libraries", "why_tests_cant": "quantifies over everything that is not read; a hidden dependence on another file, on the working directory or on an earlier output shows only in particular surroundings", "anchors": ["geec/cli.py:run", "geec/config.py:setup", "geec/dataset.py:_read_coords", "geec/api.py", "geec/__main__.py"]}
{"id": "C126", "title": "Prisms from text to text in floating point", "statement": "A configuration file says blocks (rectangular prisms parallel to the axes) of the same density and gravity constant by their corners, in any order and perhaps with points inside, and observation points outside the blocks and apart from the planes of their faces, all in the CART frame. Then geec run --gradient, with all numbers and operations rounded and with any hull library that triangulates the rounded points, ends well, and in the output file the line of each observation point has its rounded coordinates and nine numbers within K*delta of the sums over the blocks of the closed formulas of Nagy for Gx, Gy, Gz and of their derivatives for the tensor.", "quantifier": "all command lines that mean run --gradient, all disks, all configuration texts of the modelled part of YAML that say such blocks and points, all roundings with unit roundoff delta, all hull libraries", "why_tests_cant": "tests compare one cube at one station in one arithmetic with a tolerance chosen by hand", "anchors": ["geec/cli.py:run", "geec/polyhedron.py", "geec/station.py:Station.compute_gravity", "tests/conftest.py"]}
{"id": "C127", "title": "Grids of observation points from text to text", "statement": "A configuration file says Cartesian bodies of the same density and gravity constant and, instead of observation points, a Cartesian grid by start, end and step of each axis (steps of either sign, at least one node per axis). Then geec run returns and the output file has two lines of titles and one line per node start + i*step that comes before the end on each axis, the last coordinate changing first, with the coordinates of the node, 1e5*G*density times the sum of Newton's integrals over the convex hulls of the points of the bodies and, with --gradient at nodes outside the bodies, 1e9*G*density times the sums of the tidal integrals, without it six zeros. No other file is changed but the log.", "quantifier": "all command lines that mean run, all disks, all configuration texts of the modelled part of YAML that say such bodies and grids, all grids, exact arithmetic, all hull libraries that give hulls", "why_tests_cant": "the number and the order of nodes, the open end and steps of both signs are claims about all grids, and the integrals about all bodies", "anchors": ["geec/cli.py:run", "geec/dataset.py:_read_coords", "geec/station.py:Station.compute_gravity", "geec/api.py"]}
{"id": "C128", "title": "Which grids are read", "statement": "A grid is said by start, end and step of three axes, where a missing start is 0 and a missing step is 1. Reading it raises ZeroDivisionError exactly if a step is 0; otherwise ValueError exactly if an axis ends a whole step or more behind its start; otherwise it gives, on each axis, the values start + k*step before the end, upwards or downwards, perhaps none, all combinations with the last coordinate changing first. geec run on a configuration file with Cartesian bodies and a Cartesian grid whose axes are each said by three numbers ends with ZeroDivisionError for a step of 0 and with ValueError as soon as some axis has no value, with and without --gradient, and writes nothing but the log.", "quantifier": "all real starts, ends and steps of either sign or 0, all configurations with such a grid, all Cartesian bodies, exact arithmetic", "why_tests_cant": "which exception comes first and where an empty grid turns into an exception are claims about all triples of reals", "anchors": ["geec/dataset.py:_read_coords", "geec/cli.py:run"]}
