# Formal model of GEEC in Lean 4 — design

## 1. Layout

| directory | content |
|---|---|
| `lean/Verif/Model/` | the model, one Lean definition per Python function; every definition cites the file and lines it models and says what it leaves out |
| `lean/Verif/Spec/` | specifications that do not mention the model's algorithms: Newton's integral, what a hull library must return, what a geodesy library must satisfy, histories of calls, rigid motions, concrete bodies |
| `lean/Verif/Lemmas/` | helper lemmas |
| `lean/Verif/Props/` | the property theorems `Cnn_…`, each with an `example` which meets its hypotheses, beside it or in `Props/Applied*.lean` |
| `lean/Verif/Validation.lean` | the model run on IEEE doubles against numbers from the repository's tests (a test of the model, not a proof) |
| `properties.jsonl` | the properties, in terms of the API and its observable effects |
| `MANIFEST.json` | which theorems settle which property |
| `seeded/LOG.jsonl` | wrong programs tried against the theorems |

## 2. How the code is modelled

* **Arithmetic.**  The numeric code is written once over a type class `Arith S` of *uninterpreted* operations (add,
  mul, numpy division, numba scalar division, `np.dot`, `np.linalg.norm`, `log`, `acos`, comparisons, `epsilon`, …).
  Structural properties (history independence, symmetry of the tensor, caching, accumulation, exceptions, labels,
  files) are proved for *every* instance, hence also for IEEE doubles.  Physical properties are proved for the
  instance `ℝ` (exact arithmetic, with the code's `epsilon = 2⁻⁵²` branches): rounding is not modelled there.
* **Exceptions** are values (`Except PyErr`); imperative methods are functions
  `state → Except PyErr α × state`, so the state left behind by a raise is visible.
* **numpy aliasing.**  `Face._add_pqr` stores the *same array object* as its first edge and updates it in place.  The
  model has an explicit heap of arrays and references (`Mem`), so this aliasing is part of the model.  In the same
  way `_get_faces` reorders rows of `hull.simplices` in place while later faces read them; the model threads that array.
* **numba.**  In `nopython` mode scalar division by zero raises `ZeroDivisionError`, array division does not,
  `log`/`sqrt` do not raise.  `math.acos`/`math.sqrt` outside numba raise `ValueError`.
* **Shared objects.**  `Station.compute_gravity` works on references into a `World` of bodies, so that one body may
  occur twice in a list or be shared by stations.
* **Configuration.**  confuse's look-up rules are modelled (`Config`): an ordered list of sources, missing vs null, dicts
  merged by key, lists taken from the first source with per-index overlay, type conversion on `get`.  The three YAML
  files shipped with the package are transcribed (`Shipped`).
* **External libraries** are parameters of the model; what is assumed of them is an explicit hypothesis:
  * scipy `ConvexHull`: `Hull.IsHull` (Spec/Hull): the triangles cover the frontier of the convex hull, neighbouring
    relations are those of shared sides, no side is degenerate; `HullLib.Honest` says a library returns such a result.
  * scipy `linprog` (`_in_hull`): an arbitrary Boolean function; no property depends on it.
  * pymap3d: `Geodesy` with laws `Geodesy.Lawful` (Spec/Geo): round trips of geodetic/ECEF/ENU conversions; the closed formulas satisfy them
    (`earth_lawful`, C87).
  * pygeodesy geoid grids: an arbitrary function of longitude and latitude.
  * YAML parsing: most theorems take the value of a file as given; for C118-C120 a part of PyYAML is modelled character by character (`Model/Yaml`: block
    mappings and sequences, flow sequences, plain and double quoted scalars, comments, the tables of implicit types of YAML 1.1).  Outside of this part the
    model returns `none`, about which nothing is proved.  The texts of the shipped files are transcribed (`Model/ShippedText`).  The file system: a map from paths to directories and texts.
  * click and typer: most theorems take the parsed arguments as given; for C121 and C122 the parser of click 8.1 is modelled word by word (`Model/CommandLine`), from its source as known
    to the author since the package is not on this machine: long options only, no shell completion.  `Path.expanduser().resolve()` and the opening of relative paths are arbitrary functions (`Surroundings`).
  * pandas `read_csv` and `to_csv`: most theorems take the table of a file as given (`Outside.readCsv`); for C107–C110 the texts are modelled
    character by character (`Model/Csv`), with the conversion between numbers and their texts as a parameter (`CsvLib`).

## 3. Properties: how they are proved

* **C01, C03–C05, C48** `get_gravity` as a state machine on an array heap; a simulation relation between an arbitrary
  clean memory and the empty memory; induction over faces, edges, and over the call history.
* **C02** is false of the code (no `try/finally` around `reset`): negation with a witness, for every body
  (`C02_poisoned`), and a partial theorem for calls that fail before anything was cached.
* **C70, C71** sequences of public calls on polyhedron, faces and edges; `reset` restores the invariant of C01.  C71 is
  false: `Face.get_gravity` leaves caches behind.
* **C06–C08** `Station.compute_gravity` as a fold over references to shared bodies; induction over the list.
* **C09–C12, C57** algebra on the real instance, or corollaries of C16.
* **C13, C14** closed form of the edge integral; fundamental theorem of calculus; for C14 also the memory.
* **C15** derivative of the spherical excess while the triangle is scaled from one of its vertices, limit at the
  degenerate triangle, fundamental theorem of calculus.
* **C16** per-face theorem: the face term is the attraction of the tetrahedron (station, face), by a change of variables;
  signed decomposition of a convex body into such tetrahedra (radial structure, measure theory); convergence of the
  integral is part of the claim.  C17, C18, C50, C51, C56 are corollaries.
* **C72** error of each edge integral in its tube, times the distance of the station from the face plane, which is small
  there; sum over edges and faces.  **C73** Lipschitz bound of the kernel.
* **C74** a filter of arithmetics of increasing accuracy; every branch is decided by a strict inequality, so it is eventually
  the branch of exact arithmetic, and the results converge.  **C75** on the line of an edge the branch is chosen by an exact
  comparison of floats; a family of arithmetics, as accurate as one likes, for which it comes out wrong.
  **C76** along an ultrafilter of arithmetics every edge settles on one of two branches; a face with the station on the line
  of an edge has height zero, so its field is zero with either.
* **C19, C20, C49, C58–C63** derivative of the closed forms; continuity across face planes; differentiation of the
  Newton integral; transformation laws from those of the field by uniqueness of derivatives.
* **C64** is false of the code in a thin tube around the prolongations of edges: explicit stations, plus a partial theorem; `C64_exact` (Props/ExactTensor) for every body: at a station in the tube of one computed edge, regular otherwise, the tensor is the gradient of the attraction iff the two faces of the edge have the same normal. The error is `a bᵀ - a' b'ᵀ` (one term per face); only its upper triangle is used by the code, and the sum of its principal minors is not zero because `∫ ρ²/r³ < ∫ 1/r` along the edge (`edge_slack`, `twoPlanes`, Lemmas/TubeError)
  outside of the tubes.
* **C21, C22** case analysis of the branches that can raise.
* **C23–C26** `_get_faces` / `_get_edge_twin` over a hull result meeting `IsHull`.  The search loop refers to an undefined
  name (`points`), modelled as `NameError`, and is shown unreachable.
* **C27–C35** datasets as a state machine (`to_lon180`, `to_ellipsoid_height`, `to_ecef`, `to_wgs84`, `to_enu`).
  C28, C30, C33, C34, C35 are false in general: negations with witnesses plus partial theorems.
* **C77–C80** datasets as objects on a heap of arrays and CRS objects (Model/Heap.lean); each transformation on the heap is
  shown to refine the one on values (Lemmas/Heap.lean).  C77 is false with sharing (`C77_exact` says exactly when one call changes another dataset), C80 is false of ECEF and ENU.
* **C36–C39, C47, C53–C55, C69** the `run` command as a function from configuration sources and files to the table and
  the files left behind.  C36, C37, C53, C54 are false in general (refuted also in exact arithmetic).
  C69 composes everything: the table of `geec run` holds Newton's field of the configured bodies.
* **C40–C44, C66–C68** readers of the configuration.  C40, C43, C66, C67, C68 are false in general; `C68_exact` says for which lists of bodies the order is irrelevant.
* **C45, C65** path suffix rewriting and files. What a suffix is and what replacing it means is defined in Spec/Suffix (last dot, neither first nor last in the name); C45, C55, C83, C110 are stated with it, not with the model of `with_suffix`.  C45 is false in general.
* **C81** the linear program of `_in_hull` against Mathlib's `convexHull`.  **C82** the twins of C25 as an involution on edges.
* **C83** the program as invoked, on a disk with directories and permissions (Model/Main.lean): logger first, then the sub-command.
* **C84, C85** the potential `∫ 1/|q − s|`: the field is its gradient, its work is path independent, it has no jumps and is bounded by the volume alone.
* **C86** the floating-point limit (C76) carried through `geec run`, for plain Cartesian configurations.
* **C87** the formulas of the geodesy library written down (`Model/Earth.lean`): they satisfy the laws that C32 and the following assume; surjectivity of geodetic coordinates by the intermediate value theorem; `C87_geodetic` ties the formula to the normal of the ellipsoid; `C87_wgs84` pins down the axes of WGS84 (semi-major axis and inverse flattening).
* **C88** the ENU frame as a rigid motion; hulls, tolerances and attraction under rigid motions (`Lemmas/Rigid.lean`), then C12 and C57.
* **C89** refuted by a body at the equator with a point 5 m above its corner: the sign of one component is wrong; the size of the displacement and of the field written are proved.
* **C90** by comparing the two volume integrals: near the station the kernel integrates to at most 24 r over any set, further away it is at most 1/r², and the bodies differ by little volume (inner and outer parallel bodies of a convex set).
* **C91** Taylor's formula to second order about the centre of mass; the first-order term integrates to zero.
* **C92**, **C93** by induction over sequences of calls on body and caches (`runAccesses`); C93 counts the objects in the description with C24 and C25.
* **C94** Newton's theorem on the ball (`newton_ball`: slices, polar coordinates, a mirror that turns the station onto an axis) and the comparison of integrals of C90; a separating plane shows that a dense mesh contains the smaller ball.
* **C95** linearity of Newton's integral over C06; **C96** is C57 and C60 for a body and itself.
* **C97** laws that relate two or three runs: `to_wgs84` works point by point, the bodies are determined by `get_masses`, a line is the sum of the answers of unused bodies (C37), then C08 and C09.
* **C98** every intermediate number has an error O(accuracy) in the filter of accurate arithmetics (`Cont` in Lemmas/Precision); where branches can go either way (ties of non-strict comparisons, quotients near edge lines), each ultrafilter decides them, and a compactness argument (`rate_of_ultra`) gives one constant.
* **C99** `showLog` lists the messages in order; equal logs give equal readings of every logged key, hence equal masses and observers (`Lemmas` in Props/Record), hence equal tables. The counterexample is a pair of toy runs that differ in the grid of a mass; `C99_grids` shows that nothing else can differ.
* **C100** the text of a duration is split at the first blank and the first colon; fixed-width digits are injective.
* **C101** the filter of C98 is over a `Setting` (Spec/Setting): an arithmetic together with how it changes the inputs; an input is then one more number with an error O(accuracy). For runs, every number of the configuration is changed (`View.mapNum`), and reading commutes with that.
* **C102** the quotient whose ceiling is the number of values has an error O(accuracy); the ceiling is locally constant away from integers, and only there (`C102_exact_count`: multiply every result by a number slightly above 1). The computed grid is a change of the exact grid, so C101 applies. The refutation computes with IEEE double precision rounding (`nearest 52`, Spec/Binary).
* **C103** the sign of the determinant of four points is locally constant, so rounded points in general position have the same triangles as the exact ones (C103_stable). For firm points, which may have flat faces, a hull of nearby points is still a hull of the points (C103_firm, Lemmas/Limit): volumes and normals pass to the limit, a triangle that became flat would have a corner strictly between others, the triangles still cover the boundary by compactness, and two triangles that overlap in the limit overlap before. Any triangulated hull of the rounded points is then one of finitely many triangulations of the exact points, and C101 applies to each of them; the constant is the largest. `Tidy` says that the library lists no index twice in `vertices` and in a row of `neighbors`; without it there would be infinitely many listings. The tensor goes the same way: what is proved for all triangulations of the points written, with a constant each, holds with the largest constant for any triangulation of the rounded points (any_triangulation, any_triangulations), as there are finitely many.
* **C104** the facets are the triples with all points on one side (`Facet`); the boundary of the solid is their union (Lemmas/Facets), every edge of a facet is shared with exactly one other (turning the plane about the edge until it meets the next point), and this gives a hull in the sense of `IsHull` (Lemmas/Net). Without general position: the corners of the solid are moved a little into general position (Lemmas/Corners, along the curve (t, t², t³)), and the hull of the moved corners is one of the corners by C103_firm; Lemmas/Reindex adds the other points.
* **C105** in an arbitrary arithmetic with a NaN-like predicate: the height of a station above a face is a dot product, hence NaN, and every component of a face's field has it as a factor (`faceGravity_field`, for any state of the caches); no branch that raises is entered because all comparisons are false. Examples: real numbers with NaN (`nanArith`, Lemmas/Partial), and a whole run over rationals with NaN.
* **C106** the whole computation is carried through an arbitrary map `ι : ℝ → S` into an arithmetic that agrees with the real one where the operations are defined (`Extends`, Lemmas/Extends and ExtendsSum): each lemma asks for the domain of the operation it is about, and the hull's geometry provides it (a station on the line of an edge is in the plane of the face, so no cross product vanishes where the solid angle is computed). This is also a check of the model over ℝ: none of the theorems proved over Mathlib's real numbers rests on `x / 0 = 0`, `log 0 = 0` or `sqrt (-1) = 0` away from the exceptional places. `C106_not_a_number` computes what happens there. `C106_run`, `C106_run_newton`, `C106_run_returns` say the same of the lines of the table of `geec run`; `C106_run_not_a_number` is a whole run that ends without an error and writes NaN. The places where it fails are characterised edge by edge (edgeIntegral_gradient_iff): C106_exact and C22_gradient_iff (Props/ExactQuery).
* **C107–C110** the tokenizer is a state machine over characters; `csvTokens_file` (Lemmas/CsvText) is proved by induction over the lines of a text of arbitrary length, and gives the fields
  of input and output alike.  C108 is false (short lines become NaN); `C108_exact` (Props/ExactFiles) says exactly which files are accepted and with which values, `C108_exact_numbers` that the claim would hold iff the empty text were not a number, C110 is false (the suffix of the output; `C110_exact` says exactly when); C110 rests on C83 (what the program may change on the disk) and on a
  congruence lemma: a run depends on the disk only by the files that its configuration names (`runTable_congr`).
* **C111** the import of `geec.crs` as a first step of the process (Model/Start); `C111_unused` follows the geoid through `runTable`, where only `ellipsoidHeight` reads it.
* **C112** `attDiff` is the difference of the two attractions.  The share of a face is analytic along a line at every point off the triangle, and its tangential part also
  across the inside of the triangle (Lemmas/Analytic: analytic dependence of integrals, and the closed form with the edge logarithms).  Agreement in a ball spreads along visible segments to all
  stations far away (Lemmas/UniqueLocal).  If a body sticks out of the other, it spreads from there to the outside of the part that sticks out, and through two of its faces with different
  normals to the inside, where the trace of the derivative is `-4π k` for one body and 0 for the other (Lemmas/UniqueBody).  Nothing is assumed about the hulls beyond `IsHull`.
* **C113** the kernel `u·(q-s)/|q-s|³` is non-negative on the side of `u`, so attractions compare as indicators do (`attraction_compare`, Lemmas/Plate); the cylinder is integrated by
  slices and moved into place by a reflection (`cylinder_attraction`).  The plate is a cylinder that is wide enough for the body.
* **C114** Fubini's theorem for the pair kernel (`pair_integrable`: for each station the kernel is integrable, and the integral of its absolute value is continuous in the station), which is
  antisymmetric.  The mean value over a ball is the same theorem with the ball as second body, whose attraction is known (`newton_ball`).
* **C115** the value of `edgeIntegral` is written as a measurable function of the station (`edgeF`; the branches of the code are measurable sets), the solid angle is an integral with a parameter, so the returned gravity is a measurable function (`answer_measurable`). The flux of the attraction through a triangle is minus the integral of its solid angle over the body (Fubini, `triangle_flux`); the solid angles of a closed surface sum to 4π inside and 0 outside (`angles_inside`, `angles_outside`), which gives Gauss's law (`attraction_flux`). The surfaces `|r| + r·u = eps` where C72 does not apply are quadrics, which have no area on a triangle and no volume (`plane_switch_null`, `space_switch_null`: at most two points on almost all lines), so C72 holds almost everywhere. The same gives C114 with an error.
* **C116** the attraction of a block is integrated once in closed form on one side of it (`block_side`), glued across the planes of the faces and extended by continuity to every station, on the surface too (`block_attraction`). Every triangle of a hull of the block lies in one of the six planes (its centre is on the surface, and the planes are supporting), which makes the conditions of C16 explicit: the station is in the plane or not too close to it (`SeesBlock`). The tensor by C64 and uniqueness of derivatives; floating point by C103 (the corners of a block are firm), for the tensor and for `geec run --gradient` in Props/PrismRun. The cube of `tests/conftest.py` and its station, which lies in the plane of the top face and in line with a diagonal, is the concrete case.
* **C118** the specification (Spec/Yaml) says by induction which lines hold which value, without reference to the parser; mutual induction over the derivation, with enough fuel.
* **C119** regular expressions of the resolver against a decimal number in its parts (sign, digits, point, exponent).
* **C120** the model of the parser is run on the texts in the kernel (`decide +kernel`), which is a complete proof since there is nothing to quantify over but the conversion of decimals.
* **C121** the specification (Spec/CommandLine) says by induction which words are options, values and other words; the model of click's parser agrees with it in both directions (`parse_iff`).
* **C122** C121, C118, C107, C69 and C109 joined: what the configuration says is found through the views (`View.Top`), the run returns (`C69_returns`), its rows are Newton's and the tidal integrals,
  and the text is that of `to_csv`.  The complete case at the end of Props/WholeProgram has a disk, words, a configuration file and a file of points.
* **C123** the same with C37_newton and C37_tidal in place of C69: the first body's density is used for all bodies.  The texts of lines can be taken apart again (`outputText_inj`), so that the
  output is the right one exactly when the wrong numbers look like the right ones.  (An assumption that different real numbers have different texts would be false, there are too many of them.)
* **C124** (Props/WholePrecision) the surroundings with rounded numbers read the rounded configuration (`root_rounded`, `ofDisk_rounded`: rounding commutes with the parser, with confuse's sources and with
  `read_csv`), what the file says is a plain configuration (`SaysRun.plain`), so that C103_run and C103_run_tidal give the table and C121, C109 the text.  The case at the end is the disk of C122 in fixed-point
  arithmetic with n binary digits.
* **C125** (Props/WholeInputs) `runTable_congr` of C110 for two disks and two ways of resolving paths, under C121.
* **C126** (Props/WholePrism) C124_gradient for blocks; the hypotheses on the triangulations follow from the position beside the block (C116), the field and the tensor are those of `nagyField`, `nagyTensor`.
* **C127** (Props/WholeGrid) `run_of_reads`, `gradient_of_reads` (C122 for whatever is read) and the reading of a grid (C102, C41), with steps of either sign.
* **C128** (Props/GridExact, Props/WholeGridErrors) by the cases of the steps and of `ceil((end - start)/step)`: `EndsBehind` is a negative count, `NoValue` is no point, on which `runTable` raises.  `C128_program` composes this with `bodies_read` and `Runs.outcome` of C122 and C125.
* **C117** C27, C29 and C32 in terms of the attributes `lon`, `lat`, `alt`.
* **Exactly when the refuted claims hold** (Props/Exact): for C28, C30, C36, C37 (two bodies), C45, C52, C53, C54 the theorems `_exact` are equivalences - the
  condition under which the code does what the claim says, and only then. C37_newton says what the columns hold instead.
* **Exactly when the refuted claims on frames and files hold** (Props/ExactFrames, Props/ExactShipped): C33, C34 and C35 per transformation (the exceptions are
  returning `to_enu` calls), C40 and C43 as complete descriptions of what is read, C80 for every history of an observer, C66 (only the vertical datum of the
  observers comes from the other files, and the table of the run does not depend on it, C66_run), C67.
* **C02, C71, wrong values** (Lemmas/Stale, Props/Stale): a query without gradient that raised leaves the line integrals of its station in the first face
  (and adds them up in the array of the first edge, which is shared with the face). The invariant `Stale` follows these arrays through the remaining faces. A later
  query without gradient never raises away from the corners (C02_silent, every body, every history of queries without gradient), and returns wrong values:
  C02_wrong_value, C71_wrong_value for the unit tetrahedron and all stations above its top, by integral bounds on the stale and the fresh line integrals.
* **C46, C52** direct; C52 is false (integer arrays).

A property that is false of the code is stated in full, refuted by a theorem `…_false`, and accompanied by
`…_partial`, the part that holds.  Its status in the manifest is `partial`.

## 4. Findings

Defects of the code that the refuted properties exhibit:
C02 a query that raises leaves stale caches, later answers are wrong;
C28/C30/C33/C34/C35 local ENU data are treated as degrees, origins ignored, non-WGS84 ellipsoids mixed up;
C36 bodies and stations end up in different frames; C37 the density of the first body is used for all;
C40 an absent `points` key is not treated as absent; C43 `egm2008` is documented but rejected;
C45 outputs `a.b` and `a.c` collide; C52 integer coordinates raise; C53 the vertical datum of the observers is ignored;
C54 optional parameters must be present; C64 wrong sign of edge integrals beside prolongations of edges;
C89 the field of geographic observation points is evaluated near the centre of the Earth;
C66–C68 defaults leak into user configurations by position in the list;
C108 a line with a coordinate too few in a file of points is not reported, its results are NaN;
C110 the output `obs.txt` overwrites the input `obs.csv`;
C111 every command, `--version` included, needs all three geoid grids, two of which are not in the repository;
C71 `Face.get_gravity` leaves caches behind that make later queries with gradient raise, and later queries without gradient return wrong values.

## 5. Trusted base

* Lean's kernel and the axioms `propext` (P), `Classical.choice` (C), `Quot.sound` (Q); no other axiom, no `sorry`, no
  `native_decide`.  The table in section 7 lists the axioms of each theorem, as printed by `#print axioms`.
* The reading of the Python code that the citations document (section 6), including the stated behaviour of numpy, numba,
  confuse and typer.
* The assumptions on external libraries listed in section 2, where a theorem has them as hypotheses.
* For theorems over `ℝ`: that rounding is neglected.
* For C111: that pygeodesy's `GeoidKarney` opens its file when it is made and raises a `ValueError` if it cannot.
* For C107–C110: the transcription of the tokenizer of pandas 2 (`tokenizer.c`, default options) and of `to_csv`, which are not in the repository.
* For C87–C89: the closed formulas of pymap3d 3.0.1 in `Model/Earth.lean`, which are not in the repository (`geodetic2ecef`, `enu2uvw`, `uvw2enu`,
  written from the published definitions); its `ecef2geodetic` is taken to be the exact inverse.

## 6. What is modelled

| Python | lines | Lean definitions |
|---|---|---|
| `geec/api.py:setup_logdir` | 19-24 | `mkdirP`, `Install.logdir`, `setupLogdir` |
| `geec/api.py:setup_logger` | 27-36 | `setupLogger` |
| `geec/api.py:write_file` | 39-48 | `stem`, `csvName`, `writeFile`, `outputPath`, `toCsv`, `writeCsv` |
| `geec/cli.py:run` | 32-105 | `addGravity`, `fieldName`, `firstMass`, `runTable`, `run`, `runOption`, `parseRun`, `runResult`, `subCommand`, `geecProgram`, `toCsv`, `geecRun`, `Sub2.exec` |
| `geec/cli.py:run.add_gravity` | 79-86 | `addGravity`, `runTable`, `run`, `runResult`, `subCommand`, `geecProgram`, `geecRun`, `Sub2.exec` |
| `geec/cli.py:config` | 109-132 | `configOption`, `parseConfig`, `outputPath`, `subCommand`, `geecProgram`, `withSuffix`, `configCmd` |
| `geec/cli.py:_version_callback` | 148-151 | `geecProgram`, `geecMain` |
| `geec/cli.py:_logdir_callback` | 154-158 | `geecProgram`, `geecMain` |
| `geec/cli.py:main` | 162-186 | `appOption`, `geecProgram`, `geecMain` |
| `geec/config.py:show` | 15-60 | `massShown`, `observersShown`, `configShow`, `massItems`, `observerItems`, `logItems`, `logMasses`, `showLog` |
| `geec/config.py:_default_setup` | 63-93 | `defaultSetup`, `View.root`, `configSource` |
| `geec/config.py:setup` | 96-112 | `argumentSource`, `configSetup`, `View.root`, `setupSources`, `configSource` |
| `geec/config.py:main` | 115-127 | `configMain` |
| `geec/crs.py:CRSEnum (class)` | 26-30 | `CRSName`, `crsMembers` |
| `geec/crs.py:VDatumEnum (class)` | 33-37 | `VDatum`, `vdatumMembers` |
| `geec/crs.py:Ellipsoid (class)` | 44-78 | `Ell`, `earth` |
| `geec/crs.py:Ellipsoid.__init__` | 47-78 | `Ell`, `mkEllipsoid`, `earth` |
| `geec/crs.py:ENU (class)` | 87-94 | `Enu` |
| `geec/crs.py:CRS (class)` | 98-120 | `Crs` |
| `geec/crs.py:CRS.__post_init__` | 108-120 | `mkCrs` |
| `geec/crs.py:read_ellipsoid_parameters` | 124-137 | `readEllipsoidParameters` |
| `geec/crs.py:read_enu_parameters` | 140-146 | `readEnuParameters` |
| `geec/crs.py:read_ref` | 149-161 | `readRef` |
| `geec/crs.py:read_vdatum` | 164-175 | `readVdatum` |
| `geec/crs.py:create_cartesian_crs` | 179-181 | `getCrs` |
| `geec/crs.py:create_ecef_crs` | 184-186 | `getCrs` |
| `geec/crs.py:create_ellipsoid_crs` | 189-196 | `createEllipsoidCrs` |
| `geec/crs.py:create_local_enu_crs` | 199-213 | `createLocalEnuCrs` |
| `geec/crs.py:get_crs` | 224-228 | `getCrs` |
| `geec/crs.py:wrap180` | 232-237 | `wrap180`, `wrap180H` |
| `geec/crs.py:ellpsgeoid` | 246-247 | `geoidHeight` |
| `geec/crs.py:ellipsoid_height` | 258-276 | `Geodesy`, `ellipsoidHeight`, `earth`, `ellipsoidHeightH` |
| `geec/crs.py:ellps_to_ecef` | 279-294 | `Geodesy`, `ellpsToEcef`, `radians`, `primeRadius`, `geodeticPoint`, `geodetic2ecefOn`, `earth`, `ellpsToEcefH` |
| `geec/crs.py:enu_to_ecef` | 297-319 | `Geodesy`, `enuToEcef`, `radians`, `enu2uvw`, `enu2ecefOn`, `earth`, `enuToEcefH` |
| `geec/crs.py:ecef_to_wgs84` | 322-345 | `Geodesy`, `ecefToWgs84`, `earth`, `ecefToWgs84H` |
| `geec/crs.py:ellps_to_wgs84` | 348-359 | `ellpsToWgs84`, `ellpsToWgs84H` |
| `geec/crs.py:enu_to_wgs84` | 362-373 | `enuToWgs84`, `enuToWgs84H` |
| `geec/crs.py:ecef_to_enu` | 376-406 | `Geodesy`, `ecefToEnu`, `uvw2enu`, `ecef2enuOn`, `earth`, `ecefToEnuH` |
| `geec/crs.py:wgs84_to_enu` | 409-440 | `Geodesy`, `wgs84ToEnu`, `earth`, `wgs84ToEnuH` |
| `geec/dataset.py:Dataset (class)` | 24-117 | `Dataset`, `DsObj` |
| `geec/dataset.py:Dataset.lon` | 29-30 | `Dataset.lon` |
| `geec/dataset.py:Dataset.lat` | 33-34 | `Dataset.lon` |
| `geec/dataset.py:Dataset.alt` | 37-38 | `Dataset.lon` |
| `geec/dataset.py:Dataset.to_lon180` | 40-53 | `Dataset.toLon180`, `idH`, `Op.fn`, `DsWorld.call` |
| `geec/dataset.py:Dataset.to_ellipsoid_height` | 55-68 | `Dataset.toEllipsoidHeight`, `idH`, `Op.fn`, `DsWorld.call` |
| `geec/dataset.py:Dataset.to_ecef` | 70-83 | `Dataset.toEcef`, `idH`, `Op.fn`, `DsWorld.call` |
| `geec/dataset.py:Dataset.to_wgs84` | 85-98 | `Dataset.toWgs84`, `idH`, `Op.fn`, `DsWorld.call` |
| `geec/dataset.py:Dataset.to_enu` | 100-117 | `Dataset.toEnu`, `idH`, `DsWorld.call` |
| `geec/dataset.py:_read_coords` | 120-145 | `readCsvText`, `Outside.ofDisk`, `axis3`, `axisNums`, `stepOk`, `axisCount`, `gridPoints`, `readGrid`, `readCoords` |
| `geec/dataset.py:get_dataset` | 148-152 | `getDataset` |
| `geec/mass.py:Mass (class)` | 17-40 | `Mass`, `MassObj` |
| `geec/mass.py:Mass.to_lon180` | 22-24 | `MassObj.call` |
| `geec/mass.py:Mass.to_ellipsoid_height` | 26-28 | `MassObj.call` |
| `geec/mass.py:Mass.to_ecef` | 30-32 | `MassObj.call` |
| `geec/mass.py:Mass.to_wgs84` | 34-36 | `MassObj.call` |
| `geec/mass.py:Mass.to_enu` | 38-40 | `MassObj.call` |
| `geec/mass.py:get_masses` | 43-53 | `getMass`, `getMasses` |
| `geec/mass.py:to_lon180` | 56-58 | `massesMap`, `DsWorld.loop` |
| `geec/mass.py:to_ellipsoid_height` | 61-63 | `massesMap`, `DsWorld.loop` |
| `geec/mass.py:to_ecef` | 66-68 | `massesMap`, `DsWorld.loop` |
| `geec/mass.py:to_wgs84` | 71-73 | `DsWorld.loop` |
| `geec/mass.py:to_enu` | 76-78 | `DsWorld.loop` |
| `geec/observer.py:Observer (class)` | 33-61 | `Observer`, `ObserverObj` |
| `geec/observer.py:Observer.__post_init__` | 38-41 | `Observer`, `mkObserver`, `newObserver` |
| `geec/observer.py:Observer.to_lon180` | 43-45 | `ObserverObj.call` |
| `geec/observer.py:Observer.to_ellipsoid_height` | 47-49 | `ObserverObj.call` |
| `geec/observer.py:Observer.to_ecef` | 51-53 | `ObserverObj.call` |
| `geec/observer.py:Observer.to_wgs84` | 55-57 | `ObserverObj.call` |
| `geec/observer.py:Observer.to_enu` | 59-61 | `ObserverObj.call` |
| `geec/observer.py:get_observer` | 64-68 | `getObserver` |
| `geec/polyhedron.py:Edge.__init__` | 51-73 | `Edge`, `mkEdge`, `EdgeC`, `Mem.fresh` |
| `geec/polyhedron.py:Edge.reset` | 75-78 | `edgeReset`, `Method`, `Method.run` |
| `geec/polyhedron.py:Edge.__rich_repr__` | 80-86 | `Edge.shown` |
| `geec/polyhedron.py:Edge.__repr__` | 88-91 | `Printed` |
| `geec/polyhedron.py:Edge.pqr` | 95-96 | `Edge.getPqr` |
| `geec/polyhedron.py:Edge.dpqr` | 99-100 | `Edge.getDpqr` |
| `geec/polyhedron.py:Edge.set_twin` | 102-111 | `Access`, `Edge.setTwin`, `Access.run` |
| `geec/polyhedron.py:Edge._set_pqr` | 114-118 | `Access`, `Edge.setPqr`, `Access.run` |
| `geec/polyhedron.py:Edge._set_dpqr` | 120-124 | `Access`, `Edge.setDpqr`, `Access.run` |
| `geec/polyhedron.py:Edge._set_twin_pqr` | 127-139 | `setTwinPqr` |
| `geec/polyhedron.py:Edge._line_integral_along_edge` | 143-193 | `lineIntegralAlongEdge` |
| `geec/polyhedron.py:Edge._get_ccw_line_integrals` | 195-235 | `edgeIntegral`, `edgeCompute` |
| `geec/polyhedron.py:Face.__init__` | 249-286 | `Face`, `FaceC`, `Mem.fresh` |
| `geec/polyhedron.py:Face.reset` | 288-297 | `edgesReset`, `faceReset`, `Method`, `Method.run` |
| `geec/polyhedron.py:Face.__rich_repr__` | 299-305 | `Face.shown` |
| `geec/polyhedron.py:Face.__repr__` | 307-310 | `Printed` |
| `geec/polyhedron.py:Face._add_pqr` | 329-334 | `addPqr` |
| `geec/polyhedron.py:Face._add_dpqr` | 336-341 | `addDpqr` |
| `geec/polyhedron.py:Face._get_edges` | 343-353 | `getEdges` |
| `geec/polyhedron.py:Face._get_twinface` | 365-368 | `containsPair`, `getTwinface` |
| `geec/polyhedron.py:Face._get_dot_point1` | 370-382 | `getDotPoint1` |
| `geec/polyhedron.py:Face._get_sign` | 384-396 | `getSign` |
| `geec/polyhedron.py:Face._get_omega` | 399-460 | `crossDp`, `omegaKernel`, `getOmega` |
| `geec/polyhedron.py:Face._get_A1A2` | 464-471 | `getA1A2` |
| `geec/polyhedron.py:Face._get_perp` | 475-489 | `getPerp` |
| `geec/polyhedron.py:Face._get_b` | 493-494 | `omegaKernel` |
| `geec/polyhedron.py:Face._get_angle` | 498-505 | `getAngle` |
| `geec/polyhedron.py:Face._get_dangle` | 509-559 | `getDangle` |
| `geec/polyhedron.py:Face._get_ccw_line_integrals` | 679-688 | `faceEdges` |
| `geec/polyhedron.py:Face.get_gravity` | 690-784 | `numbaDiv`, `faceField`, `faceFinish`, `faceGravity`, `Method`, `Method.run` |
| `geec/polyhedron.py:Polyhedron.__init__` | 798-816 | `polyhedronOf`, `Poly`, `mkPoly` |
| `geec/polyhedron.py:Polyhedron.__rich_repr__` | 821-824 | `Poly.shown` |
| `geec/polyhedron.py:Polyhedron.__repr__` | 826-829 | `Printed`, `Poly.repr` |
| `geec/polyhedron.py:Polyhedron._get_faces` | 831-898 | `Hull`, `meanPoint`, `reverseTail`, `orient`, `buildFaces`, `mkPoly` |
| `geec/polyhedron.py:Polyhedron._in_hull` | 900-911 | `inHullA`, `inHullB`, `ExactInHull` |
| `geec/polyhedron.py:Polyhedron._get_edge_twin` | 913-926 | `veq`, `findTwin`, `twinStep`, `twinEdges`, `twinFaces`, `getEdgeTwin` |
| `geec/polyhedron.py:Polyhedron.reset` | 973-978 | `polyReset`, `Method`, `Method.run` |
| `geec/polyhedron.py:Polyhedron.get_gravity` | 980-1007 | `polyFaces`, `getGravity`, `Method.run` |
| `geec/polyhedron.py:Polyhedron.plot` | 1009-1026 | `Edge.trace`, `plotTraces` |
| `geec/station.py:Station.__init__` | 31-44 | `Station`, `Station.new` |
| `geec/station.py:Station.__rich_repr__` | 46-48 | `Station.shown` |
| `geec/station.py:Station.__repr__` | 50-53 | `Printed`, `Station.repr` |
| `geec/station.py:Station.compute_gravity` | 55-84 | `stationLoop`, `computeGravity` |
| `geec/timing.py:_secondsToStr` | 17-21 | `elapsedText` |
| `geec/timing.py:log` | 24-30 | `timingLog` |
| `geec/timing.py:midlog` | 33-36 | `midlog` |
| `geec/timing.py:endlog` | 39-42 | `endlog` |
| `geec/utils.py:cross_product` | 21-42 | `cross`, `crossVec`, `crossRow`, `crossProduct` |


### Not modelled

Every function and method of the package has a model (table above), with the simplifications stated in the comments of the definitions.
The rendering of plots and the layout that loguru gives to messages have no influence on results or files other than logs. The messages themselves are modelled
for `config.show` (Model/Record.lean) and `timing.py` (Model/Timing.lean).

## 7. Theorems and axioms

| property | theorem | axioms |
|---|---|---|
| C01 | `C01_history_independence` | P C Q |
| C01 | `C01_all_answers` | P C Q |
| C02 | `C02_false` | P C Q |
| C02 | `C02_poisoned` | P C Q |
| C02 | `C02_partial` | P C Q |
| C02 | `C02_silent` | P C Q |
| C02 | `C02_wrong_value` | P C Q |
| C02 | `C02_false_value` | P C Q |
| C03 | `C03_gradient_flag_same_G` | P Q |
| C04 | `C04_no_gradient_zero_tensor` | P |
| C04 | `C04_station_tensor_unchanged` | P |
| C04 | `C04_run_zero_columns` | P C Q |
| C04 | `C04_run_zero` | P C Q |
| C05 | `C05_tensor_symmetric` | P |
| C05 | `C05_station_tensor_symmetric` | P |
| C06 | `C06_station_accumulates` | P C Q |
| C06 | `C06_concatenation` | P Q |
| C06 | `C06_components` | P C Q |
| C07 | `C07_wrong_argument` | P Q |
| C07 | `C07_bare_polyhedron` | P |
| C08 | `C08_order_of_bodies` | P C Q |
| C09 | `C09_linear` | P C Q |
| C09 | `C09_hull` | P C Q |
| C10 | `C10_translation` | P C Q |
| C10 | `C10_constructs` | P C Q |
| C100 | `C100_elapsed` | P C Q |
| C100 | `C100_program` | P C Q |
| C100 | `C100_times` | P C Q |
| C101 | `C101_joint` | P C Q |
| C101 | `C101_lipschitz` | P C Q |
| C101 | `C101_roundoff` | P C Q |
| C101 | `C101_newton` | P C Q |
| C101 | `C101_run` | P C Q |
| C101 | `C101_run_newton` | P C Q |
| C102 | `C102_false` | P C Q |
| C102 | `C102_count` | P C Q |
| C102 | `C102_exact_count` | P C Q |
| C102 | `C102_partial` | P C Q |
| C102 | `C102_bits` | P C Q |
| C103 | `C103_stable` | P C Q |
| C103 | `C103_firm` | P C Q |
| C103 | `C103_newton` | P C Q |
| C103 | `C103_newton_general` | P C Q |
| C103 | `C103_run` | P C Q |
| C103 | `C103_run_general` | P C Q |
| C103 | `C103_tensor` | P C Q |
| C103 | `C103_run_tidal` | P C Q |
| C103 | `C101_run_tidal` | P C Q |
| C104 | `C104_exists` | P C Q |
| C104 | `C104_unique` | P C Q |
| C104 | `C104_library` | P C Q |
| C105 | `C105_answer` | P Q |
| C105 | `C105_returns` | P C Q |
| C105 | `C105_density` | P C Q |
| C105 | `C105_run` | P C Q |
| C105 | `C105_run_returns` | P C Q |
| C106 | `C106_false` | P C Q |
| C106 | `C106_not_a_number` | P C Q |
| C106 | `C106_partial` | P C Q |
| C106 | `C106_exact` | P C Q |
| C106 | `C106_constructs` | P C Q |
| C106 | `C106_newton` | P C Q |
| C106 | `C106_tensor` | P C Q |
| C106 | `C106_no_nan` | P C Q |
| C106 | `C106_returns` | P C Q |
| C106 | `C106_run` | P C Q |
| C106 | `C106_run_newton` | P C Q |
| C106 | `C106_run_returns` | P C Q |
| C106 | `C106_run_not_a_number` | P C Q |
| C107 | `C107_read` | P Q |
| C107 | `C107_same` | P C Q |
| C108 | `Toy.C108_false` | P C Q |
| C108 | `C108_long` | P Q |
| C108 | `C108_empty` | P Q |
| C108 | `C108_short` | P Q |
| C108 | `C108_run` | P C Q |
| C108 | `C108_exact` | P Q |
| C108 | `C108_exact_numbers` | P Q |
| C109 | `C109_lines` | P C Q |
| C109 | `C109_injective` | P C Q |
| C109 | `C109_not_input` | P C Q |
| C109 | `C109_text` | P C Q |
| C11 | `C11_scaling` | P C Q |
| C110 | `Toy.C110_false` | P C Q |
| C110 | `C110_partial` | P C Q |
| C110 | `C110_exact` | P C Q |
| C110 | `C110_again` | P C Q |
| C110 | `C110_overwritten` | P C Q |
| C111 | `C111_false` | P C Q |
| C111 | `C111_partial` | P C Q |
| C111 | `C111_needed` | P C Q |
| C111 | `C111_shipped` | P C Q |
| C111 | `C111_unused` | P C Q |
| C112 | `C112_field` | P C Q |
| C112 | `C112_tensor` | P C Q |
| C112 | `C112_far` | P C Q |
| C113 | `C113_compare` | P C Q |
| C113 | `C113_part` | P C Q |
| C113 | `C113_plate` | P C Q |
| C113 | `C113_width` | P C Q |
| C113 | `C113_cylinder` | P C Q |
| C113 | `C113_wide` | P C Q |
| C114 | `C114_force` | P C Q |
| C114 | `C114_moment` | P C Q |
| C114 | `C114_mean` | P C Q |
| C114 | `C114_force_error` | P C Q |
| C114 | `C114_mean_error` | P C Q |
| C115 | `C115_flux` | P C Q |
| C115 | `C115_mass` | P C Q |
| C115 | `C115_empty` | P C Q |
| C116 | `C116_field` | P C Q |
| C116 | `C116_tensor` | P C Q |
| C116 | `C116_block` | P C Q |
| C116 | `C116_run` | P C Q |
| C116 | `C116_float` | P C Q |
| C116 | `C116_tensor_float` | P C Q |
| C116 | `C116_run_float` | P C Q |
| C117 | `C117_columns` | P |
| C117 | `C117_lon180` | P C Q |
| C117 | `C117_height` | P C Q |
| C117 | `C117_wgs84` | P C Q |
| C118 | `C118_value` | P C Q |
| C118 | `C118_unique` | P C Q |
| C118 | `C118_source` | P C Q |
| C118 | `C118_parameter` | P C Q |
| C119 | `C119_exact` | P C Q |
| C119 | `C119_parameter` | P C Q |
| C119 | `C119_false` | P C Q |
| C12 | `C12_rotation` | P C Q |
| C120 | `C120_shipped` | P C Q |
| C120 | `C120_config` | P C Q |
| C121 | `C121_grids` | P C Q |
| C121 | `C121_app` | P C Q |
| C121 | `C121_command` | P C Q |
| C121 | `C121_logger` | P C Q |
| C121 | `C121_run` | P C Q |
| C121 | `C121_help` | P C Q |
| C121 | `C121_refused` | P C Q |
| C121 | `C121_unique` | P C Q |
| C121 | `C121_unreadable` | P C Q |
| C121 | `C121_config` | P C Q |
| C121 | `C121_files` | P C Q |
| C122 | `C122_read` | P C Q |
| C122 | `C122_run` | P C Q |
| C122 | `C122_gradient` | P C Q |
| C123 | `C123_first` | P C Q |
| C123 | `C123_gradient` | P C Q |
| C123 | `C123_exact` | P C Q |
| C124 | `C124_run` | P C Q |
| C124 | `C124_gradient` | P C Q |
| C125 | `C125_same` | P C Q |
| C126 | `C126_prisms` | P C Q |
| C127 | `C127_read` | P C Q |
| C127 | `C127_run` | P C Q |
| C127 | `C127_gradient` | P C Q |
| C128 | `C128_zero_step` | P C Q |
| C128 | `C128_behind` | P C Q |
| C128 | `C128_points` | P C Q |
| C128 | `C128_exact` | P C Q |
| C128 | `C128_run` | P C Q |
| C128 | `C128_program` | P C Q |
| C13 | `C13_line_integral` | P C Q |
| C13 | `C13_constructed` | P C Q |
| C13 | `C13_hull` | P C Q |
| C13 | `C13_exact` | P C Q |
| C14 | `C14_antisymmetric` | P C Q |
| C14 | `C14_twin_value` | P C Q |
| C14 | `C14_stored` | P C Q |
| C14 | `C14_stored_gradient` | P C Q |
| C15 | `C15_solid_angle` | P C Q |
| C16 | `C16_newton` | P C Q |
| C16 | `C16_newton_returned` | P C Q |
| C17 | `C17_towards` | P C Q |
| C18 | `C18_tiling` | P C Q |
| C19 | `C19_gradient` | P C Q |
| C19 | `C19_near` | P C Q |
| C19 | `C19_newton` | P C Q |
| C19 | `C19_newton_returned` | P C Q |
| C20 | `C20_laplace` | P C Q |
| C21 | `C21_vertex` | P C Q |
| C21 | `C21_corner` | P C Q |
| C22 | `C22_total` | P C Q |
| C22 | `C22_raises_iff` | P C Q |
| C22 | `C22_gradient` | P C Q |
| C22 | `C22_gradient_iff` | P C Q |
| C23 | `C23_outward_unit_normals` | P C Q |
| C24 | `C24_counter_clockwise` | P C Q |
| C25 | `C25_twins` | P C Q |
| C25 | `C25_no_twin_error` | P C Q |
| C26 | `C26_search_not_entered` | P C Q |
| C26 | `C26_search_raises` | P C Q |
| C27 | `C27_only_longitude` | P |
| C27 | `C27_wrap` | P C Q |
| C27 | `C27_not_normalising` | P C Q |
| C28 | `C28_false` | P C Q |
| C28 | `C28_enu_shift` | P C Q |
| C28 | `C28_partial` | P Q |
| C28 | `C28_exact` | P C Q |
| C29 | `C29_height` | P C Q |
| C30 | `C30_false` | P C Q |
| C30 | `C30_raises` | P |
| C30 | `C30_partial` | P C Q |
| C30 | `C30_exact` | P C Q |
| C31 | `C31_to_ecef` | P Q |
| C31 | `C31_cartesian` | P |
| C31 | `C31_returns` | P Q |
| C32 | `C32_to_wgs84` | P C Q |
| C33 | `C33_false` | P C Q |
| C33 | `C33_enu_ignores_origin` | P |
| C33 | `C33_other_ellipsoid` | P C Q |
| C33 | `C33_partial` | P C Q |
| C33 | `C33_exact` | P C Q |
| C34 | `C34_false` | P C Q |
| C34 | `C34_ecef_to_enu_inconsistent` | P Q |
| C34 | `C34_constructed` | P |
| C34 | `C34_partial` | P |
| C34 | `C34_exact` | P C Q |
| C35 | `C35_false` | P C Q |
| C35 | `C35_partial` | P C Q |
| C35 | `C35_wgs84_partial` | P C Q |
| C35 | `C35_exact` | P C Q |
| C36 | `C36_false_real` | P C Q |
| C36 | `C36_false` | P C Q |
| C36 | `C36_frames` | P C Q |
| C36 | `C36_partial` | P C Q |
| C36 | `C36_exact` | P C Q |
| C37 | `C37_false_real` | P C Q |
| C37 | `C37_false` | P C Q |
| C37 | `C37_first_density` | P C Q |
| C37 | `C37_partial` | P C Q |
| C37 | `C37_newton` | P C Q |
| C37 | `C37_tidal` | P C Q |
| C37 | `C37_exact` | P C Q |
| C38 | `C38_table` | P C Q |
| C39 | `C39_labels` | P C Q |
| C40 | `C40_false` | P C Q |
| C40 | `C40_absent_points` | P |
| C40 | `C40_partial` | P |
| C40 | `C40_points` | P Q |
| C40 | `C40_exact` | P Q |
| C41 | `C41_grid` | P C Q |
| C41 | `C41_zero_step` | P C Q |
| C42 | `C42_precedence` | P Q |
| C42 | `C42_setup` | P Q |
| C42 | `C42_no_mention` | P Q |
| C42 | `C42_no_override` | P Q |
| C43 | `C43_ref` | P C Q |
| C43 | `C43_false` | P C Q |
| C43 | `C43_egm2008_rejected` | P C Q |
| C43 | `C43_partial` | P C Q |
| C43 | `C43_exact` | P C Q |
| C44 | `C44_named` | P |
| C44 | `C44_unknown` | P |
| C44 | `C44_axes` | P |
| C44 | `C44_default` | P Q |
| C44 | `C44_constructor` | P Q |
| C44 | `C44_used` | P C Q |
| C45 | `C45_false` | P C Q |
| C45 | `C45_partial` | P C Q |
| C45 | `C45_exact` | P C Q |
| C46 | `C46_vector_product` | P C Q |
| C46 | `C46_rows` | P Q |
| C46 | `C46_shape` | P |
| C46 | `C46_shape_rows` | P Q |
| C46 | `C46_shape_table` | P C Q |
| C47 | `C47_no_bodies` | P C Q |
| C47 | `C47_no_points` | P C Q |
| C48 | `C48_geometry_unmodified` | P Q |
| C49 | `C49_poisson` | P C Q |
| C50 | `C50_centre` | P C Q |
| C51 | `C51_bound` | P C Q |
| C52 | `C52_false` | P C Q |
| C52 | `C52_int_raises` | P Q |
| C52 | `C52_partial` | P Q |
| C52 | `C52_exact` | P C Q |
| C53 | `C53_false_real` | P C Q |
| C53 | `C53_false` | P C Q |
| C53 | `C53_vdatum_ignored` | P C Q |
| C53 | `C53_partial` | P C Q |
| C53 | `C53_exact` | P C Q |
| C54 | `C54_false_real` | P C Q |
| C54 | `C54_false` | P C Q |
| C54 | `C54_absent_parameter` | P C Q |
| C54 | `C54_partial` | P |
| C54 | `C54_exact` | P |
| C55 | `C55_files` | P C Q |
| C56 | `C56_triangulation` | P C Q |
| C57 | `C57_congruent` | P C Q |
| C58 | `C58_tensor_triangulation` | P C Q |
| C59 | `C59_tensor_scaling` | P C Q |
| C60 | `C60_tensor_congruent` | P C Q |
| C61 | `C61_tensor_tiling` | P C Q |
| C62 | `C62_tidal_integrals` | P C Q |
| C63 | `C63_tensor_bound` | P C Q |
| C64 | `C64_false` | P C Q |
| C64 | `C64_thin_tensor` | P C Q |
| C64 | `C13_thin_tube` | P C Q |
| C64 | `C64_partial` | P C Q |
| C64 | `C64_exact` | P C Q |
| C65 | `C65_copy` | P C Q |
| C65 | `C65_no_directory` | P C Q |
| C65 | `C65_raises` | P C Q |
| C66 | `C66_false` | P C Q |
| C66 | `C66_show` | P C Q |
| C66 | `C66_masses` | P C Q |
| C66 | `C66_observers` | P C Q |
| C66 | `C66_grid` | P C Q |
| C66 | `C66_partial` | P C Q |
| C66 | `C66_exact` | P C Q |
| C66 | `C66_run` | P C Q |
| C67 | `C67_false` | P C Q |
| C67 | `C67_first_body` | P C Q |
| C67 | `C67_observers` | P C Q |
| C67 | `C67_partial` | P C Q |
| C67 | `C67_exact` | P C Q |
| C68 | `C68_false` | P C Q |
| C68 | `C68_complete` | P C Q |
| C68 | `C68_partial` | P C Q |
| C68 | `C68_exact` | P C Q |
| C69 | `C69_newton` | P C Q |
| C69 | `C69_tidal` | P C Q |
| C69 | `C69_cartesian` | P C Q |
| C69 | `C69_returns` | P C Q |
| C70 | `C70_reset_repairs` | P C Q |
| C70 | `C70_session` | P C Q |
| C71 | `C71_false` | P C Q |
| C71 | `C71_poisoned` | P C Q |
| C71 | `C71_partial` | P C Q |
| C71 | `C71_wrong_value` | P C Q |
| C72 | `C72_error` | P C Q |
| C72 | `C72_metres` | P C Q |
| C73 | `C73_point_mass` | P C Q |
| C74 | `C74_precision` | P C Q |
| C74 | `C74_precision_tensor` | P C Q |
| C75 | `C75_edge_line` | P C Q |
| C75 | `C75_false` | P C Q |
| C75 | `C75_partial` | P C Q |
| C76 | `C76_field` | P C Q |
| C76 | `C76_tensor` | P C Q |
| C76 | `C76_newton` | P C Q |
| C77 | `C77_false` | P C Q |
| C77 | `C77_shared_crs` | P C Q |
| C77 | `C77_shared_array` | P C Q |
| C77 | `C77_caller_array` | P |
| C77 | `C77_partial` | P C Q |
| C77 | `C77_exact` | P C Q |
| C78 | `C78_atomic` | P C Q |
| C78 | `C78_proviso` | P |
| C79 | `C79_loop` | P C Q |
| C79 | `C79_masses` | P C Q |
| C79 | `C79_methods` | P C Q |
| C80 | `C80_labels` | P C Q |
| C80 | `C80_false` | P C Q |
| C80 | `C80_partial` | P C Q |
| C80 | `C80_exact` | P C Q |
| C81 | `C81_lp` | P C Q |
| C81 | `C81_centroid` | P C Q |
| C81 | `C81_no_search` | P C Q |
| C82 | `C82_count` | P C Q |
| C82 | `C82_reversed` | P C Q |
| C82 | `C82_even` | P C Q |
| C83 | `C83_effects` | P C Q |
| C83 | `C83_failure` | P C Q |
| C83 | `C83_run_creates` | P C Q |
| C83 | `C83_readonly` | P C Q |
| C84 | `C84_gradient` | P C Q |
| C84 | `C84_work` | P C Q |
| C84 | `C84_closed` | P C Q |
| C84 | `C84_work_error` | P C Q |
| C85 | `C85_continuous` | P C Q |
| C85 | `C85_bounded` | P C Q |
| C86 | `C86_field` | P C Q |
| C86 | `C86_table` | P C Q |
| C86 | `C86_newton` | P C Q |
| C87 | `C87_sequences` | P C Q |
| C87 | `C87_roundtrip` | P C Q |
| C87 | `C87_geodetic` | P C Q |
| C87 | `C87_wgs84` | P C Q |
| C87 | `earth_lawful` | P C Q |
| C88 | `C88_rigid` | P C Q |
| C88 | `C88_up` | P C Q |
| C88 | `C88_axes` | P C Q |
| C88 | `C88_gravity` | P C Q |
| C88 | `C88_same_triangulation` | P C Q |
| C89 | `C89_false` | P C Q |
| C89 | `C89_displaced_partial` | P C Q |
| C89 | `C89_field_partial` | P C Q |
| C90 | `C90_difference` | P C Q |
| C90 | `C90_stable` | P C Q |
| C91 | `C91_centre_of_mass` | P C Q |
| C91 | `centreOfMass_mem` | P C Q |
| C91 | `centreOfMass_spec` | P C Q |
| C92 | `C92_atomic` | P |
| C92 | `C92_types` | P Q |
| C92 | `C92_set_pqr` | P Q |
| C92 | `C92_set_dpqr` | P Q |
| C92 | `C92_set_twin` | P C Q |
| C92 | `C92_reset` | P C Q |
| C93 | `C93_same` | P C Q |
| C93 | `C93_closed` | P C Q |
| C93 | `C93_faces` | P C Q |
| C93 | `C93_station` | P C Q |
| C94 | `C94_outside` | P C Q |
| C94 | `C94_between` | P C Q |
| C94 | `C94_dense` | P C Q |
| C94 | `C94_sphere` | P C Q |
| C94 | `newton_ball` | P C Q |
| C95 | `C95_density` | P C Q |
| C95 | `C95_same` | P C Q |
| C95 | `C95_cavity` | P C Q |
| C95 | `C95_part` | P C Q |
| C95 | `C95_hollow` | P C Q |
| C96 | `C96_field` | P C Q |
| C96 | `C96_tensor` | P C Q |
| C97 | `C97_rows` | P C Q |
| C97 | `C97_split` | P C Q |
| C97 | `C97_bodies` | P C Q |
| C97 | `C97_density` | P C Q |
| C97 | `C97_order` | P C Q |
| C98 | `C98_rate` | P C Q |
| C98 | `C98_roundoff` | P C Q |
| C98 | `C98_newton` | P C Q |
| C98 | `C98_newton_tensor` | P C Q |
| C98 | `C98_run` | P C Q |
| C98 | `C98_run_newton` | P C Q |
| C99 | `C99_show` | P |
| C99 | `C99_partial` | P C Q |
| C99 | `C99_grids` | P C Q |
| C99 | `C99_main` | P C Q |
| C99 | `C99_false` | P C Q |

