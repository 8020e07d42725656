import Verif.Props.WholePrecision
import Verif.Props.PrismRun

/-! The whole program on blocks, from the text of the configuration to the formula of Nagy in the text of the output. -/

namespace Geec
open Arith
noncomputable section

/-- the nine numbers behind the coordinates of a point by the formula of Nagy, for blocks with corners `lo`, `hi` and equal densities -/
def prismColumns (bodies : List (BodyEntry ℝ)) (lo hi : BodyEntry ℝ → V3 ℝ) (ρ Gc : ℝ) (p : V3 ℝ) : List ℝ :=
  let F := fun b => nagyField (lo b).x (hi b).x (lo b).y (hi b).y (lo b).z (hi b).z p
  let T := fun b => nagyTensor (lo b).x (hi b).x (lo b).y (hi b).y (lo b).z (hi b).z p
  [100000 * Gc * ρ * (bodies.map fun b => (F b).x).sum, 100000 * Gc * ρ * (bodies.map fun b => (F b).y).sum, 100000 * Gc * ρ * (bodies.map fun b => (F b).z).sum,
   1000000000 * Gc * ρ * (bodies.map fun b => (T b).r0.x).sum, 1000000000 * Gc * ρ * (bodies.map fun b => (T b).r0.y).sum,
   1000000000 * Gc * ρ * (bodies.map fun b => (T b).r0.z).sum, 1000000000 * Gc * ρ * (bodies.map fun b => (T b).r1.y).sum,
   1000000000 * Gc * ρ * (bodies.map fun b => (T b).r1.z).sum, 1000000000 * Gc * ρ * (bodies.map fun b => (T b).r2.z).sum]

/-- the points of the body are the corners of the block, and perhaps points inside it -/
def IsPrism (b : BodyEntry ℝ) (lo hi : V3 ℝ) : Prop :=
  SpansBlock b.points lo.x hi.x lo.y hi.y lo.z hi.z ∧ BlockPoints b.points lo.x hi.x lo.y hi.y lo.z hi.z

/-- the point is outside the block and apart from the planes of its faces -/
def BesidePrism (b : BodyEntry ℝ) (lo hi : V3 ℝ) (D : ℝ) (p : V3 ℝ) : Prop :=
  SeesBlock b.points lo.x hi.x lo.y hi.y lo.z hi.z D p ∧ p.x ∉ [lo.x, hi.x] ∧ p.y ∉ [lo.y, hi.y] ∧ p.z ∉ [lo.z, hi.z] ∧ p.toP ∉ block lo.x hi.x lo.y hi.y lo.z hi.z

theorem prism_clear {b : BodyEntry ℝ} {lo hi : V3 ℝ} (hb : IsPrism b lo hi) {D : ℝ} {p : V3 ℝ} (hs : BesidePrism b lo hi D p) {h : Hull ℝ} (e : h.points = b.points) (hh : h.IsHull) :
    h.Decided p ∧ h.OffLines p ∧ h.TensorRegular p ∧ p.toP ∉ h.body := by
  obtain ⟨k1, k2, k3, k4, k5⟩ := hs
  obtain ⟨hc, hoff⟩ := SeesBlock.clear hb.1 e hh k1 k2 k3 k4
  have eb : h.body = solidOf b.points := by rw [← e]; rfl
  exact ⟨SeesBlock.decided hb.1 k1 k2 k3 k4 h e hh, SeesBlock.offLines hb.1 k1 k2 k3 k4 e hh, ⟨SeesBlock.regular hb.1 e hh k1, hc, hoff⟩,
    by rw [eb, hb.1.solid]; exact k5⟩

theorem prism_columns {bodies : List (BodyEntry ℝ)} {lo hi : BodyEntry ℝ → V3 ℝ} (hb : ∀ b ∈ bodies, IsPrism b (lo b) (hi b)) {D : ℝ} {p : V3 ℝ}
    (hs : ∀ b ∈ bodies, BesidePrism b (lo b) (hi b) D p) (ρ Gc : ℝ) :
    [100000 * Gc * ρ * bodySum bodies (fun B => (attraction B p).x),
      100000 * Gc * ρ * bodySum bodies (fun B => (attraction B p).y), 100000 * Gc * ρ * bodySum bodies (fun B => (attraction B p).z),
      1000000000 * Gc * ρ * bodySum bodies (fun B => (tidal B p).r0.x), 1000000000 * Gc * ρ * bodySum bodies (fun B => (tidal B p).r0.y),
      1000000000 * Gc * ρ * bodySum bodies (fun B => (tidal B p).r0.z), 1000000000 * Gc * ρ * bodySum bodies (fun B => (tidal B p).r1.y),
      1000000000 * Gc * ρ * bodySum bodies (fun B => (tidal B p).r1.z), 1000000000 * Gc * ρ * bodySum bodies (fun B => (tidal B p).r2.z)] =
    prismColumns bodies lo hi ρ Gc p := by
  have key : ∀ f : V3 ℝ → ℝ, bodySum bodies (fun B => f (attraction B p)) = (bodies.map fun b => f (nagyField (lo b).x (hi b).x (lo b).y (hi b).y (lo b).z (hi b).z p)).sum := by
    intro f
    unfold bodySum
    congr 1
    apply List.map_congr_left
    intro b hb'
    have h := (hb b hb').1
    show f (attraction (solidOf b.points) p) = _
    rw [h.solid, block_attraction h.hx.le h.hy.le h.hz.le]
    rfl
  have key2 : ∀ f : M3 ℝ → ℝ, bodySum bodies (fun B => f (tidal B p)) = (bodies.map fun b => f (nagyTensor (lo b).x (hi b).x (lo b).y (hi b).y (lo b).z (hi b).z p)).sum := by
    intro f
    unfold bodySum
    congr 1
    apply List.map_congr_left
    intro b hb'
    obtain ⟨k1, k2, k3, k4, k5⟩ := hs b hb'
    show f (tidal (solidOf b.points) p) = _
    rw [nagy_tidal (hb b hb').1 k1 k2 k3 k4 k5]
  unfold prismColumns
  rw [key V3.x, key V3.y, key V3.z, key2 (fun T => T.r0.x), key2 (fun T => T.r0.y), key2 (fun T => T.r0.z), key2 (fun T => T.r1.y), key2 (fun T => T.r1.z),
    key2 (fun T => T.r2.z)]

/-- **C126** Blocks, from texts to texts in floating point: the configuration file says blocks of the same density and constant by their corners (in any order, with or without points inside), and observation
points outside them and apart from the planes of their faces.  Then `geec run --gradient` with rounded numbers and operations and any hull library that triangulates the rounded points ends
well, and the line of each observation point in the output has the rounded coordinates and nine numbers within `K δ` of the formula of Nagy. -/
theorem C126_prisms (e : Surroundings ℝ) (hplain : ∀ x, PlainField (e.csv.text x)) {d : Disk} {args : List (List Char)} {v : Val ℚ} {q : Path}
    (hcall : e.Calls d args true v q) {bodies : List (BodyEntry ℝ)} {pts : List (V3 ℝ)} (hsays : SaysRun e d v bodies pts) (hne : bodies ≠ [])
    {ρ Gc : ℝ} (hsame : SameDensity bodies ρ Gc) (lo hi : BodyEntry ℝ → V3 ℝ) (D : ℝ) (hb : ∀ b ∈ bodies, IsPrism b (lo b) (hi b))
    (hs : ∀ b ∈ bodies, ∀ p ∈ pts, BesidePrism b (lo b) (hi b) D p) :
    ∃ K, 0 < K ∧ ∀ (rnd : ℝ → ℝ) (δ : ℝ), 0 < δ → δ ≤ 1 / K → (∀ a, |a| ≤ K → |rnd a - a| ≤ δ * max 1 |a|) →
      ∀ lib : HullLib ℝ, (∀ b ∈ bodies, Triangulates lib rnd b) →
      ∃ d' rows, @geecProgram ℝ (roundArith rnd) (e.rounded rnd lib) args d = some (.done, d') ∧ (∀ r, r ≠ q → d' r = (setupLogger e.install d).2 r) ∧
        d' q = some (.text (linesText e.csv rows)) ∧
        List.Forall₂ (fun p row => NearLine rnd (K * δ) p (prismColumns bodies lo hi ρ Gc p) row) pts rows := by
  obtain ⟨K, hK, key⟩ := C124_gradient e hplain hcall hsays hne hsame (fun b hb' => (hb b hb').1.firm (hb b hb').2.1 (hb b hb').2.2)
    (fun b hb' h e1 e2 p hp => prism_clear (hb b hb') (hs b hb' p hp) e1 e2)
  refine ⟨K, hK, fun rnd δ h1 h2 h3 lib hl => ?_⟩
  obtain ⟨d', rows, k1, k2, k3, k4⟩ := key rnd δ h1 h2 h3 lib hl
  refine ⟨d', rows, k1, k2, k3, ?_⟩
  rw [List.forall₂_iff_get] at k4 ⊢
  refine ⟨k4.1, fun i hi' hi'' => ?_⟩
  have := k4.2 i hi' hi''
  rw [prism_columns hb (fun b hb' => hs b hb' _ (List.get_mem _ _))] at this
  exact this

namespace Whole

/-- a configuration file with a block -/
def cubeFile : List (List Char) := [
  "masses:".toList,
  "  - density: 2".toList,
  "    gravity_constant: 1".toList,
  "    points: [[0, 0, 0], [1, 0, 0], [0, 1, 0], [1, 1, 0], [0, 0, 1], [1, 0, 1], [0, 1, 1], [1, 1, 1]]".toList,
  "    file_path:".toList,
  "    crs:".toList,
  "      ref: cart".toList,
  "      name:".toList,
  "      vdatum:".toList,
  "      semimajor_axis:".toList,
  "      semiminor_axis:".toList,
  "      longitude_origin:".toList,
  "      latitude_origin:".toList,
  "      altitude_origin:".toList,
  "observers:".toList,
  "  points:".toList,
  "  file_path: p.csv".toList,
  "  crs:".toList,
  "    ref: cart".toList,
  "    name:".toList,
  "    vdatum:".toList,
  "    semimajor_axis:".toList,
  "    semiminor_axis:".toList,
  "    longitude_origin:".toList,
  "    latitude_origin:".toList,
  "    altitude_origin:".toList,
  "  grid:".toList,
  "    xstart_xend_xstep:".toList,
  "    ystart_yend_ystep:".toList,
  "    zstart_zend_zstep:".toList]

/-- the corners of the block -/
def cubePts : List (Val ℚ) := [.list [.num true 0, .num true 0, .num true 0], .list [.num true 1, .num true 0, .num true 0], .list [.num true 0, .num true 1, .num true 0], .list [.num true 1, .num true 1, .num true 0], .list [.num true 0, .num true 0, .num true 1], .list [.num true 1, .num true 0, .num true 1], .list [.num true 0, .num true 1, .num true 1], .list [.num true 1, .num true 1, .num true 1]]

/-- what is written in it -/
def cubeValue : List (String × Val ℚ) := [("masses", .list [.dict [("density", .num true 2), ("gravity_constant", .num true 1), ("points", .list cubePts), ("file_path", .null), 
  ("crs", .dict [("ref", .str "cart"), ("name", .null), ("vdatum", .null), ("semimajor_axis", .null), ("semiminor_axis", .null), ("longitude_origin", .null), ("latitude_origin", .null), ("altitude_origin", .null)])]]), 
  ("observers", .dict [("points", .null), ("file_path", .str "p.csv"), 
  ("crs", .dict [("ref", .str "cart"), ("name", .null), ("vdatum", .null), ("semimajor_axis", .null), ("semiminor_axis", .null), ("longitude_origin", .null), ("latitude_origin", .null), ("altitude_origin", .null)]), 
  ("grid", .dict [("xstart_xend_xstep", .null), ("ystart_yend_ystep", .null), ("zstart_zend_zstep", .null)])])]

theorem cubeInline : Inline "[[0, 0, 0], [1, 0, 0], [0, 1, 0], [1, 1, 0], [0, 0, 1], [1, 0, 1], [0, 1, 1], [1, 1, 1]]".toList (.list cubePts) := by
  have := Inline.list _ _ (.cons 0 0 _ _ _ _ (triple_inline n0 n0 n0) (.cons 1 0 _ _ _ _ (triple_inline n1 n0 n0) (.cons 1 0 _ _ _ _ (triple_inline n0 n1 n0) (.cons 1 0 _ _ _ _ (triple_inline n1 n1 n0) (.cons 1 0 _ _ _ _ (triple_inline n0 n0 n1) (.cons 1 0 _ _ _ _ (triple_inline n1 n0 n1) (.cons 1 0 _ _ _ _ (triple_inline n0 n1 n1) (.last 1 0 _ _ (triple_inline n1 n1 n1)))))))))
  rw [show "[[0, 0, 0], [1, 0, 0], [0, 1, 0], [1, 1, 0], [0, 0, 1], [1, 0, 1], [0, 1, 1], [1, 1, 1]]".toList =
    ['[', '[', '0', ',', ' ', '0', ',', ' ', '0', ']', ',', ' ', '[', '1', ',', ' ', '0', ',', ' ', '0', ']', ',', ' ', '[', '0', ',', ' ', '1', ',', ' ', '0', ']', ',', ' ', '[', '1', ',', ' ', '1', ',', ' ', '0', ']', ',', ' ', '[', '0', ',', ' ', '0', ',', ' ', '1', ']', ',', ' ', '[', '1', ',', ' ', '0', ',', ' ', '1', ']', ',', ' ', '[', '0', ',', ' ', '1', ',', ' ', '1', ']', ',', ' ', '[', '1', ',', ' ', '1', ',', ' ', '1', ']', ']'] by decide +kernel]
  simpa [blanks, cubePts] using this

theorem cube_lines : List.Forall₂ YamlLine cubeFile [[(0, "masses:".toList)], [(2, ['-']), (4, "density: 2".toList)], [(4, "gravity_constant: 1".toList)], [(4, "points: [[0, 0, 0], [1, 0, 0], [0, 1, 0], [1, 1, 0], [0, 0, 1], [1, 0, 1], [0, 1, 1], [1, 1, 1]]".toList)], [(4, "file_path:".toList)], [(4, "crs:".toList)], [(6, "ref: cart".toList)], [(6, "name:".toList)], [(6, "vdatum:".toList)], [(6, "semimajor_axis:".toList)], [(6, "semiminor_axis:".toList)], [(6, "longitude_origin:".toList)], [(6, "latitude_origin:".toList)], [(6, "altitude_origin:".toList)], [(0, "observers:".toList)], [(2, "points:".toList)], [(2, "file_path: p.csv".toList)], [(2, "crs:".toList)], [(4, "ref: cart".toList)], [(4, "name:".toList)], [(4, "vdatum:".toList)], [(4, "semimajor_axis:".toList)], [(4, "semiminor_axis:".toList)], [(4, "longitude_origin:".toList)], [(4, "latitude_origin:".toList)], [(4, "altitude_origin:".toList)], [(2, "grid:".toList)], [(4, "xstart_xend_xstep:".toList)], [(4, "ystart_yend_ystep:".toList)], [(4, "zstart_zend_zstep:".toList)]] :=
  (.cons (y_text (by decide +kernel)) (.cons (y_hyphen (i := 2) (by decide +kernel)) (.cons (y_text (by decide +kernel)) (.cons (y_text (by decide +kernel)) (.cons (y_text (by decide +kernel)) (.cons (y_text (by decide +kernel)) (.cons (y_text (by decide +kernel)) (.cons (y_text (by decide +kernel)) (.cons (y_text (by decide +kernel)) (.cons (y_text (by decide +kernel)) (.cons (y_text (by decide +kernel)) (.cons (y_text (by decide +kernel)) (.cons (y_text (by decide +kernel)) (.cons (y_text (by decide +kernel)) (.cons (y_text (by decide +kernel)) (.cons (y_text (by decide +kernel)) (.cons (y_text (by decide +kernel)) (.cons (y_text (by decide +kernel)) (.cons (y_text (by decide +kernel)) (.cons (y_text (by decide +kernel)) (.cons (y_text (by decide +kernel)) (.cons (y_text (by decide +kernel)) (.cons (y_text (by decide +kernel)) (.cons (y_text (by decide +kernel)) (.cons (y_text (by decide +kernel)) (.cons (y_text (by decide +kernel)) (.cons (y_text (by decide +kernel)) (.cons (y_text (by decide +kernel)) (.cons (y_text (by decide +kernel)) (.cons (y_text (by decide +kernel)) .nil))))))))))))))))))))))))))))))

theorem cube_writes : Writes cubeFile (.dict cubeValue) := by
  have h := Block.dict 0 _ _ (List.cons_ne_nil _ _)
    (e_block kw_masses (line := "masses:") (by decide +kernel) (by decide +kernel) (by decide : 0 < 2) (.list 2 _ _ (List.cons_ne_nil _ _) (.item 2 4 _ _ _ _ (by decide) (.dict 4 _ _ (List.cons_ne_nil _ _) (e_inline kw_density (line := "density: 2") (by decide +kernel) n2 (by decide +kernel) (e_inline kw_gravity_constant (line := "gravity_constant: 1") (by decide +kernel) n1 (by decide +kernel) (e_inline kw_points (line := "points: [[0, 0, 0], [1, 0, 0], [0, 1, 0], [1, 1, 0], [0, 0, 1], [1, 0, 1], [0, 1, 1], [1, 1, 1]]") (by decide +kernel) cubeInline (by decide +kernel) (e_null kw_file_path (line := "file_path:") (by decide +kernel) (by decide +kernel) (e_block kw_crs (line := "crs:") (by decide +kernel) (by decide +kernel) (by decide : 4 < 6) (.dict 6 _ _ (List.cons_ne_nil _ _) (e_inline kw_ref (line := "ref: cart") (by decide +kernel) (w_inline w_cart) (by decide +kernel) (e_null kw_name (line := "name:") (by decide +kernel) (by decide +kernel) (e_null kw_vdatum (line := "vdatum:") (by decide +kernel) (by decide +kernel) (e_null kw_semimajor_axis (line := "semimajor_axis:") (by decide +kernel) (by decide +kernel) (e_null kw_semiminor_axis (line := "semiminor_axis:") (by decide +kernel) (by decide +kernel) (e_null kw_longitude_origin (line := "longitude_origin:") (by decide +kernel) (by decide +kernel) (e_null kw_latitude_origin (line := "latitude_origin:") (by decide +kernel) (by decide +kernel) (e_null kw_altitude_origin (line := "altitude_origin:") (by decide +kernel) (by decide +kernel) (.nil 6)))))))))) (.nil 4))))))) (.nil 2))) (e_block kw_observers (line := "observers:") (by decide +kernel) (by decide +kernel) (by decide : 0 < 2) (.dict 2 _ _ (List.cons_ne_nil _ _) (e_null kw_points (line := "points:") (by decide +kernel) (by decide +kernel) (e_inline kw_file_path (line := "file_path: p.csv") (by decide +kernel) (w_inline w_p_csv) (by decide +kernel) (e_block kw_crs (line := "crs:") (by decide +kernel) (by decide +kernel) (by decide : 2 < 4) (.dict 4 _ _ (List.cons_ne_nil _ _) (e_inline kw_ref (line := "ref: cart") (by decide +kernel) (w_inline w_cart) (by decide +kernel) (e_null kw_name (line := "name:") (by decide +kernel) (by decide +kernel) (e_null kw_vdatum (line := "vdatum:") (by decide +kernel) (by decide +kernel) (e_null kw_semimajor_axis (line := "semimajor_axis:") (by decide +kernel) (by decide +kernel) (e_null kw_semiminor_axis (line := "semiminor_axis:") (by decide +kernel) (by decide +kernel) (e_null kw_longitude_origin (line := "longitude_origin:") (by decide +kernel) (by decide +kernel) (e_null kw_latitude_origin (line := "latitude_origin:") (by decide +kernel) (by decide +kernel) (e_null kw_altitude_origin (line := "altitude_origin:") (by decide +kernel) (by decide +kernel) (.nil 4)))))))))) (e_block kw_grid (line := "grid:") (by decide +kernel) (by decide +kernel) (by decide : 2 < 4) (.dict 4 _ _ (List.cons_ne_nil _ _) (e_null kw_xstart_xend_xstep (line := "xstart_xend_xstep:") (by decide +kernel) (by decide +kernel) (e_null kw_ystart_yend_ystep (line := "ystart_yend_ystep:") (by decide +kernel) (by decide +kernel) (e_null kw_zstart_zend_zstep (line := "zstart_zend_zstep:") (by decide +kernel) (by decide +kernel) (.nil 4))))) (.nil 2)))))) (.nil 0)))
  refine ⟨0, _, cube_lines, ?_⟩
  unfold cubeValue
  simpa only [List.flatten_cons, List.flatten_nil, List.cons_append, List.nil_append, List.append_nil] using h

theorem cube_plain : PlainLines cubeFile := by
  have h : cubeFile.all (fun l => l.all fun c => 32 ≤ c.toNat && c.toNat ≤ 126) = true := by decide +kernel
  intro l hl c hc
  have := List.all_eq_true.mp (List.all_eq_true.mp h l hl) c hc
  simp only [Bool.and_eq_true, decide_eq_true_eq] at this
  exact .inl this

/-- what is on the cubeDisk -/
def cubeContents : List (Path × Node) := [([], .dir), (["a".toList], .dir), (["a".toList, "geec".toList], .dir), (["a".toList, "geec".toList, "data".toList], .dir),
  (["a".toList, "geec".toList, "data".toList, "geoids".toList], .dir),
  (["a".toList, "geec".toList, "data".toList, "geoids".toList, "egm2008-2_5.pgm".toList], .text "P5".toList),
  (["a".toList, "geec".toList, "data".toList, "geoids".toList, "egm96-5.pgm".toList], .text "P5".toList),
  (["a".toList, "geec".toList, "data".toList, "geoids".toList, "egm84-15.pgm".toList], .text "P5".toList),
  (["a".toList, "in.yaml".toList], .text (unlines cubeFile)), (["a".toList, "p.csv".toList], .text "2,3,5\n".toList)]

/-- the cubeDisk -/
def cubeDisk : Disk := fun p => (cubeContents.find? (·.1 = p)).map (·.2)

theorem cube_wf : cubeDisk.WF := by
  have h : cubeContents.all (fun x => x.1 == [] || decide (cubeDisk x.1.dropLast = some .dir)) = true := by decide +kernel
  intro p c hp
  rcases hf : cubeContents.find? (·.1 = p ++ [c]) with _ | x
  · exact absurd (by rw [cubeDisk, hf]; rfl) hp
  · have h1 := List.all_eq_true.mp h x (List.mem_of_find?_eq_some hf)
    have h2 : x.1 = p ++ [c] := by simpa using List.find?_some hf
    rw [h2] at h1
    simpa using h1

theorem cube_calls (gr : Bool) : around.Calls cubeDisk (theWords (if gr then "--gradient" else "--no-gradient")) gr (.dict cubeValue) ["a".toList, "out.csv".toList] where
  disk := cube_wf
  top := by decide +kernel
  grids := by
    intro n hn
    refine ⟨"P5".toList, ?_, by decide +kernel⟩
    simp only [List.mem_cons, List.not_mem_nil, or_false] at hn
    show cubeDisk (["a".toList] ++ ["geec".toList, "data".toList, "geoids".toList, n]) = some (.text "P5".toList)
    rcases hn with rfl | rfl | rfl <;> decide +kernel
  logger := by
    have h : isOkB (setupLogger install cubeDisk).1 = true := by decide +kernel
    show (setupLogger install cubeDisk).1 = .ok ()
    rcases hh : (setupLogger install cubeDisk).1 with e | u
    · rw [hh] at h; cases h
    · rfl
  other := by
    have h1 : cubeDisk ["home".toList, "config.yaml".toList] = none := by decide +kernel
    have h2 : cubeDisk (install.cfg ++ ["config_default.yaml".toList]) = none := by decide +kernel
    refine ⟨.dict [], .dict [], .missing fun t h => ?_, .missing fun t h => ?_, ?_, ?_⟩
    · exact absurd (h1.symm.trans h) (by simp)
    · exact absurd (h2.symm.trans h) (by simp)
    · show ["home".toList, "config.yaml".toList] ≠ install.logFile
      decide +kernel
    · show install.cfg ++ ["config_default.yaml".toList] ≠ install.logFile
      decide +kernel
  words := by
    refine ⟨["--gradient".toList, "out.txt".toList, "--config=in.yaml".toList, (if gr then "--gradient" else "--no-gradient").toList],
      [("--gradient".toList, []), ("--config".toList, "in.yaml".toList), ((if gr then "--gradient" else "--no-gradient").toList, [])], "out.txt".toList, "in.yaml".toList,
      cubeFile, cubeValue, .inl rfl, ?_, ?_, ?_, ?_, by decide +kernel, ?_, ?_, cube_plain, rfl, cube_writes, by decide +kernel, ?_⟩
    · refine .flag _ _ _ _ (by simp) (.operand _ _ _ _ rfl (.inl (by decide +kernel)) ?_)
      rw [show "--config=in.yaml".toList = "--config".toList ++ '=' :: "in.yaml".toList by decide +kernel]
      refine .attached _ _ _ _ _ (by simp) (.flag _ _ _ _ ?_ .nil)
      cases gr <;> simp
    · rintro ⟨v, hv⟩
      simp only [List.mem_cons, List.not_mem_nil, or_false, Prod.mk.injEq] at hv
      rcases hv with ⟨h, -⟩ | ⟨h, -⟩ | ⟨h, -⟩
      · exact absurd h (by decide +kernel)
      · exact absurd h (by decide +kernel)
      · cases gr
        · exact absurd h (by decide +kernel)
        · exact absurd h (by decide +kernel)
    · refine .inl ⟨[("--gradient".toList, [])], [((if gr then "--gradient" else "--no-gradient").toList, [])], rfl, fun w hw => ?_⟩
      simp only [List.mem_cons, List.not_mem_nil, or_false, Prod.mk.injEq] at hw
      cases gr
      · exact absurd hw.1 (by decide +kernel)
      · exact absurd hw.1 (by decide +kernel)
    · cases gr
      · refine ⟨fun h => (by cases h), ?_⟩
        intro h
        have h' := (gradient_iff _).mp h
        exact absurd h' (by decide +kernel)
      · refine ⟨fun _ => ⟨[("--gradient".toList, []), ("--config".toList, "in.yaml".toList)], [], [], rfl, by simp⟩, fun _ => rfl⟩
    · show ["a".toList, (String.ofList "in.yaml".toList).toList] ≠ install.logFile
      decide +kernel
    · show cubeDisk ["a".toList, (String.ofList "in.yaml".toList).toList] = some (.text (unlines cubeFile))
      decide +kernel
    · exact pathSuffixReplaced_iff.mpr (by rfl)
  place := by decide +kernel
  free := by
    refine ⟨by decide +kernel, ?_⟩
    show ¬ ["a".toList, "out.csv".toList] <+: install.logdir
    decide +kernel
  writable := rfl



/-- the block -/
noncomputable def cubeBody : BodyEntry ℝ := ⟨2, 1, cubePoints⟩

theorem cube_says : SaysRun around cubeDisk (.dict cubeValue) [cubeBody] [⟨2, 3, 5⟩] where
  masses := by
    refine ⟨_, rfl, .cons ?_ .nil⟩
    refine ⟨⟨?_, ⟨"cart", rfl, cart_upper⟩, ?_⟩, ⟨true, 2, rfl, ?_⟩, ⟨true, 1, rfl, ?_⟩, ⟨.null, rfl⟩⟩
    · have := SaysPoints.listed (e := around) (d := cubeDisk) (v := ?_) cubePts [⟨0, 0, 0⟩, ⟨1, 0, 0⟩, ⟨0, 1, 0⟩, ⟨1, 1, 0⟩, ⟨0, 0, 1⟩, ⟨1, 0, 1⟩, ⟨0, 1, 1⟩, ⟨1, 1, 1⟩] ?_ ?_ (by simp)
      · simpa [cubeBody, cubePoints, around] using this
      · rfl
      · exact .cons ⟨_, _, _, rfl⟩ (.cons ⟨_, _, _, rfl⟩ (.cons ⟨_, _, _, rfl⟩ (.cons ⟨_, _, _, rfl⟩ (.cons ⟨_, _, _, rfl⟩ (.cons ⟨_, _, _, rfl⟩ (.cons ⟨_, _, _, rfl⟩
          (.cons ⟨_, _, _, rfl⟩ .nil)))))))
    · intro p hp
      simp only [List.mem_cons, List.not_mem_nil, or_false] at hp
      rcases hp with rfl | rfl | rfl | rfl | rfl | rfl | rfl | rfl <;> exact ⟨_, rfl⟩
    · simp [cubeBody, around]
    · simp [cubeBody, around]
  observers := by
    refine ⟨_, rfl, ⟨?_, ⟨"cart", rfl, cart_upper⟩, ?_⟩, ?_⟩
    · refine SaysPoints.file (e := around) (d := cubeDisk) "p.csv" [(.row [.plain ['2'], .plain ['3'], .plain ['5']], .lf)] (.blank []) [(⟨2, 3, 5⟩, true)] rfl rfl (by decide +kernel)
        ?_ ?_ (by decide +kernel) (by decide +kernel) (.cons ?_ .nil) (by simp)
      · show cubeDisk ["a".toList, "p.csv".toList] = _
        decide +kernel
      · show ["a".toList, "p.csv".toList] ≠ install.logFile
        decide +kernel
      · refine ⟨['2'], ['3'], ['5'], true, true, true, rfl, ?_, ?_, ?_, rfl⟩ <;> simp only [around] <;> rw [if_pos (by decide)] <;> norm_num [digitOf, show '2'.toNat = 50 from rfl, show '3'.toNat = 51 from rfl, show '5'.toNat = 53 from rfl]
    · intro p hp
      simp only [List.mem_cons, List.not_mem_nil, or_false] at hp
      rcases hp with rfl | rfl | rfl | rfl | rfl | rfl | rfl | rfl <;> exact ⟨_, rfl⟩
    · intro p hp
      simp only [List.mem_cons, List.not_mem_nil, or_false] at hp
      rcases hp with rfl | rfl | rfl <;> exact ⟨_, rfl⟩

theorem cube_prism : IsPrism cubeBody ⟨0, 0, 0⟩ ⟨1, 1, 1⟩ := by
  refine ⟨⟨by norm_num, by norm_num, by norm_num, ?_, ?_⟩, by simp [cubeBody, cubePoints], fun p hp => .inl ?_⟩
  · intro x hx y hy z hz
    simp only [List.mem_cons, List.not_mem_nil, or_false] at hx hy hz
    rcases hx with rfl | rfl <;> rcases hy with rfl | rfl <;> rcases hz with rfl | rfl <;> simp [cubeBody, cubePoints]
  · intro p hp
    simp only [cubeBody, cubePoints, List.mem_cons, List.not_mem_nil, or_false] at hp
    rcases hp with rfl | rfl | rfl | rfl | rfl | rfl | rfl | rfl <;> norm_num
  · simp only [cubeBody, cubePoints, List.mem_cons, List.not_mem_nil, or_false] at hp
    rcases hp with rfl | rfl | rfl | rfl | rfl | rfl | rfl | rfl <;> simp

theorem apart_seven {u c : ℝ} (h : 1 ≤ |u - c|) : Apart 7 u c := by
  have e1 : repsilon < 1 := by unfold repsilon; norm_num
  have e2 : 2 * repsilon * 7 < 1 ^ 2 := by unfold repsilon; norm_num
  refine .inr ⟨by linarith, ?_⟩
  rw [← sq_abs]
  exact e2.trans_le (pow_le_pow_left₀ (by norm_num) h 2)

theorem cube_beside : BesidePrism cubeBody ⟨0, 0, 0⟩ ⟨1, 1, 1⟩ 7 ⟨2, 3, 5⟩ := by
  refine ⟨⟨?_, ?_, ?_, ?_⟩, by norm_num, by norm_num, by norm_num, fun h => ?_⟩
  · intro p hp
    obtain ⟨a1, a2, a3, a4, a5, a6⟩ := cube_prism.1.inside p hp
    unfold vlen
    apply Real.sqrt_le_iff.mpr ⟨by norm_num, ?_⟩
    simp only [rdot, sub_x, sub_y, sub_z]
    nlinarith
  · intro c hc
    simp only [List.mem_cons, List.not_mem_nil, or_false] at hc
    rcases hc with rfl | rfl <;> apply apart_seven <;> norm_num
  · intro c hc
    simp only [List.mem_cons, List.not_mem_nil, or_false] at hc
    rcases hc with rfl | rfl <;> apply apart_seven <;> norm_num [abs_of_pos]
  · intro c hc
    simp only [List.mem_cons, List.not_mem_nil, or_false] at hc
    rcases hc with rfl | rfl <;> apply apart_seven <;> norm_num [abs_of_pos]
  · have h2 : (2 : ℝ) ≤ 1 := h.1.2
    norm_num at h2

open Classical in
/-- a hull library for this block -/
noncomputable def cubeLib : HullLib ℝ where
  convexHull := fun pts => if pts = cubePoints then .ok (Classical.choose (hull_of_firm cube_firm)) else .error .valueError
  inHull := fun _ _ => false

theorem cube_triangulated (n : ℕ) : ∀ b ∈ [cubeBody], Triangulates cubeLib (fixed n) b := by
  intro b hb
  obtain rfl : b = cubeBody := by simpa using hb
  have h0 : fixed n 0 = 0 := by simpa using fixed_int n 0
  have h1 : fixed n 1 = 1 := by simpa using fixed_int n 1
  have e : cubeBody.points.map (V3.rounded (fixed n)) = cubePoints := by
    simp only [cubeBody, cubePoints, List.map_cons, List.map_nil, V3.rounded, h0, h1]
  obtain ⟨k1, k2, k3⟩ := Classical.choose_spec (hull_of_firm cube_firm)
  unfold Triangulates
  rw [e]
  exact ⟨_, if_pos rfl, k1, k2, k3⟩

/-- C126: the program computes the field of the block with `n` binary digits behind the point; its Gz and its tzz are right up to `K / 2 ^ n` -/
example : ∃ K, 0 < K ∧ ∀ n : ℕ, K ≤ 2 ^ n → ∃ d' row G T,
    @geecProgram ℝ (roundArith (fixed n)) (around.rounded (fixed n) cubeLib) (theWords "--gradient") cubeDisk = some (.done, d') ∧
    d' ["a".toList, "out.csv".toList] = some (.text (linesText around.csv [row])) ∧ row[5]? = some G ∧ row[11]? = some T ∧
    |G - 100000 * 1 * 2 * (nagyField 0 1 0 1 0 1 ⟨2, 3, 5⟩).z| ≤ K / 2 ^ n ∧ |T - 1000000000 * 1 * 2 * (nagyTensor 0 1 0 1 0 1 ⟨2, 3, 5⟩).r2.z| ≤ K / 2 ^ n := by
  obtain ⟨K, hK, key⟩ := C126_prisms around whole_text (cube_calls true) cube_says (List.cons_ne_nil _ _) (ρ := 2) (Gc := 1) (fun b hb => by
    obtain rfl : b = cubeBody := by simpa using hb
    exact ⟨rfl, rfl⟩) (fun _ => ⟨0, 0, 0⟩) (fun _ => ⟨1, 1, 1⟩) 7 (fun b hb => by
    obtain rfl : b = cubeBody := by simpa using hb
    exact cube_prism) (fun b hb p hp => by
    obtain rfl : b = cubeBody := by simpa using hb
    obtain rfl : p = ⟨2, 3, 5⟩ := by simpa using hp
    exact cube_beside)
  refine ⟨K, hK, fun n hKn => ?_⟩
  have h2 : (0 : ℝ) < 2 ^ n := by positivity
  obtain ⟨d', rows, h1, -, h3, h4⟩ := key (fixed n) (1 / 2 ^ n) (by positivity) (one_div_le_one_div_of_le hK hKn)
    (fun a _ => (fixed_near n a).trans (le_mul_of_one_le_right (by positivity) (le_max_left _ _))) cubeLib (cube_triangulated n)
  rcases h4 with _ | ⟨⟨xs, rfl, h5⟩, h'⟩
  cases h'
  unfold prismColumns at h5
  rcases h5 with _ | ⟨-, _ | ⟨-, _ | ⟨h6, _ | ⟨-, _ | ⟨-, _ | ⟨-, _ | ⟨-, _ | ⟨-, _ | ⟨h7, -⟩⟩⟩⟩⟩⟩⟩⟩⟩
  refine ⟨d', _, _, _, h1, h3, rfl, rfl, ?_, ?_⟩
  · rw [mul_one_div] at h6; simpa using h6
  · rw [mul_one_div] at h7; simpa using h7

end Whole

end
end Geec
