import Verif.Props.Cli
import Verif.Props.Config
import Verif.Props.RunLaws
/-
The theorems of Props/Cli and Props/Config applied to concrete cases.
-/
namespace Geec
open Arith

section
attribute [local instance] toyArith

theorem ret_of {α : Type} {x : Except PyErr α} (h : isOkB x = true) : ∃ y, x = .ok y := by
  cases x with
  | ok y => exact ⟨y, rfl⟩
  | error e => cases h

theorem toyGeo_rat_lawful : Toy.geo.Lawful where
  eq_refl e := by simp [Toy.geo]
  eq_ecef _ _ _ := rfl
  eq_enu _ _ _ := rfl
  default_ecef := rfl
  default_enu := rfl
  geodetic_inv _ _ h := by cases h; rfl
  enu_inv _ _ _ _ _ h := by cases h; rfl
  geodetic_enu _ _ _ p _ h := by cases h; exact ⟨p, rfl, rfl⟩

/-- the toy run: its quantities and its two stations -/
theorem toy_stations {r : RunData Rat} (hr : r.Of Toy.geo Toy.outside Toy.hullLib (Toy.config "ecef" "ellps" "egm96")) :
    r.stations.coords.rows = [⟨3, 5, 7⟩, ⟨4, 6, 9⟩] := by
  obtain ⟨h1, -, h3, h4⟩ := toy_observer hr
  rw [C53_vdatum_ignored _ _ _ _ r hr h1 (by simpa using h3) h4]
  have h6 : (match getObserver Toy.geo Toy.outside (Toy.config "ecef" "ellps" "egm96") with
      | .ok ob => decide (ob.dataset.coords.rows = [⟨3, 5, 7⟩, ⟨4, 6, 9⟩])
      | .error _ => false) = true := by decide +kernel
  rw [hr.observer] at h6
  simpa using h6

/-- C38, C39, C36, C37, C53: the run with two bodies in ECEF and two observation points in longitude, latitude and height above a geoid: the table has two lines, each
what one station computes; the first three columns are geographic and hold the configured points; the bodies stay in ECEF; both bodies are computed with the first density -/
example : ∃ (t : Table Rat) (r : RunData Rat), runTable Toy.geo Toy.outside Toy.hullLib (Toy.config "ecef" "ellps" "egm96") true = .ok t ∧
    r.Of Toy.geo Toy.outside Toy.hullLib (Toy.config "ecef" "ellps" "egm96") ∧ t.rows.length = 2 ∧ t.columns.length = 12 ∧
    t.columns.take 3 = geographicColumns ∧ (t.rows[1]?).map (List.take 3) = some [4, 6, 9] ∧
    (∀ m ∈ r.masses, m.dataset.crs.name = .ECEF) ∧ r.stations.crs.name = .ELLPS ∧ r.stations.crs.vdatum = .EGM96 ∧
    ∃ as : List (V3 Rat × M3 Rat), r.polys.map (Call.mk ⟨4, 6, 9⟩ 2 1 true).onNew = as.map .ok ∧ as.length = 2 ∧
      t.rows[1]? = some (lineOf (accumulate (Station.new ⟨4, 6, 9⟩) as)) := by
  obtain ⟨t, ht⟩ := toy_run_returns
  obtain ⟨r, d, Gc, hr, h1, ⟨c, hc, h2⟩, h3⟩ := C38_table _ _ _ _ _ t ht
  have hs := toy_stations hr
  obtain ⟨h4, h5, h6, h7⟩ := toy_observer hr
  obtain ⟨h8, h9⟩ := C36_frames _ toyGeo_rat_lawful _ _ _ r hr (fun h => absurd (h4.symm.trans h) (by decide))
  rw [h4] at h9
  have h10 : r.stations = r.observer.dataset := C53_vdatum_ignored _ _ _ _ r hr h4 (by simpa using h6) h7
  obtain ⟨first, rest, hf, hrow⟩ := C37_first_density _ _ _ _ _ t r ht hr
  obtain ⟨as, h11, h12⟩ := hrow 1 ⟨4, 6, 9⟩ (by rw [hs]; rfl)
  have hm := toy_masses hr
  have h13 : r.configured.map (fun m => (m.density, m.gravityConstant)) = [(2, 1), (5, 1)] := by
    have k : (match getMasses Toy.geo Toy.outside (Toy.config "ecef" "ellps" "egm96") with
        | .ok ms => decide (ms.map (fun m => (m.density, m.gravityConstant)) = [(2, 1), (5, 1)])
        | .error _ => false) = true := by decide +kernel
    rw [hr.configured] at k
    simpa using k
  have hlen : r.polys.length = 2 := by
    rw [← hr.polys.length_eq, ← hr.masses.length_eq, ← List.length_map (f := fun m : Mass Rat => (m.density, m.gravityConstant)), h13]; rfl
  have hfirst : first.density = 2 ∧ first.gravityConstant = 1 := by
    have k := hr.masses
    rw [hf] at k
    obtain ⟨a, b, e⟩ : ∃ a b, r.configured = a :: b := by cases e : r.configured with
      | nil => rw [e] at h13; cases h13
      | cons a b => exact ⟨a, b, rfl⟩
    rw [e] at k h13
    cases k with
    | cons k _ => simp at h13; rw [k.1, k.2.1]; exact h13.1
  obtain ⟨r', hr', h14, h15⟩ := C39_labels _ toyGeo_rat_lawful _ _ _ _ t ht
  refine ⟨t, r, ht, hr, by rw [h1, hs]; rfl, by rw [h2]; simp [hc, resultColumns], ?_, ?_, ?_, by rw [h9]; rfl, by rw [h10]; exact h5, as, ?_, ?_, h12⟩
  · rcases h15 with ⟨_, k, e⟩ | ⟨k, _⟩
    · rw [e, (toy_observer hr').1] at k; cases k
    · exact k
  · have := h3 1 ⟨4, 6, 9⟩ (by rw [hs]; rfl)
    obtain ⟨s, w', -, e, k⟩ := this
    rw [k]
    simp [lineOf, e]
  · intro m' hm'
    obtain ⟨k, hk⟩ := List.getElem?_of_mem hm'
    obtain ⟨m, hm1, hm2⟩ := forall₂_get h8.flip hk
    have : (m.density, m.dataset.crs.name) ∈ r.configured.map (fun m => (m.density, m.dataset.crs.name)) := List.mem_map_of_mem (List.mem_of_getElem? hm1)
    rw [hm] at this
    simp only [List.mem_cons, Prod.mk.injEq, List.not_mem_nil, or_false] at this
    rcases this with h | h <;> (rw [hm2, h.2]; rfl)
  · rw [← hfirst.1, ← hfirst.2]; exact h11
  · have := congrArg List.length h11
    simpa [hlen] using this.symm

/-- C04: the same run without gradient -/
example : ∃ t : Table Rat, runTable Toy.geo Toy.outside Toy.hullLib (Toy.config "ecef" "ellps" "egm96") false = .ok t ∧
    t.rows.length = 2 ∧ ∀ row ∈ t.rows, row.drop 6 = [0, 0, 0, 0, 0, 0] := by
  obtain ⟨t, ht⟩ := ret_of (x := runTable Toy.geo Toy.outside Toy.hullLib (Toy.config "ecef" "ellps" "egm96") false) (by decide +kernel)
  obtain ⟨r, d, Gc, hr, h1, -⟩ := C38_table _ _ _ _ _ t ht
  exact ⟨t, ht, by rw [h1, toy_stations hr]; rfl, C04_run_zero_columns (fun a => add_zero a) _ _ _ _ t ht⟩

/-- C36: bodies and points without reference frame -/
example : ∃ (t : Table Rat) (r : RunData Rat), runTable Toy.geo Toy.outside Toy.hullLib (Toy.config "cart" "cart" "ellps") true = .ok t ∧
    r.Of Toy.geo Toy.outside Toy.hullLib (Toy.config "cart" "cart" "ellps") ∧ r.masses = r.configured ∧ r.stations = r.observer.dataset ∧
    ∀ m ∈ r.masses, m.dataset.crs.name = r.stations.crs.name := by
  obtain ⟨t, ht⟩ := ret_of (x := runTable Toy.geo Toy.outside Toy.hullLib (Toy.config "cart" "cart" "ellps") true) (by decide +kernel)
  obtain ⟨r, -, -, hr, -⟩ := runTable_ok ht
  refine ⟨t, r, ht, hr, C36_partial _ _ _ _ r hr ?_ ?_⟩
  · have k : (match getMasses Toy.geo Toy.outside (Toy.config "cart" "cart" "ellps") with
        | .ok ms => ms.all (fun m => decide (m.dataset.crs.name = .CART))
        | .error _ => false) = true := by decide +kernel
    rw [hr.configured] at k
    simpa using k
  · have k : (match getObserver Toy.geo Toy.outside (Toy.config "cart" "cart" "ellps") with
        | .ok ob => decide (ob.dataset.crs.name = .CART)
        | .error _ => false) = true := by decide +kernel
    rw [hr.observer] at k
    simpa using k

/-- C53: heights above the ellipsoid stay so -/
example : ∃ (t : Table Rat) (r : RunData Rat), runTable Toy.geo Toy.outside Toy.hullLib (Toy.config "ecef" "ellps" "ellps") true = .ok t ∧
    r.Of Toy.geo Toy.outside Toy.hullLib (Toy.config "ecef" "ellps" "ellps") ∧ r.stations.crs.vdatum = .ELLPS := by
  obtain ⟨t, ht⟩ := ret_of (x := runTable Toy.geo Toy.outside Toy.hullLib (Toy.config "ecef" "ellps" "ellps") true) (by decide +kernel)
  obtain ⟨r, -, -, hr, -⟩ := runTable_ok ht
  have k : (match getObserver Toy.geo Toy.outside (Toy.config "ecef" "ellps" "ellps") with
      | .ok ob => decide (ob.dataset.crs.name = .ELLPS ∧ ob.dataset.crs.vdatum = .ELLPS)
      | .error _ => false) = true := by decide +kernel
  rw [hr.observer] at k
  simp only [decide_eq_true_eq] at k
  exact ⟨t, r, ht, hr, C53_partial _ toyGeo_rat_lawful _ _ _ r hr (fun h => absurd (k.1.symm.trans h) (by decide)) k.2⟩

/-- C37: two bodies of the same density: each contributes with its own -/
example : ∃ (t : Table Rat) (r : RunData Rat), runTable Toy.geo Toy.outside Toy.hullLib (View.root [.dict [
      ("masses", .list [Toy.massSection "cart" 2 0, Toy.massSection "cart" 2 10]), ("observers", Toy.observerSection "cart" "ellps")]]) true = .ok t ∧
    r.masses.length = 2 ∧ ∃ as : List (V3 Rat × M3 Rat),
      List.zipWith (fun (m : Mass Rat) q => (Call.mk ⟨3, 5, 7⟩ m.density m.gravityConstant true).onNew q) r.masses r.polys = as.map .ok ∧
      t.rows[0]? = some (lineOf (accumulate (Station.new ⟨3, 5, 7⟩) as)) := by
  generalize hc : View.root [.dict [("masses", .list [Toy.massSection "cart" 2 0, Toy.massSection "cart" 2 10]), ("observers", Toy.observerSection "cart" "ellps")]] = cfg
  obtain ⟨t, ht⟩ := ret_of (x := runTable Toy.geo Toy.outside Toy.hullLib cfg true) (by subst hc; decide +kernel)
  obtain ⟨r, -, -, hr, -⟩ := runTable_ok ht
  have k : (match getMasses Toy.geo Toy.outside cfg with
      | .ok ms => decide (ms.length = 2) && ms.all (fun m => decide (m.dataset.crs.name = .CART ∧ m.density = 2 ∧ m.gravityConstant = 1))
      | .error _ => false) = true := by subst hc; decide +kernel
  have k' : (match getObserver Toy.geo Toy.outside cfg with
      | .ok ob => decide (ob.dataset.crs.name = .CART ∧ ob.dataset.coords.rows[0]? = some ⟨3, 5, 7⟩)
      | .error _ => false) = true := by subst hc; decide +kernel
  rw [hr.configured] at k
  rw [hr.observer] at k'
  simp only [Bool.and_eq_true, decide_eq_true_eq, List.all_eq_true] at k k'
  obtain ⟨e1, e2, -⟩ := C36_partial _ _ _ _ r hr (fun m hm => (k.2 m hm).1) k'.1
  refine ⟨t, r, ht, by rw [e1]; exact k.1, C37_partial _ _ _ _ _ t r ht hr 2 1 (fun m hm => (k.2 m (e1 ▸ hm)).2) 0 ⟨3, 5, 7⟩ (by rw [e2]; exact k'.2)⟩

/-- C55: the table is written to `out/gravity.csv`, and nothing else is -/
example : ∃ t : Table Rat, ∀ fs : Files Rat, (run Toy.geo Toy.outside Toy.hullLib [.dict [
      ("masses", .list [Toy.massSection "ecef" 2 0, Toy.massSection "ecef" 5 10]), ("observers", Toy.observerSection "ellps" "egm96")]] true
      "out".toList "gravity.txt".toList fs).2 "out".toList "gravity.csv".toList = some t ∧
    (run Toy.geo Toy.outside Toy.hullLib [.dict [
      ("masses", .list [Toy.massSection "ecef" 2 0, Toy.massSection "ecef" 5 10]), ("observers", Toy.observerSection "ellps" "egm96")]] true
      "out".toList "gravity.txt".toList fs).2 "out".toList "gravity.txt".toList = fs "out".toList "gravity.txt".toList := by
  obtain ⟨t, ht⟩ := toy_run_returns
  refine ⟨t, fun fs => ?_⟩
  have h0 : runTable Toy.geo Toy.outside Toy.hullLib (View.root [.dict [("masses", .list [Toy.massSection "ecef" 2 0, Toy.massSection "ecef" 5 10]),
    ("observers", Toy.observerSection "ellps" "egm96")]]) true = .ok t := ht
  obtain ⟨-, h2⟩ := C55_files Toy.geo Toy.outside Toy.hullLib [.dict [("masses", .list [Toy.massSection "ecef" 2 0, Toy.massSection "ecef" 5 10]),
    ("observers", Toy.observerSection "ellps" "egm96")]] true "out".toList "gravity.txt".toList fs
  obtain ⟨⟨t', ht', h3⟩, h4⟩ := h2 (writeFile t "out".toList "gravity.txt".toList fs) (by simp only [run, h0])
  rw [h0] at ht'
  cases ht'
  have hn : SuffixReplaced ".csv".toList "gravity.txt".toList "gravity.csv".toList :=
    .inr ⟨"gravity".toList, "txt".toList, by decide, by decide, by decide, by decide, by decide⟩
  simp only [run, h0]
  exact ⟨h3 (.inl (by decide)) _ hn, h4 _ _ fun h => absurd (suffixReplaced_iff.mp h.2) (by decide +kernel)⟩

/-- C45: two outputs without a suffix -/
example (t t' : Table Rat) (fs : Files Rat) :
    writeFile t' "out".toList "b".toList (writeFile t "out".toList "a".toList fs) "out".toList "a.csv".toList = some t := by
  have no : ∀ x : Char, x ≠ '.' → NoSuffix [x] := by
    intro x hx p s e
    cases p with
    | nil => exact .inl rfl
    | cons y p => simp at e
  exact C45_partial t t' "out".toList "a".toList "b".toList fs (by decide) (by decide) (no 'a' (by decide)) (no 'b' (by decide))

/-- C47: no bodies -/
example (fs : Files Rat) : run Toy.geo Toy.outside Toy.hullLib [.dict [("masses", .list []), ("observers", Toy.observerSection "ellps" "egm96")]] true
    "out".toList "a".toList fs = (.error .indexError, fs) :=
  C47_no_bodies _ _ _ _ _ _ _ fs rfl rfl

/-- C54: a body without the key `density` stops the run, also without needing it -/
example : ∃ e, runTable Toy.geo Toy.outside Toy.hullLib (View.root [.dict [("masses", .list [.dict [("gravity_constant", .num false 1), ("points", .null),
    ("file_path", .null), ("crs", Toy.crsSection "cart" "ellps")]]), ("observers", Toy.observerSection "cart" "ellps")]]) true = .error e :=
  C54_absent_parameter Toy.geo Toy.outside Toy.hullLib _ true _ rfl _ (List.mem_singleton.mpr rfl) ["density"] (by decide) rfl

/-- C54: a body with all keys -/
example : configShow (Toy.config "ecef" "ellps" "egm96") = .ok () := by
  have key : ∀ (w : View Rat) (ps : List (List String)), ps.all (fun p => isOkB (w.path p).first) = true → ∀ p ∈ ps, ∃ v, (w.path p).first = .ok v :=
    fun w ps hps p hp => ret_of (List.all_eq_true.mp hps p hp)
  refine C54_partial _ [⟨[.ok (Toy.massSection "ecef" 2 0)]⟩, ⟨[.ok (Toy.massSection "ecef" 5 10)]⟩] rfl ?_ (key _ _ (by decide +kernel))
  intro m hm
  simp only [List.mem_cons, List.not_mem_nil, or_false] at hm
  rcases hm with rfl | rfl <;> exact key _ _ (by decide +kernel)

end

/-- the only file is empty -/
noncomputable def emptyFile : Outside ℝ := ⟨fun _ => true, fun _ => .ok ⟨[], false⟩, Int.ceil⟩

/-- one body; the observation points are in a file -/
noncomputable def pointsInFile : List (Val ℝ) := [.dict [("masses", .list [massVal "cart" 2 ⟨0, 0, 0⟩ ⟨1, 0, 0⟩ ⟨1 / 2, 1 / 2, 0⟩ ⟨0, 0, 1⟩]),
  ("observers", .dict [("points", .null), ("file_path", .str "empty.csv"),
    ("grid", .dict [("xstart_xend_xstep", .null), ("ystart_yend_ystep", .null), ("zstart_zend_zstep", .null)]), ("crs", crsVal "cart" "ellps")])]]

/-- C47: the file of the observation points is empty -/
example (fs : Files ℝ) : run toyGeo emptyFile fourPoints pointsInFile true "out".toList "a".toList fs = (.error .valueError, fs) := by
  obtain ⟨q, hq⟩ := hull_mkPoly_ok halfA_isHull (fourPoints.inHull (readBody (firstHalf 2)).dataset.coords.rows)
  refine C47_no_points _ _ _ _ _ _ _ fs ⟨[readBody (firstHalf 2)], [readBody (firstHalf 2)], [q], mkObserver ⟨⟨[], false⟩, ⟨.CART, none, none, .ELLPS⟩⟩,
    ⟨⟨[], false⟩, ⟨.CART, none, none, .ELLPS⟩⟩⟩ ⟨?_, .cons ⟨rfl, rfl, rfl⟩ .nil, .cons ?_ .nil, ?_, rfl⟩ rfl (by simp) rfl
  · have h2 : ((View.root pointsInFile).at "masses").iter = .ok [⟨[.ok (massVal "cart" 2 ⟨0, 0, 0⟩ ⟨1, 0, 0⟩ ⟨1 / 2, 1 / 2, 0⟩ ⟨0, 0, 1⟩)]⟩] := rfl
    have h4 : readCoords emptyFile ⟨[.ok (massVal "cart" 2 ⟨0, 0, 0⟩ ⟨1, 0, 0⟩ ⟨1 / 2, 1 / 2, 0⟩ ⟨0, 0, 1⟩)]⟩ = .ok ⟨[⟨0, 0, 0⟩, ⟨1, 0, 0⟩, ⟨1 / 2, 1 / 2, 0⟩, ⟨0, 0, 1⟩], false⟩ := rfl
    have h5 : (⟨[.ok (massVal "cart" 2 ⟨0, 0, 0⟩ ⟨1, 0, 0⟩ ⟨1 / 2, 1 / 2, 0⟩ ⟨0, 0, 1⟩)]⟩ : View ℝ).at "crs" = ⟨[.ok (crsVal "cart" "ellps")]⟩ := rfl
    simp only [getMasses, h2, bind, Except.bind, List.mapM_cons, List.mapM_nil, getMass, getDataset, h4, h5, getCrs_plain findMember_cart (.inl rfl)]
    rfl
  · have : fourPoints.convexHull (readBody (firstHalf 2)).dataset.coords.rows = .ok halfA := fourPoints_A
    simp only [polyhedronOf, this, bind, Except.bind]
    exact hq
  · have h4 : readCoords emptyFile ((View.root pointsInFile).at "observers") = .ok ⟨[], false⟩ := rfl
    have h5 : ((View.root pointsInFile).at "observers").at "crs" = ⟨[.ok (crsVal "cart" "ellps")]⟩ := rfl
    simp only [getObserver, getDataset, h4, h5, getCrs_plain findMember_cart (.inl rfl), bind, Except.bind]
    rfl

/-! ### Configuration -/

/-- an argument file with the reference frame of the observers, a user's file with their file, defaults with everything -/
noncomputable def argFile : Val ℝ := .dict [("observers", .dict [("crs", .dict [("ref", .str "enu")])])]
noncomputable def userFile : Val ℝ := .dict [("observers", .dict [("file_path", .str "a.csv"), ("crs", .dict [("ref", .str "ecef")])])]
noncomputable def defaultFile : Val ℝ := .dict [("observers", .dict [("points", .null), ("file_path", .null), ("crs", .dict [("ref", .str "cart"), ("name", .str "airy")])])]

/-- C42 -/
example : ((View.root (setupSources (some argFile) (some userFile) defaultFile)).keys [.name "observers", .name "crs", .name "ref"]).first = .ok (.str "enu") ∧
    ((View.root (setupSources (some argFile) (some userFile) defaultFile)).keys [.name "observers", .name "file_path"]).first = .ok (.str "a.csv") ∧
    ((View.root (setupSources (some argFile) (some userFile) defaultFile)).keys [.name "observers", .name "crs", .name "name"]).first = .ok (.str "airy") :=
  ⟨(C42_setup argFile userFile defaultFile _).1 _ (by simp [argFile, Val.lookup, Val.sub, assoc]),
    (C42_setup argFile userFile defaultFile _).2.1 _ (by simp [argFile, Val.lookup, Val.sub, assoc]) (by simp [userFile, Val.lookup, Val.sub, assoc]),
    (C42_setup argFile userFile defaultFile _).2.2 _ (by simp [argFile, Val.lookup, Val.sub, assoc]) (by simp [userFile, Val.lookup, Val.sub, assoc])
      (by simp [defaultFile, Val.lookup, Val.sub, assoc])⟩

/-- C42: in general, without the argument file, and with another file of lowest priority -/
example : ((View.root [argFile, userFile, defaultFile]).keys [.name "observers", .name "points"]).first = decideBy [.name "observers", .name "points"] [argFile, userFile, defaultFile] ∧
    ((View.root [argFile, userFile, defaultFile]).keys [.name "observers", .name "file_path"]).first =
      ((View.root [userFile, defaultFile]).keys [.name "observers", .name "file_path"]).first ∧
    ((View.root [argFile, userFile, defaultFile]).keys [.name "observers", .name "file_path"]).first =
      ((View.root [argFile, userFile, .str "not a mapping"]).keys [.name "observers", .name "file_path"]).first :=
  ⟨C42_precedence _ _, C42_no_mention [] [userFile, defaultFile] argFile _ (by simp [argFile, Val.lookup, Val.sub, assoc]),
    C42_no_override [argFile] [defaultFile] [.str "not a mapping"] userFile _ (.str "a.csv") (by simp [userFile, Val.lookup, Val.sub, assoc])⟩

/-- a section with coordinates -/
noncomputable def coordSection (points file grid : Val ℝ) : View ℝ := View.root [.dict [("points", points), ("file_path", file), ("grid", grid)]]

/-- files: only `a.csv` exists, with one point -/
noncomputable def oneFile : Outside ℝ := ⟨fun p => p == "a.csv", fun _ => .ok ⟨[⟨1, 2, 3⟩], false⟩, Int.ceil⟩

/-- C40: points are preferred to the file; the file is used when there are no points; a file that does not exist; none of the three; no key `points` -/
example : readCoords oneFile (coordSection (.list [.list [.num true 4, .num false 5, .num true 6], .list [.num true 7, .num true 8, .num true 9]]) (.str "a.csv") .null) =
      .ok ⟨[⟨4, 5, 6⟩, ⟨7, 8, 9⟩], false⟩ ∧
    readCoords oneFile (coordSection (.list []) (.str "a.csv") .null) = .ok ⟨[⟨1, 2, 3⟩], false⟩ ∧
    readCoords oneFile (coordSection .null (.str "b.csv") .null) = .error .fileNotFoundError ∧
    readCoords oneFile (coordSection .null (.str "") .null) = .error .typeError ∧
    readCoords oneFile (View.root [.dict [("file_path", .str "a.csv")]]) = .error .configNotFoundError := by
  have k := fun p f g => C40_partial oneFile (coordSection p f g) p f g rfl rfl rfl
  refine ⟨?_, ?_, ?_, ?_, C40_absent_points _ _ rfl⟩
  · rw [(k _ _ _).1 rfl]
    exact C40_points [(⟨4, 5, 6⟩, true, false, true), (⟨7, 8, 9⟩, true, true, true)]
  · rw [(k _ _ _).2.1 "a.csv" rfl rfl (by decide)]; rfl
  · rw [(k _ _ _).2.1 "b.csv" rfl rfl (by decide)]; rfl
  · exact (k _ _ _).2.2.2 rfl rfl rfl

/-- C40, C41: a grid of 3 × 2 × 1 points; a step of zero -/
example : ∃ c, readCoords oneFile (coordSection .null .null (.dict [("xstart_xend_xstep", .list [.num true 0, .num true 1, .num false (2 / 5)]),
      ("ystart_yend_ystep", .list [.num true 10, .num true 12, .num true 1]), ("zstart_zend_zstep", .list [.num true 5, .num true 6, .num true 1])])) = .ok c ∧
    c.rows.length = 6 ∧ (⟨4 / 5, 11, 5⟩ : V3 ℝ) ∈ c.rows ∧ c.rows.Nodup := by
  rw [(C40_partial oneFile (coordSection _ _ _) .null .null _ rfl rfl rfl).2.2.1 rfl rfl rfl]
  obtain ⟨c, h1, h2, -, h4, h5⟩ := C41_grid oneFile rfl ((coordSection .null .null (.dict [("xstart_xend_xstep", .list [.num true 0, .num true 1, .num false (2 / 5)]),
      ("ystart_yend_ystep", .list [.num true 10, .num true 12, .num true 1]), ("zstart_zend_zstep", .list [.num true 5, .num true 6, .num true 1])])).at "grid")
      0 1 (2 / 5) 10 12 1 5 6 1 _ _ _ _ _ _ _ _ _ rfl rfl rfl (by norm_num) (by norm_num) (by norm_num) (by norm_num) (by norm_num) (by norm_num)
  refine ⟨c, h1, ?_, (h2 _).mpr ⟨2, 1, 0, ?_⟩, h4⟩
  · rw [h5]
    have e1 : ⌈((1 : ℝ) - 0) / (2 / 5)⌉ = 3 := by rw [Int.ceil_eq_iff]; norm_num
    have e2 : ⌈((12 : ℝ) - 10) / 1⌉ = 2 := by rw [Int.ceil_eq_iff]; norm_num
    have e3 : ⌈((6 : ℝ) - 5) / 1⌉ = 1 := by rw [Int.ceil_eq_iff]; norm_num
    rw [e1, e2, e3]; rfl
  · norm_num
example : axisCount oneFile.ceil (0 : ℝ) 1 0 = .error .zeroDivisionError := C41_zero_step oneFile 0 1

/-- a section of a reference frame -/
noncomputable def crsView (ref vdatum name a b : Val ℝ) : View ℝ := View.root [.dict [("ref", ref), ("vdatum", vdatum), ("name", name), ("semimajor_axis", a), ("semiminor_axis", b)]]

/-- C43: names are read in any case; unknown names and EGM2008 are refused; null means the ellipsoid -/
example : readRef (crsView (.str "EnU") .null .null .null .null) = .ok .ENU ∧ readRef (crsView (.str "utm") .null .null .null .null) = .error .configValueError ∧
    readRef (crsView .null .null .null .null .null) = .ok .ELLPS ∧
    readVdatum (crsView .null (.str "Egm96") .null .null .null) = .ok .EGM96 ∧ readVdatum (crsView .null (.str "egm08") .null .null .null) = .ok .EGM08 ∧
    readVdatum (crsView .null (.str "EGM2008") .null .null .null) = .error .configValueError ∧
    readVdatum (crsView .null (.str "nap") .null .null .null) = .error .configValueError ∧ readVdatum (crsView .null .null .null .null .null) = .ok .ELLPS := by
  refine ⟨(C43_ref _).1 "EnU" _ rfl ?_, (C43_ref _).2.1 "utm" rfl (fun n => by cases n <;> decide +kernel), (C43_ref _).2.2 (.inl rfl), (C43_partial _).1 "Egm96" _ rfl ?_ ?_,
    (C43_partial _).2.1 "egm08" rfl ?_, C43_egm2008_rejected _ "EGM2008" rfl ?_, (C43_partial _).2.2.1 "nap" rfl ?_ ?_ ?_ ?_, (C43_partial _).2.2.2 (.inl rfl)⟩ <;>
    decide +kernel

/-- C44: a named ellipsoid, an unknown one, one given by its axes, none; the one named is the one used -/
example : readEllipsoid toyGeo (crsView (.str "ellps") .null (.str "airy") .null .null) = .ok ⟨"airy", "Airy", 5, 4⟩ ∧
    readEllipsoid toyGeo (crsView (.str "ellps") .null (.str "clarke") .null .null) = .error .configValueError ∧
    readEllipsoid toyGeo (crsView (.str "ellps") .null .null (.num true 9) (.num false 8)) = .ok ⟨"", "", 9, 8⟩ ∧
    readEllipsoid toyGeo (crsView (.str "ellps") .null .null (.num true 9) .null) = .ok (wgs84 toyGeo) ∧
    getCrs toyGeo (crsView (.str "ellps") .null (.str "airy") .null .null) = .ok ⟨.ELLPS, some ⟨"airy", "Airy", 5, 4⟩, none, .ELLPS⟩ := by
  have k : ∀ n a b : Val ℝ, CrsValues (crsView (.str "ellps") .null n a b) n a b := fun n a b => ⟨rfl, rfl, rfl⟩
  have h1 := C44_named toyGeo _ "airy" _ _ (k _ .null .null) (by decide) "Airy" 5 4 (by simp [toyGeo, findModel]) rfl
  refine ⟨h1, C44_unknown toyGeo _ "clarke" _ _ (k _ _ _) (by decide) (by simp [toyGeo, findModel]),
    C44_axes toyGeo _ _ _ _ 9 8 (k _ _ _) (.inl rfl) (decide_eq_false (by norm_num : ¬ (9 : ℝ) = 0)) (decide_eq_false (by norm_num : ¬ (8 : ℝ) = 0)) rfl,
    C44_default toyGeo _ _ _ _ (k _ _ _) (.inl rfl) (.inr (.inl rfl)) ("WGS-84", 7, 6) (by simp [toyGeo, findModel]) rfl,
    C44_used toyGeo _ _ _ ((C43_ref _).1 "ellps" _ rfl (by decide +kernel)) ((C43_partial _).2.2.2 (.inl rfl)) h1⟩

end Geec
