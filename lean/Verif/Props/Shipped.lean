import Verif.Model.Shipped
import Verif.Props.Config
import Verif.Props.Cli
/-
C65 – C68: the `geec config` command, the shipped configuration files, and how they combine with the user's file.
-/
namespace Geec
open Arith
set_option linter.unusedSectionVars false
set_option linter.unusedSimpArgs false
variable {S : Type} [Arith S]

/-! ### C65: `geec config` -/

/-- the file that `geec config` writes: the output path with the extension of its name (if any) replaced by `.yaml` -/
def ConfigTarget (cwd : List (List Char)) (output : Option (List (List Char))) (p : List (List Char)) : Prop :=
  (output = none ∧ p = cwd ++ ["config_template.yaml".toList]) ∨
  (∃ dir name, output = some (dir ++ [name]) ∧ '.' ∉ name ∧ p = dir ++ [name ++ ".yaml".toList]) ∨
  ∃ dir base ext, output = some (dir ++ [base ++ '.' :: ext]) ∧ base ≠ [] ∧ ext ≠ [] ∧ '.' ∉ ext ∧
    p = dir ++ [base ++ ".yaml".toList]

theorem configCmd_target {setupErr : Option PyErr} {pkg cwd p : List (List Char)} {output : Option (List (List Char))}
    (d : Disk) (h : ConfigTarget cwd output p) : configCmd setupErr pkg cwd output d =
      match setupErr with
      | some e => (.error e, d)
      | none => match readText (pkg ++ ["config_template.yaml".toList]) d with
        | .error e => (.error e, d)
        | .ok c => writeText p c d := by
  rcases h with ⟨rfl, rfl⟩ | ⟨dir, name, rfl, h, rfl⟩ | ⟨dir, base, ext, rfl, hb, he, hd, rfl⟩
  · rfl
  · simp only [configCmd, withSuffix, List.getLast?_append, List.getLast?_singleton, Option.some_or, stem_of_no_dot h,
      List.dropLast_concat]
    rfl
  · simp only [configCmd, withSuffix, List.getLast?_append, List.getLast?_singleton, Option.some_or,
      stem_of_ext hb he hd, List.dropLast_concat]
    rfl

/-- **C65.** `geec config` writes a copy of the package's template to the output path with extension `.yaml`
(`config_template.yaml` in the working directory by default), replacing a file of that name, and changes nothing else. -/
theorem C65_copy (pkg cwd dir : List (List Char)) (name c : List Char) (output : Option (List (List Char))) (d : Disk)
    (ht : ConfigTarget cwd output (dir ++ [name])) (hc : d (pkg ++ ["config_template.yaml".toList]) = some (.text c))
    (hdir : d dir = some .dir) (hp : d (dir ++ [name]) ≠ some .dir) :
    ∃ d', configCmd none pkg cwd output d = (.ok (), d') ∧ d' (dir ++ [name]) = some (.text c) ∧
      ∀ q, q ≠ dir ++ [name] → d' q = d q := by
  rw [configCmd_target d ht]
  simp only [readText, hc, writeText, List.dropLast_concat, hdir, if_neg hp]
  exact ⟨_, rfl, by simp, fun q hq => by simp [hq]⟩

/-- **C65.** The directory of the output is not created: `FileNotFoundError` if it does not exist. -/
theorem C65_no_directory (pkg cwd dir : List (List Char)) (name c : List Char) (output : Option (List (List Char)))
    (d : Disk) (ht : ConfigTarget cwd output (dir ++ [name]))
    (hc : d (pkg ++ ["config_template.yaml".toList]) = some (.text c)) (hdir : d dir = none) :
    configCmd none pkg cwd output d = (.error .fileNotFoundError, d) := by
  rw [configCmd_target d ht]
  simp only [readText, hc, writeText, List.dropLast_concat, hdir]

/-- **C65.** If `geec config` raises, no file has changed. -/
theorem C65_raises (setupErr : Option PyErr) (pkg cwd : List (List Char)) (output : Option (List (List Char)))
    (d d' : Disk) (e : PyErr) (h : configCmd setupErr pkg cwd output d = (.error e, d')) : d' = d := by
  revert h
  simp only [configCmd, writeText]
  repeat' split
  all_goals simp_all

/-- `geec config --output out/my.conf` in a file system with a package and a directory: all hypotheses of C65 hold -/
example : ∃ d : Disk, ConfigTarget [] (some (["out".toList] ++ ["my".toList ++ '.' :: "conf".toList]))
      (["out".toList] ++ ["my.yaml".toList]) ∧
    d (["pkg".toList] ++ ["config_template.yaml".toList]) = some (.text ['x']) ∧ d ["out".toList] = some .dir ∧
    d (["out".toList] ++ ["my.yaml".toList]) ≠ some .dir ∧ d ["elsewhere".toList] = none ∧
    ConfigTarget [] (some (["elsewhere".toList] ++ ["a".toList])) (["elsewhere".toList] ++ ["a.yaml".toList]) := by
  refine ⟨fun p => if p = ["out".toList] ∨ p = ["pkg".toList] then some .dir
    else if p = ["pkg".toList, "config_template.yaml".toList] then some (.text ['x']) else none,
    .inr (.inr ⟨_, _, _, rfl, ?_, ?_, ?_, rfl⟩), ?_, ?_, ?_, ?_, .inr (.inl ⟨_, _, rfl, ?_, rfl⟩)⟩ <;> decide +kernel

/-- a run of the command that raises -/
example : configCmd (some .configTypeError) [] [] none (fun _ => none) = (.error .configTypeError, fun _ => none) := rfl

/-! ### C66: the template is a complete configuration -/

/-- the mass body described by the template: the cube, geographic coordinates on WGS84 -/
def templateMass (lit : Rat → S) (w : Ell S) : Mass S :=
  ⟨lit 1000, lit shippedConstant, ⟨⟨templateCube lit, false⟩, ⟨.ELLPS, some w, none, .ELLPS⟩⟩⟩

/-- the `crs` section of the template's mass body -/
def templateCrs : Val S := .dict [
  ("ref", .str "ellps"), ("name", .null), ("semimajor_axis", .null), ("semiminor_axis", .null),
  ("longitude_origin", .null), ("latitude_origin", .null), ("altitude_origin", .null), ("vdatum", .null)]

/-- the entry of the template's mass body -/
def templateMassVal (lit : Rat → S) : Val S := .dict [
  ("points", .list ((templateCube lit).map (fun p => .list [.num false p.x, .num false p.y, .num false p.z]))),
  ("file_path", .str "/path/to/file/cube.csv"),
  ("density", .num false (lit 1000)),
  ("gravity_constant", .num false (lit shippedConstant)),
  ("crs", templateCrs)]

/-- a source says nothing about the vertical datum of the observers -/
def Silent (src : Val S) : Prop := src.lookup [.name "observers", .name "crs", .name "vdatum"] = .missing

/-- The full statement of C66: with the template as configuration file, the bodies and observers that are read do not
depend on the user's file and the defaults. -/
def C66_statement (S : Type) [Arith S] : Prop :=
  ∀ (lit : Rat → S) (g : Geodesy S) (o : Outside S) (user user' : Option (Val S)) (dflt dflt' : Val S),
    getMasses g o (View.root (setupSources (some (shippedTemplate lit)) user dflt)) =
      getMasses g o (View.root (setupSources (some (shippedTemplate lit)) user' dflt')) ∧
    getObserver g o (View.root (setupSources (some (shippedTemplate lit)) user dflt)) =
      getObserver g o (View.root (setupSources (some (shippedTemplate lit)) user' dflt'))

variable (lit : Rat → S) (g : Geodesy S) (o : Outside S) (user : Option (Val S)) (dflt : Val S)

/-- **C66.** With the template as configuration file every parameter is present, whatever the other files are. -/
theorem C66_show : configShow (View.root (setupSources (some (shippedTemplate lit)) user dflt)) = .ok () := by
  rfl

theorem bind_of_ok {ε α β : Type} (a : α) (f : α → Except ε β) : (Except.ok a >>= f) = f a := rfl

/-- the body read from the template's entry -/
theorem getMass_template (model : String) (a b : S) (hm : findModel "wgs84" g.models = some (model, a, b))
    (he : g.ellipsoidErr a b = none) (rest : List (Except PyErr (Val S))) :
    getMass g o ⟨.ok (templateMassVal lit) :: rest⟩ = .ok (templateMass lit ⟨"wgs84", model, a, b⟩) := by
  have h1 : ∀ rest : List (Except PyErr (Val S)), getCrs g ⟨.ok templateCrs :: rest⟩ =
      .ok ⟨.ELLPS, some ⟨"wgs84", model, a, b⟩, none, .ELLPS⟩ := by
    intro rest
    have hr : readRef (⟨.ok templateCrs :: rest⟩ : View S) = .ok .ELLPS := by
      have : findMember "ellps".toUpper crsMembers = some .ELLPS := by decide +kernel
      have h2 : ((⟨.ok templateCrs :: rest⟩ : View S).at "ref").getOptStr "ellps" = .ok "ellps" := rfl
      simp only [readRef, h2, bind_of_ok, this]; rfl
    have hv : readVdatum (⟨.ok templateCrs :: rest⟩ : View S) = .ok .ELLPS := by
      have : findMember "ellps".toUpper vdatumMembers = some .ELLPS := by decide +kernel
      have h2 : ((⟨.ok templateCrs :: rest⟩ : View S).at "vdatum").getOptStr "ellps" = .ok "ellps" := rfl
      simp only [readVdatum, h2, bind_of_ok, this]; rfl
    have hn : readEllipsoidParameters g (⟨.ok templateCrs :: rest⟩ : View S) = .ok (none, .null, .null) := rfl
    simp only [getCrs, hr, bind_of_ok, createEllipsoidCrs, hn, hv]
    simp [mkEllipsoid, Val.truthy, hm, pmEllipsoid, he, mkCrs, bind_of_ok]
  have h4 : readCoords o ⟨.ok (templateMassVal lit) :: rest⟩ = .ok ⟨templateCube lit, false⟩ := rfl
  have h5 : (⟨.ok (templateMassVal lit) :: rest⟩ : View S).at "crs" =
    ⟨.ok templateCrs :: resolveKey (.name "crs") rest⟩ := rfl
  simp only [getMass, getDataset, h4, h5, h1, bind_of_ok]
  rfl

/-- **C66.** The mass bodies read are exactly the cube of the template, whatever the other files are. -/
theorem C66_masses (model : String) (a b : S) (hm : findModel "wgs84" g.models = some (model, a, b))
    (he : g.ellipsoidErr a b = none) :
    getMasses g o (View.root (setupSources (some (shippedTemplate lit)) user dflt)) =
      .ok [templateMass lit ⟨"wgs84", model, a, b⟩] := by
  have h2 : ∃ rest : List (Except PyErr (Val S)), ((View.root (setupSources (some (shippedTemplate lit)) user dflt)).at
      "masses").iter = .ok [⟨.ok (templateMassVal lit) :: rest⟩] := ⟨_, rfl⟩
  obtain ⟨rest, h2⟩ := h2
  simp only [getMasses, h2, bind_of_ok, List.mapM_cons, List.mapM_nil, getMass_template lit g o model a b hm he]
  rfl

/-- the observers described by the template: the grid, geographic coordinates on WGS84 -/
def templateObserver (lit : Rat → S) (o : Outside S) (w : Ell S) : Except PyErr (Observer S) := do
  return mkObserver ⟨← readGrid o ⟨[.ok (shippedGrid lit)]⟩, ⟨.ELLPS, some w, none, .ELLPS⟩⟩

theorem silent_vdatum {sources : List (Val S)} (h : ∀ src ∈ sources, Silent src) :
    ((((View.root sources).at "observers").at "crs").at "vdatum").first = .error .configNotFoundError := by
  have h1 := C42_precedence sources [.name "observers", .name "crs", .name "vdatum"]
  refine Eq.trans h1 ?_
  induction sources with
  | nil => rfl
  | cons s rest ih =>
    have hs : s.lookup [.name "observers", .name "crs", .name "vdatum"] = .missing := h s (by simp)
    simp only [decideBy, hs]
    exact ih (fun x hx => h x (by simp [hx])) (C42_precedence rest _)

/-- what is read for the observers of the template, given how their vertical datum is read -/
theorem template_observers (model : String) (a b : S) (hm : findModel "wgs84" g.models = some (model, a, b))
    (he : g.ellipsoidErr a b = none) (v : VDatum)
    (hv : readVdatum (((View.root (setupSources (some (shippedTemplate lit)) user dflt)).at "observers").at "crs") = .ok v) :
    getObserver g o (View.root (setupSources (some (shippedTemplate lit)) user dflt)) =
      (do return mkObserver ⟨← readGrid o ⟨[.ok (shippedGrid lit)]⟩,
        ⟨.ELLPS, some ⟨"wgs84", model, a, b⟩, none, v⟩⟩) := by
  generalize hW : View.root (setupSources (some (shippedTemplate lit)) user dflt) = W at hv ⊢
  have h1 : readCoords o (W.at "observers") = readGrid o ⟨[.ok (shippedGrid lit)]⟩ := by rw [← hW]; rfl
  have hr : readRef ((W.at "observers").at "crs") = .ok .ELLPS := by
    have : findMember "ellps".toUpper crsMembers = some .ELLPS := by decide +kernel
    have h2 : (((W.at "observers").at "crs").at "ref").getOptStr "ellps" = .ok "ellps" := by rw [← hW]; rfl
    simp only [readRef, h2, bind_of_ok, this]; rfl
  have hn : readEllipsoidParameters g ((W.at "observers").at "crs") = .ok (none, .null, .null) := by rw [← hW]; rfl
  have hc : getCrs g ((W.at "observers").at "crs") = .ok ⟨.ELLPS, some ⟨"wgs84", model, a, b⟩, none, v⟩ := by
    simp only [getCrs, hr, bind_of_ok, createEllipsoidCrs, hn, hv]
    simp [mkEllipsoid, Val.truthy, hm, pmEllipsoid, he, mkCrs, bind_of_ok]
  simp only [getObserver, getDataset, h1, hc]
  cases readGrid o ⟨[.ok (shippedGrid lit)]⟩ <;> rfl

/-- **C66.** The observers read are exactly the grid of the template, if no other file sets their vertical datum. -/
theorem C66_observers (model : String) (a b : S) (hm : findModel "wgs84" g.models = some (model, a, b))
    (he : g.ellipsoidErr a b = none) (hu : ∀ u ∈ user, Silent u) (hd : Silent dflt) :
    getObserver g o (View.root (setupSources (some (shippedTemplate lit)) user dflt)) =
      templateObserver lit o ⟨"wgs84", model, a, b⟩ := by
  have hsil : ∀ src ∈ setupSources (some (shippedTemplate lit)) user dflt, Silent src := by
    intro src hsrc
    simp only [setupSources, Option.toList_some, List.singleton_append, List.cons_append, List.mem_cons,
      List.mem_append, Option.mem_toList, List.not_mem_nil, or_false] at hsrc
    rcases hsrc with rfl | h | rfl
    · rfl
    · exact hu _ (by simpa using h)
    · exact hd
  have hv0 := silent_vdatum hsil
  refine template_observers lit g o user dflt model a b hm he .ELLPS ?_
  have : findMember "ellps".toUpper vdatumMembers = some .ELLPS := by decide +kernel
  simp only [readVdatum, View.getOptStr, hv0, bind_of_ok, this]; rfl

/-- **C66.** In exact arithmetic the template describes 484 observation points: `(-1.05 + i/10, -1.05 + j/10, 0)` for
`i, j < 22`. -/
theorem C66_grid (ro : Outside ℝ) (ho : ro.ceil = Int.ceil) (w : Ell ℝ) :
    ∃ ob, templateObserver (fun q => (q : ℝ)) ro w = .ok ob ∧ ob.dataset.coords.rows.length = 484 ∧
      ob.dataset.coords.rows.Nodup ∧ (∀ p : V3 ℝ, p ∈ ob.dataset.coords.rows ↔ ∃ i j : ℕ, i < 22 ∧ j < 22 ∧
        p = ⟨-1.05 + i * 0.1, -1.05 + j * 0.1, 0⟩) := by
  obtain ⟨c, h1, h2, _, h4, h5⟩ := C41_grid ro ho ⟨[.ok (shippedGrid (fun q => (q : ℝ)))]⟩ _ _ _ _ _ _ _ _ _
    false false false false false false true true true rfl rfl rfl (by norm_num) (by norm_num) (by norm_num)
    (by norm_num) (by norm_num) (by norm_num)
  have c1 : ⌈(((106 / 100 : ℚ) : ℝ) - ((-105 / 100 : ℚ) : ℝ)) / ((1 / 10 : ℚ) : ℝ)⌉ = 22 := by
    rw [Int.ceil_eq_iff]; norm_num
  have c2 : ⌈(((1 : ℚ) : ℝ) - ((0 : ℚ) : ℝ)) / ((1 : ℚ) : ℝ)⌉ = 1 := by
    rw [Int.ceil_eq_iff]; norm_num
  refine ⟨_, by rw [templateObserver, h1]; rfl, ?_, h4, ?_⟩
  · refine h5.trans ?_
    rw [c1, c2]; rfl
  · intro p
    refine (h2 p).trans ?_
    have hlt : ∀ n : ℕ, ((-105 / 100 : ℚ) : ℝ) + n * ((1 / 10 : ℚ) : ℝ) < ((106 / 100 : ℚ) : ℝ) ↔ n < 22 := by
      intro n
      constructor
      · intro h
        by_contra hn
        have : (22 : ℝ) ≤ n := by exact_mod_cast not_lt.mp hn
        push_cast at h; linarith
      · intro h
        have : (n : ℝ) ≤ 21 := by exact_mod_cast Nat.le_of_lt_succ h
        push_cast; linarith
    constructor
    · rintro ⟨i, j, k, rfl, hi, hj, hk⟩
      have hk0 : k = 0 := by
        by_contra hk0
        have : (1 : ℝ) ≤ k := by exact_mod_cast Nat.one_le_iff_ne_zero.mpr hk0
        push_cast at hk; linarith
      subst hk0
      exact ⟨i, j, (hlt i).mp hi, (hlt j).mp hj, by push_cast; norm_num⟩
    · rintro ⟨i, j, hi, hj, rfl⟩
      exact ⟨i, j, 0, by push_cast; norm_num, (hlt i).mpr hi, (hlt j).mpr hj, by norm_num⟩

/-- **C66, partial**: the run with the template does not depend on the user's file and the defaults, if these do not set
the vertical datum of the observers, the only parameter that the template lacks (missing: files that set it, for which
the statement is false). -/
theorem C66_partial (lib : HullLib S) (gr : Bool) (user' : Option (Val S)) (dflt' : Val S) (model : String) (a b : S)
    (hm : findModel "wgs84" g.models = some (model, a, b)) (he : g.ellipsoidErr a b = none)
    (hu : ∀ u ∈ user, Silent u) (hd : Silent dflt) (hu' : ∀ u ∈ user', Silent u) (hd' : Silent dflt') :
    runTable g o lib (View.root (setupSources (some (shippedTemplate lit)) user dflt)) gr =
      runTable g o lib (View.root (setupSources (some (shippedTemplate lit)) user' dflt')) gr := by
  simp only [runTable, C66_show, C66_masses lit g o _ _ model a b hm he,
    C66_observers lit g o user dflt model a b hm he hu hd, C66_observers lit g o user' dflt' model a b hm he hu' hd']

/-- a user's file that sets the vertical datum of the observers -/
def vdatumFile : Val S := .dict [("observers", .dict [("crs", .dict [("vdatum", .str "egm96")])])]

/-- **C66 is false**: a vertical datum of the observers in the user's file is not overridden by the template, which does
not have this parameter. -/
theorem C66_false : ¬ C66_statement ℝ := by
  intro h
  let lit : Rat → ℝ := fun q => (q : ℝ)
  let o : Outside ℝ := ⟨fun _ => false, fun _ => .error .fileNotFoundError, Int.ceil⟩
  have h1 := (h lit toyGeo o (some vdatumFile) none (shippedDefaults lit) (shippedDefaults lit)).2
  have hm : findModel "wgs84" toyGeo.models = some ("WGS-84", 7, 6) := rfl
  rw [C66_observers lit toyGeo o none (shippedDefaults lit) "WGS-84" 7 6 hm rfl (by simp) rfl,
    template_observers lit toyGeo o _ _ "WGS-84" 7 6 hm rfl .EGM96 (by
      have : findMember "egm96".toUpper vdatumMembers = some .EGM96 := by decide +kernel
      have h2 : ((((View.root (setupSources (some (shippedTemplate lit)) (some vdatumFile) (shippedDefaults lit))).at
        "observers").at "crs").at "vdatum").getOptStr "ellps" = .ok "egm96" := rfl
      simp only [readVdatum, h2, bind_of_ok, this]; rfl), templateObserver] at h1
  obtain ⟨ob, h3, _⟩ := C66_grid o rfl ⟨"wgs84", "WGS-84", 7, 6⟩
  rw [templateObserver] at h3
  cases hg : readGrid o ⟨[.ok (shippedGrid lit)]⟩ with
  | error e => rw [hg] at h3; cases h3
  | ok c => rw [hg] at h1; simp [bind_of_ok, pure, Except.pure, mkObserver] at h1

/-- the shipped defaults and the shipped test file do not set the vertical datum of the observers, so they may be the
lower files of C66 -/
example : Silent (shippedDefaults (fun q => (q : ℝ))) ∧ Silent (shippedTest (fun q => (q : ℝ))) ∧
    ¬ Silent (vdatumFile : Val ℝ) ∧ findModel "wgs84" toyGeo.models = some ("WGS-84", 7, 6) ∧
    toyGeo.ellipsoidErr 7 6 = none := by
  refine ⟨rfl, rfl, ?_, rfl, rfl⟩
  have h : (vdatumFile : Val ℝ).lookup [.name "observers", .name "crs", .name "vdatum"] = .found (.str "egm96") := rfl
  rw [Silent, h]; exact fun h => by cases h

/-! ### C67: documented defaults -/

/-- the configuration given by an argument file over the shipped defaults -/
def overDefaults (lit : Rat → S) (arg : Val S) : View S := View.root (setupSources (some arg) none (shippedDefaults lit))

/-- the view of the i-th mass body -/
def View.mass (w : View S) (i : Nat) : View S := (w.at "masses").sub (.idx i)

/-- The full statement of C67: the defaults documented in the shipped files (`vdatum`: ellps, ellipsoid `name`: wgs84)
apply to a parameter that the configuration file leaves out. -/
def C67_statement (S : Type) [Arith S] : Prop :=
  ∀ (lit : Rat → S) (arg : Val S),
    (∀ i, arg.lookup [.name "masses", .idx i, .name "crs", .name "vdatum"] = .missing →
      readVdatum (((overDefaults lit arg).mass i).at "crs") = .ok .ELLPS) ∧
    (arg.lookup [.name "observers", .name "crs", .name "vdatum"] = .missing →
      readVdatum (((overDefaults lit arg).at "observers").at "crs") = .ok .ELLPS) ∧
    (∀ (g : Geodesy S) (model : String) (a b : S), g.ellipsoidErr = (fun _ _ => none) →
      findModel "wgs84" g.models = some (model, a, b) → (findModel "airy" g.models).isSome →
      (∀ k ∈ ["name", "semimajor_axis", "semiminor_axis"], arg.lookup [.name "observers", .name "crs", .name k] = .missing) →
      readEllipsoid g (((overDefaults lit arg).at "observers").at "crs") = .ok ⟨"wgs84", model, a, b⟩)

theorem overDefaults_keys (arg : Val S) (path : List Key) : ((overDefaults lit arg).keys path).first =
    decideBy path [arg, shippedDefaults lit] := C42_precedence _ _

/-- **C67**, failure: a first mass body without `vdatum` is referred to the geoid EGM96, whatever else is in the file. -/
theorem C67_first_body (arg : Val S) (h : arg.lookup [.name "masses", .idx 0, .name "crs", .name "vdatum"] = .missing) :
    readVdatum (((overDefaults lit arg).mass 0).at "crs") = .ok .EGM96 := by
  have h1 : ((((overDefaults lit arg).mass 0).at "crs").at "vdatum").first = .ok (.str "egm96") := by
    refine (overDefaults_keys lit arg [.name "masses", .idx 0, .name "crs", .name "vdatum"]).trans ?_
    simp only [decideBy, h]; rfl
  have : findMember "egm96".toUpper vdatumMembers = some .EGM96 := by decide +kernel
  simp only [readVdatum, View.getOptStr, h1, bind_of_ok, this]; rfl

/-- **C67**, failure: observers without ellipsoid parameters are on the ellipsoid "airy", whatever else is in the file. -/
theorem C67_observers (arg : Val S) (model : String) (a b : S) (hg : g.ellipsoidErr = fun _ _ => none)
    (hm : findModel "airy" g.models = some (model, a, b))
    (h : ∀ k ∈ ["name", "semimajor_axis", "semiminor_axis"], arg.lookup [.name "observers", .name "crs", .name k] = .missing) :
    readEllipsoid g (((overDefaults lit arg).at "observers").at "crs") = .ok ⟨"airy", model, a, b⟩ := by
  have key : ∀ k ∈ ["name", "semimajor_axis", "semiminor_axis"],
      ((((overDefaults lit arg).at "observers").at "crs").at k).first =
        decideBy [.name "observers", .name "crs", .name k] [shippedDefaults lit] := by
    intro k hk
    refine (overDefaults_keys lit arg [.name "observers", .name "crs", .name k]).trans ?_
    simp only [decideBy, h k hk]
  have h1 : ((((overDefaults lit arg).at "observers").at "crs").at "name").first = .ok (.str "airy") := key _ (by simp)
  have h2 : ((((overDefaults lit arg).at "observers").at "crs").at "semimajor_axis").first = .ok .null := key _ (by simp)
  have h3 : ((((overDefaults lit arg).at "observers").at "crs").at "semiminor_axis").first = .ok .null := key _ (by simp)
  exact C44_named g _ "airy" .null .null ⟨h1, h2, h3⟩ (by decide) model a b hm (by rw [hg])

/-- **C67 is false.** -/
theorem C67_false : ¬ C67_statement ℝ := by
  intro h
  have h1 := (h (fun q => (q : ℝ)) (.dict [])).1 0 rfl
  rw [C67_first_body _ _ rfl] at h1
  cases h1

/-- **C67, partial**: a parameter that the file sets to null gets the documented default whatever the other files say, and
one that it leaves out does if it is the vertical datum of the observers or of a mass body other than the first (missing:
the first body and the ellipsoid of the observers, for which the statement is false). -/
theorem C67_partial (arg : Val S) :
    (∀ (i : Nat) (user : Option (Val S)) (dflt : Val S),
      arg.lookup [.name "masses", .idx i, .name "crs", .name "vdatum"] = .found .null →
      readVdatum (((View.root (setupSources (some arg) user dflt)).mass i).at "crs") = .ok .ELLPS) ∧
    (∀ i, arg.lookup [.name "masses", .idx (i + 1), .name "crs", .name "vdatum"] = .missing →
      readVdatum (((overDefaults lit arg).mass (i + 1)).at "crs") = .ok .ELLPS) ∧
    (arg.lookup [.name "observers", .name "crs", .name "vdatum"] = .missing →
      readVdatum (((overDefaults lit arg).at "observers").at "crs") = .ok .ELLPS) ∧
    (∀ (user : Option (Val S)) (dflt : Val S) (model : String) (a b : S), g.ellipsoidErr = (fun _ _ => none) →
      findModel "wgs84" g.models = some (model, a, b) →
      (∀ k ∈ ["name", "semimajor_axis", "semiminor_axis"],
        arg.lookup [.name "observers", .name "crs", .name k] = .found .null) →
      readEllipsoid g (((View.root (setupSources (some arg) user dflt)).at "observers").at "crs") =
        .ok ⟨"wgs84", model, a, b⟩) := by
  have hd : findMember "ellps".toUpper vdatumMembers = some .ELLPS := by decide +kernel
  have null : ∀ (user : Option (Val S)) (dflt : Val S) (path : List Key), arg.lookup path = .found .null →
      ((View.root (setupSources (some arg) user dflt)).keys path).first = .ok .null := by
    intro user dflt path h
    rw [C42_precedence]
    simp only [setupSources, Option.toList_some, List.cons_append, decideBy, h]
  refine ⟨?_, ?_, ?_, ?_⟩
  · intro i user dflt h
    have h1 : ((((View.root (setupSources (some arg) user dflt)).mass i).at "crs").at "vdatum").first = .ok .null :=
      null user dflt _ h
    simp only [readVdatum, View.getOptStr, h1, bind_of_ok, hd]; rfl
  · intro i h
    have h1 : ((((overDefaults lit arg).mass (i + 1)).at "crs").at "vdatum").first = .error .configNotFoundError := by
      refine (overDefaults_keys lit arg [.name "masses", .idx (i + 1), .name "crs", .name "vdatum"]).trans ?_
      simp only [decideBy, h]; rfl
    simp only [readVdatum, View.getOptStr, h1, bind_of_ok, hd]; rfl
  · intro h
    have h1 : ((((overDefaults lit arg).at "observers").at "crs").at "vdatum").first = .error .configNotFoundError := by
      refine (overDefaults_keys lit arg [.name "observers", .name "crs", .name "vdatum"]).trans ?_
      simp only [decideBy, h]; rfl
    simp only [readVdatum, View.getOptStr, h1, bind_of_ok, hd]; rfl
  · intro user dflt model a b hg hm h
    have h1 := null user dflt _ (h "name" (by simp))
    have h2 := null user dflt _ (h "semimajor_axis" (by simp))
    have h3 := null user dflt _ (h "semiminor_axis" (by simp))
    refine (C44_default g _ .null .null .null ⟨h1, h2, h3⟩ (.inl rfl) (.inl rfl) (model, a, b) hm (by rw [hg])).trans ?_
    simp [wgs84, hm]

/-- files that leave out or null the parameters of C67 -/
example : (Val.dict [("masses", .list [.dict [("density", .num false 2)]])] : Val ℝ).lookup
      [.name "masses", .idx 0, .name "crs", .name "vdatum"] = .missing ∧
    (Val.dict [("masses", .list [.dict [("density", .num false 2)]])] : Val ℝ).lookup
      [.name "masses", .idx 1, .name "crs", .name "vdatum"] = .missing ∧
    (shippedTemplate (fun q => (q : ℝ))).lookup [.name "masses", .idx 0, .name "crs", .name "vdatum"] = .found .null ∧
    (∀ k ∈ ["name", "semimajor_axis", "semiminor_axis"],
      (shippedTemplate (fun q => (q : ℝ))).lookup [.name "observers", .name "crs", .name k] = .found .null) ∧
    findModel "airy" toyGeo.models = some ("Airy", 5, 4) ∧ toyGeo.ellipsoidErr = (fun _ _ => none) := by
  refine ⟨rfl, rfl, rfl, ?_, rfl, rfl⟩
  intro k hk
  simp only [List.mem_cons, List.not_mem_nil, or_false] at hk
  rcases hk with rfl | rfl | rfl <;> rfl

/-! ### C68: the order of the mass bodies in the file -/

/-- a configuration file with the given mass bodies -/
def withMasses (l : List (Val S)) (rest : List (String × Val S)) : Val S := .dict (("masses", .list l) :: rest)

/-- The full statement of C68: reordering the mass bodies in the configuration file reorders the bodies read. -/
def C68_statement (S : Type) [Arith S] : Prop :=
  ∀ (g : Geodesy S) (o : Outside S) (l l' : List (Val S)) (rest : List (String × Val S)) (user : Option (Val S))
    (dflt : Val S) (ms : List (Mass S)), l.Perm l' →
    getMasses g o (View.root (setupSources (some (withMasses l rest)) user dflt)) = .ok ms →
    ∃ ms', getMasses g o (View.root (setupSources (some (withMasses l' rest)) user dflt)) = .ok ms' ∧ ms.Perm ms'

theorem mapM_perm {α β : Type} {f : α → Except PyErr β} {l l' : List α} (h : l.Perm l') {r : List β}
    (hr : l.mapM f = .ok r) : ∃ r', l'.mapM f = .ok r' ∧ r.Perm r' := by
  rw [mapM_ok] at hr
  induction h generalizing r with
  | nil => cases hr; exact ⟨[], rfl, .nil⟩
  | cons x _ ih =>
    cases hr with
    | cons h1 h2 =>
      obtain ⟨r', h3, h4⟩ := ih h2
      exact ⟨_ :: r', mapM_ok.mpr (.cons h1 (mapM_ok.mp h3)), h4.cons _⟩
  | swap x y l =>
    cases hr with
    | cons h1 h2 => cases h2 with
      | cons h3 h4 => exact ⟨_, mapM_ok.mpr (.cons h3 (.cons h1 h4)), .swap _ _ _⟩
  | trans _ _ ih1 ih2 =>
    obtain ⟨r1, h1, h2⟩ := ih1 hr
    obtain ⟨r2, h3, h4⟩ := ih2 (mapM_ok.mp h1)
    exact ⟨r2, h3, h2.trans h4⟩

/-- the parameters of a `crs` section -/
def crsKeys : List String :=
  ["ref", "name", "semimajor_axis", "semiminor_axis", "longitude_origin", "latitude_origin", "altitude_origin", "vdatum"]

/-- An entry of a mass body that has all its parameters, null or not, and its coordinates. -/
structure Complete (e : Val S) : Prop where
  top : ∀ k ∈ ["density", "gravity_constant", "points", "file_path"], ∃ v, e.lookup [.name k] = .found v
  crs : ∀ k ∈ crsKeys, ∃ v, e.lookup [.name "crs", .name k] = .found v
  coords : ∃ v, (e.lookup [.name "points"] = .found v ∨ e.lookup [.name "file_path"] = .found v) ∧ v.truthy = true

theorem getCrs_congr {w w' : View S} (h : ∀ k ∈ crsKeys, (w.at k).first = (w'.at k).first) : getCrs g w = getCrs g w' := by
  have h1 := h "ref" (by simp [crsKeys])
  have h2 := h "name" (by simp [crsKeys])
  have h3 := h "semimajor_axis" (by simp [crsKeys])
  have h4 := h "semiminor_axis" (by simp [crsKeys])
  have h5 := h "longitude_origin" (by simp [crsKeys])
  have h6 := h "latitude_origin" (by simp [crsKeys])
  have h7 := h "altitude_origin" (by simp [crsKeys])
  have h8 := h "vdatum" (by simp [crsKeys])
  simp only [getCrs, readRef, createEllipsoidCrs, createLocalEnuCrs, readEllipsoidParameters, readEnuParameters, readVdatum,
    View.getOptStr, View.getAny, View.getNum, h1, h2, h3, h4, h5, h6, h7, h8]

theorem at_first {e v : Val S} {k : String} (rest : List (Except PyErr (Val S))) (h : e.lookup [.name k] = .found v) :
    ((⟨.ok e :: rest⟩ : View S).at k).first = .ok v := by
  simp only [Val.lookup] at h
  cases hs : e.sub (.name k) <;> rw [hs] at h <;> cases h
  simp [View.at, View.sub, resolveKey, hs, View.first]

theorem at_crs_first {e v : Val S} {k : String} (rest : List (Except PyErr (Val S)))
    (h : e.lookup [.name "crs", .name k] = .found v) :
    (((⟨.ok e :: rest⟩ : View S).at "crs").at k).first = .ok v := by
  simp only [Val.lookup] at h
  cases hs : e.sub (.name "crs") with
  | found x =>
    rw [hs] at h
    have h2 : (⟨.ok e :: rest⟩ : View S).at "crs" = ⟨.ok x :: resolveKey (.name "crs") rest⟩ := by
      simp [View.at, View.sub, resolveKey, hs]
    rw [h2]
    exact at_first _ h
  | missing => rw [hs] at h; cases h
  | notSubscriptable => rw [hs] at h; cases h

/-- the body read from a complete entry depends on nothing else -/
theorem getMass_complete {e : Val S} (he : Complete e) (rest rest' : List (Except PyErr (Val S))) :
    getMass g o ⟨.ok e :: rest⟩ = getMass g o ⟨.ok e :: rest'⟩ := by
  have hc : getCrs g ((⟨.ok e :: rest⟩ : View S).at "crs") = getCrs g ((⟨.ok e :: rest'⟩ : View S).at "crs") := by
    refine getCrs_congr g fun k hk => ?_
    obtain ⟨v, hv⟩ := he.crs k hk
    rw [at_crs_first _ hv, at_crs_first _ hv]
  obtain ⟨v1, h1⟩ := he.top "density" (by simp)
  obtain ⟨v2, h2⟩ := he.top "gravity_constant" (by simp)
  obtain ⟨v3, h3⟩ := he.top "points" (by simp)
  obtain ⟨v4, h4⟩ := he.top "file_path" (by simp)
  have hr : readCoords o ⟨.ok e :: rest⟩ = readCoords o ⟨.ok e :: rest'⟩ := by
    obtain ⟨v, hv | hv, ht⟩ := he.coords
    · simp only [readCoords, View.truthy, at_first _ hv, bind_of_ok, ht, pure, Except.pure, if_true]
    · cases hp : v3.truthy with
      | true => simp only [readCoords, View.truthy, at_first _ h3, bind_of_ok, hp, pure, Except.pure, if_true]
      | false => simp only [readCoords, View.truthy, at_first _ h3, at_first _ hv, View.getStr, bind_of_ok, hp, ht, pure,
          Except.pure, if_true]
  simp only [getMass, getDataset, hc, hr, View.getNum, at_first _ h1, at_first _ h2]

/-- **C68.** Complete entries are read independently of their position and of the other files. -/
theorem C68_complete (l : List (Val S)) (rest : List (String × Val S)) (hl : ∀ e ∈ l, Complete e) :
    getMasses g o (View.root (setupSources (some (withMasses l rest)) user dflt)) =
      l.mapM (fun e => getMass g o ⟨[.ok e]⟩) := by
  obtain ⟨more, hmore⟩ : ∃ more : List (Except PyErr (Val S)),
      ((View.root (setupSources (some (withMasses l rest)) user dflt)).at "masses") = ⟨.ok (.list l) :: more⟩ :=
    ⟨_, rfl⟩
  have hit : (⟨.ok (.list l) :: more⟩ : View S).iter =
      .ok ((List.range l.length).map (fun i => (⟨.ok (.list l) :: more⟩ : View S).sub (.idx i))) := rfl
  simp only [getMasses, hmore, hit, bind_of_ok]
  have hsub : ∀ i (hi : i < l.length), getMass g o ((⟨.ok (.list l) :: more⟩ : View S).sub (.idx i)) =
      getMass g o ⟨[.ok l[i]]⟩ := by
    intro i hi
    have : (⟨.ok (.list l) :: more⟩ : View S).sub (.idx i) = ⟨.ok l[i] :: resolveKey (.idx i) more⟩ := by
      simp [View.sub, resolveKey, Val.sub, List.getElem?_eq_getElem hi]
    rw [this]
    exact getMass_complete g o (hl _ (List.getElem_mem hi)) _ _
  rw [List.mapM_map]
  have h2 : ∀ L : List Nat, (∀ i ∈ L, i < l.length) →
      L.mapM (fun i => getMass g o ((⟨.ok (.list l) :: more⟩ : View S).sub (.idx i))) =
      L.mapM (fun i => getMass g o ⟨[.ok (l.getD i .null)]⟩) := by
    intro L hL
    induction L with
    | nil => rfl
    | cons i L ih =>
      rw [List.mapM_cons, List.mapM_cons, ih (fun j hj => hL j (by simp [hj])), hsub i (hL i (by simp))]
      simp [List.getD, List.getElem?_eq_getElem (hL i (by simp))]
  refine (h2 _ (by simp)).trans ?_
  refine (List.mapM_map (f := fun i => l.getD i .null) (g := fun e => getMass g o ⟨[.ok e]⟩)).symm.trans ?_
  congr 1
  apply List.ext_getElem
  · simp
  · intro i h3 h4
    simp at h3
    simp [List.getD, List.getElem?_eq_getElem h3]

/-- **C68, partial**: reordering complete entries reorders the bodies read (missing: entries that leave out parameters, for
which the statement is false). -/
theorem C68_partial (l l' : List (Val S)) (rest : List (String × Val S)) (ms : List (Mass S)) (hp : l.Perm l')
    (hl : ∀ e ∈ l, Complete e)
    (h : getMasses g o (View.root (setupSources (some (withMasses l rest)) user dflt)) = .ok ms) :
    ∃ ms', getMasses g o (View.root (setupSources (some (withMasses l' rest)) user dflt)) = .ok ms' ∧ ms.Perm ms' := by
  rw [C68_complete g o user dflt l rest hl] at h
  rw [C68_complete g o user dflt l' rest (fun e he => hl e (hp.mem_iff.mpr he))]
  exact mapM_perm hp h

/-- What lies below place `i` of the list of bodies: the entries at the same place in the user's file and in the defaults. -/
def below (user : Option (Val S)) (dflt : Val S) (i : Nat) : List (Except PyErr (Val S)) :=
  ((((View.root (user.toList ++ [dflt])).at "masses").sub (.idx i)).items)

theorem mapM_eq_of {α β : Type} {f h : α → Except PyErr β} {l : List α} (hl : ∀ x ∈ l, f x = h x) :
    l.mapM f = l.mapM h := by
  induction l with
  | nil => rfl
  | cons x l ih => rw [List.mapM_cons, List.mapM_cons, ih (fun y hy => hl y (by simp [hy])), hl x (by simp)]

/-- the bodies are read one after the other, each with what lies below its place -/
theorem getMasses_places (l : List (Val S)) (rest : List (String × Val S)) :
    getMasses g o (View.root (setupSources (some (withMasses l rest)) user dflt)) =
      (List.range l.length).mapM (fun i => getMass g o ⟨.ok (l.getD i .null) :: below user dflt i⟩) := by
  have hw : (View.root (setupSources (some (withMasses l rest)) user dflt)).at "masses" =
      ⟨.ok (.list l) :: ((View.root (user.toList ++ [dflt])).at "masses").items⟩ := by
    simp [View.root, setupSources, View.at, View.sub, withMasses, resolveKey, Val.sub, assoc]
  simp only [getMasses, hw]
  generalize hm : ((View.root (user.toList ++ [dflt])).at "masses").items = more
  have hit : (⟨.ok (.list l) :: more⟩ : View S).iter =
      .ok ((List.range l.length).map (fun i => (⟨.ok (.list l) :: more⟩ : View S).sub (.idx i))) := rfl
  simp only [hit, bind_of_ok]
  rw [List.mapM_map]
  refine mapM_eq_of fun i hi => ?_
  have hi : i < l.length := by simpa using hi
  have : (⟨.ok (.list l) :: more⟩ : View S).sub (.idx i) = ⟨.ok (l.getD i .null) :: below user dflt i⟩ := by
    simp [View.sub, resolveKey, Val.sub, List.getElem?_eq_getElem hi, List.getD, below, ← hm]
  simp only [Function.comp, this]

/-- **C68, exactly.** Whatever the order of the mass bodies in the file, each entry is read as one and the same body, if
and only if every entry gives the same body at each place of the list (over the entries at that place in the user's file
and in the defaults). -/
theorem C68_exact (l : List (Val S)) (rest : List (String × Val S)) :
    (∃ f : Val S → Except PyErr (Mass S), (∀ e ∈ l, ∃ m, f e = .ok m) ∧ ∀ l', l.Perm l' →
      getMasses g o (View.root (setupSources (some (withMasses l' rest)) user dflt)) = l'.mapM f) ↔
    ∀ e ∈ l, ∃ m, ∀ i < l.length, getMass g o ⟨.ok e :: below user dflt i⟩ = .ok m := by
  constructor
  · rintro ⟨f, hf, h⟩ e he
    obtain ⟨m, hm⟩ := hf e he
    refine ⟨m, fun i hi => ?_⟩
    obtain ⟨a, b, rfl⟩ := List.append_of_mem he
    have hlen : i ≤ (a ++ b).length := by simp at hi ⊢; omega
    have hp : (a ++ e :: b).Perm ((a ++ b).take i ++ e :: (a ++ b).drop i) := by
      refine List.perm_middle.trans (.trans ?_ List.perm_middle.symm)
      rw [List.take_append_drop]
    have h1 := h _ hp
    obtain ⟨ms, h2⟩ : ∃ ms, ((a ++ b).take i ++ e :: (a ++ b).drop i).mapM f = .ok ms := by
      have : ∀ L : List (Val S), (∀ x ∈ L, ∃ m, f x = .ok m) → ∃ ms, L.mapM f = .ok ms := by
        intro L hL
        induction L with
        | nil => exact ⟨[], rfl⟩
        | cons x L ih =>
          obtain ⟨m1, h1⟩ := hL x (by simp)
          obtain ⟨ms, h2⟩ := ih fun y hy => hL y (by simp [hy])
          exact ⟨m1 :: ms, mapM_ok.mpr (.cons h1 (mapM_ok.mp h2))⟩
      exact this _ fun x hx => hf x (hp.mem_iff.mpr hx)
    rw [h2, getMasses_places] at h1
    have h3 := mapM_ok.mp h1
    have h4 := mapM_ok.mp h2
    have hn : ((a ++ b).take i ++ e :: (a ++ b).drop i)[i]? = some e := by
      have ht : ((a ++ b).take i).length = i := by rw [List.length_take, Nat.min_eq_left hlen]
      rw [List.getElem?_append_right (by omega), ht, Nat.sub_self]
      rfl
    have hi' : i < ((a ++ b).take i ++ e :: (a ++ b).drop i).length := by rw [← hp.length_eq]; exact hi
    have hms : i < ms.length := by rw [← h4.length_eq]; exact hi'
    have h5 := (List.forall₂_iff_get.mp h3).2 i (by simpa using hi') hms
    have h6 := (List.forall₂_iff_get.mp h4).2 i hi' hms
    have he' : ((a ++ b).take i ++ e :: (a ++ b).drop i).get ⟨i, hi'⟩ = e := by
      rw [List.getElem?_eq_getElem hi'] at hn
      exact Option.some.inj hn
    rw [he', hm] at h6
    simp only [List.get_eq_getElem, List.getElem_range, List.getD, hn, Option.getD_some] at h5
    rw [h5]
    exact h6.symm
  · intro h
    by_cases hl : l = []
    · subst hl
      refine ⟨fun _ => .error .configTypeError, by simp, fun l' hp => ?_⟩
      rw [List.nil_perm.mp hp]
      rfl
    have hpos : 0 < l.length := List.length_pos_iff.mpr hl
    refine ⟨fun e => getMass g o ⟨.ok e :: below user dflt 0⟩, fun e he => ?_, fun l' hp => ?_⟩
    · obtain ⟨m, hm⟩ := h e he
      exact ⟨m, hm 0 hpos⟩
    · rw [getMasses_places]
      have h1 : (List.range l'.length).mapM (fun i => getMass g o ⟨.ok (l'.getD i .null) :: below user dflt i⟩) =
          (List.range l'.length).mapM (fun i => getMass g o ⟨.ok (l'.getD i .null) :: below user dflt 0⟩) := by
        refine mapM_eq_of fun i hi => ?_
        have hi : i < l'.length := by simpa using hi
        have he : l'.getD i .null ∈ l := by
          rw [hp.mem_iff]
          simp [List.getD, List.getElem?_eq_getElem hi]
        obtain ⟨m, hm⟩ := h _ he
        rw [hm i (by rw [hp.length_eq]; exact hi), hm 0 hpos]
      rw [h1]
      refine (List.mapM_map (f := fun i => l'.getD i .null)
        (g := fun e => getMass g o ⟨.ok e :: below user dflt 0⟩)).symm.trans ?_
      congr 1
      apply List.ext_getElem
      · simp
      · intro i h3 h4
        simp at h3
        simp [List.getD, List.getElem?_eq_getElem h3]

/-- an entry with its points only -/
def pointsOnly : Val S := .dict [("points", .list [.list [.num true zero, .num true zero, .num true zero]])]

theorem templateMassVal_complete : Complete (templateMassVal lit) where
  top := by
    intro k hk
    simp only [List.mem_cons, List.not_mem_nil, or_false] at hk
    rcases hk with rfl | rfl | rfl | rfl <;> exact ⟨_, rfl⟩
  crs := by
    intro k hk
    simp only [crsKeys, List.mem_cons, List.not_mem_nil, or_false] at hk
    rcases hk with rfl | rfl | rfl | rfl | rfl | rfl | rfl | rfl <;> exact ⟨_, rfl⟩
  coords := ⟨_, .inl rfl, rfl⟩

/-- **C68 is false**: with the shipped defaults a body may leave out its parameters if it is the first one, but not if it
is the second one. -/
theorem C68_false : ¬ C68_statement ℝ := by
  intro h
  let lit : Rat → ℝ := fun q => (q : ℝ)
  let o : Outside ℝ := ⟨fun _ => false, fun _ => .error .fileNotFoundError, Int.ceil⟩
  have hm : findModel "wgs84" toyGeo.models = some ("WGS-84", 7, 6) := rfl
  have hv : findMember "egm96".toUpper vdatumMembers = some .EGM96 := by decide +kernel
  have href : findMember "ellps".toUpper crsMembers = some .ELLPS := by decide +kernel
  -- as first body
  have h1 : ∃ m, getMass toyGeo o (((View.root (setupSources (some (withMasses [pointsOnly, templateMassVal lit] []))
      none (shippedDefaults lit))).at "masses").sub (.idx 0)) = .ok m := by
    generalize hw : ((View.root (setupSources (some (withMasses [pointsOnly, templateMassVal lit] []))
      none (shippedDefaults lit))).at "masses").sub (.idx 0) = w
    have hc : readCoords o w = .ok ⟨[⟨0, 0, 0⟩], true⟩ := by rw [← hw]; rfl
    have hr : readRef (w.at "crs") = .ok .ELLPS := by
      have h2 : ((w.at "crs").at "ref").getOptStr "ellps" = .ok "ellps" := by rw [← hw]; rfl
      simp only [readRef, h2, bind_of_ok, href]; rfl
    have hd : readVdatum (w.at "crs") = .ok .EGM96 := by
      have h2 : ((w.at "crs").at "vdatum").getOptStr "ellps" = .ok "egm96" := by rw [← hw]; rfl
      simp only [readVdatum, h2, bind_of_ok, hv]; rfl
    have he : readEllipsoid toyGeo (w.at "crs") = .ok ⟨"wgs84", "WGS-84", 7, 6⟩ :=
      C44_named toyGeo _ "wgs84" .null .null ⟨by rw [← hw]; rfl, by rw [← hw]; rfl, by rw [← hw]; rfl⟩ (by decide)
        "WGS-84" 7 6 hm rfl
    have h3 := C44_used toyGeo _ _ _ hr hd he
    have h4 : (w.at "density").getNum = .ok (lit 1000) := by rw [← hw]; rfl
    have h5 : (w.at "gravity_constant").getNum = .ok (lit shippedConstant) := by rw [← hw]; rfl
    exact ⟨_, by simp only [getMass, getDataset, hc, h3, h4, h5, bind_of_ok]; rfl⟩
  obtain ⟨m, h1⟩ := h1
  have h2 : getMasses toyGeo o (View.root (setupSources (some (withMasses [pointsOnly, templateMassVal lit] []))
      none (shippedDefaults lit))) = .ok [m, templateMass lit ⟨"wgs84", "WGS-84", 7, 6⟩] := by
    have h3 : ((View.root (setupSources (some (withMasses [pointsOnly, templateMassVal lit] []))
        none (shippedDefaults lit))).at "masses").iter = .ok [((View.root (setupSources (some (withMasses [pointsOnly,
          templateMassVal lit] [])) none (shippedDefaults lit))).at "masses").sub (.idx 0),
          ⟨.ok (templateMassVal lit) :: []⟩] := rfl
    simp only [getMasses, h3, bind_of_ok, List.mapM_cons, List.mapM_nil, h1,
      getMass_template lit toyGeo o "WGS-84" 7 6 hm rfl]
    rfl
  -- as second body
  obtain ⟨ms', h3, _⟩ := h toyGeo o _ [templateMassVal lit, pointsOnly] [] none (shippedDefaults lit) _
    (List.Perm.swap _ _ _) h2
  have h4 : ∃ rest : List (Except PyErr (Val ℝ)), ((View.root (setupSources (some (withMasses [templateMassVal lit, pointsOnly] []))
      none (shippedDefaults lit))).at "masses").iter = .ok [⟨.ok (templateMassVal lit) :: rest⟩, ⟨[.ok pointsOnly]⟩] :=
    ⟨_, rfl⟩
  obtain ⟨rest, h4⟩ := h4
  have h5 : getMass toyGeo o ⟨[.ok pointsOnly]⟩ = .error .configNotFoundError := by
    have hc : readCoords o ⟨[.ok pointsOnly]⟩ = .ok ⟨[⟨0, 0, 0⟩], true⟩ := rfl
    have hr : readRef ((⟨[.ok pointsOnly]⟩ : View ℝ).at "crs") = .ok .ELLPS := by
      have h2 : (((⟨[.ok pointsOnly]⟩ : View ℝ).at "crs").at "ref").getOptStr "ellps" = .ok "ellps" := rfl
      simp only [readRef, h2, bind_of_ok, href]; rfl
    have he : readEllipsoidParameters toyGeo ((⟨[.ok pointsOnly]⟩ : View ℝ).at "crs") = .error .configNotFoundError := rfl
    simp only [getMass, getDataset, hc, getCrs, hr, createEllipsoidCrs, he, bind_of_ok]
    rfl
  simp only [getMasses, h4, bind_of_ok, List.mapM_cons, List.mapM_nil, h5,
    getMass_template lit toyGeo o "WGS-84" 7 6 hm rfl] at h3
  cases h3

example : Complete (templateMassVal (fun q => (q : ℝ))) := templateMassVal_complete _

/-- the condition of `C68_exact` holds for two copies of the body of the template over the shipped defaults -/
example : ∀ e ∈ [templateMassVal (fun q => (q : ℝ)), templateMassVal (fun q => (q : ℝ))], ∃ m, ∀ i < 2,
    getMass toyGeo ⟨fun _ => false, fun _ => .error .fileNotFoundError, Int.ceil⟩
      ⟨.ok e :: below none (shippedDefaults (fun q => (q : ℝ))) i⟩ = .ok m := by
  intro e he
  have he : e = templateMassVal (fun q => (q : ℝ)) := by simpa using he
  subst he
  exact ⟨_, fun i _ => getMass_template (fun q => (q : ℝ)) toyGeo _ "WGS-84" 7 6 rfl rfl _⟩

end Geec
