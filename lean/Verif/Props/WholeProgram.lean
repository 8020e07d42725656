import Verif.Props.CommandLine
import Verif.Props.EndToEnd
/-
C122: from texts to texts.  A configuration file with Cartesian bodies and observation points, as it is written, the words of the command line, and the text that
is in the output file in the end.
-/
namespace Geec
open Arith
variable {S : Type}

/-! ### What a configuration file says -/

/-- the value `v`, as written, has the parameter `p` with the value `w` -/
def Says (v : Val ℚ) (p : List String) (w : Val ℚ) : Prop := v.lookup (p.map .name) = .found w

/-- a number, as the arithmetic has it -/
def SaysNumber (lit : ℚ → S) (v : Val ℚ) (p : List String) (x : S) : Prop := ∃ i q, Says v p (.num i q) ∧ x = lit q

/-- The points of a section: listed in it, or on the lines of the file that it names. -/
inductive SaysPoints (e : Surroundings S) (d : Disk) (v : Val ℚ) : List (V3 S) → Prop
  | listed (vs : List (Val ℚ)) (qs : List (V3 ℚ)) : Says v ["points"] (.list vs) →
      List.Forall₂ (fun w q => ∃ i j k, w = Val.list [.num i q.x, .num j q.y, .num k q.z]) vs qs → qs ≠ [] →
      SaysPoints e d v (qs.map fun q => ⟨e.lit q.x, e.lit q.y, e.lit q.z⟩)
  | file (path : String) (ls : List (FileLine × Eol)) (last : FileLine) (qs : List (V3 S × Bool)) : Says v ["points"] .null → Says v ["file_path"] (.str path) → path ≠ "" →
      d (e.resolve path) = some (.text (fileText ls last)) → e.resolve path ≠ e.install.logFile → (∀ l ∈ ls, l.1.Ok) → last.Ok →
      List.Forall₂ (PointFields e.csv) (ls.flatMap (fun l => l.1.fields) ++ last.fields) qs → qs ≠ [] → SaysPoints e d v (qs.map (·.1))

/-- a section with Cartesian points; the other parameters of the section are there, with any values -/
structure SaysCartesian (e : Surroundings S) (d : Disk) (v : Val ℚ) (pts : List (V3 S)) : Prop where
  points : SaysPoints e d v pts
  ref : ∃ s : String, Says v ["crs", "ref"] (.str s) ∧ s.toUpper = "CART"
  others : ∀ p ∈ [["points"], ["file_path"], ["crs", "name"], ["crs", "semimajor_axis"], ["crs", "semiminor_axis"], ["crs", "longitude_origin"], ["crs", "latitude_origin"],
    ["crs", "altitude_origin"]], ∃ w, Says v p w

/-- a body: its density, its gravity constant, its points -/
structure BodyEntry (S : Type) where
  density : S
  constant : S
  points : List (V3 S)

/-- a section that describes a Cartesian body -/
structure SaysBody (e : Surroundings S) (d : Disk) (v : Val ℚ) (b : BodyEntry S) : Prop extends SaysCartesian e d v b.points where
  density : SaysNumber e.lit v ["density"] b.density
  constant : SaysNumber e.lit v ["gravity_constant"] b.constant
  vdatum : ∃ w, Says v ["crs", "vdatum"] w

/-- A configuration of Cartesian bodies, observed at Cartesian points. -/
structure SaysRun (e : Surroundings S) (d : Disk) (v : Val ℚ) (bodies : List (BodyEntry S)) (pts : List (V3 S)) : Prop where
  masses : ∃ vs, Says v ["masses"] (.list vs) ∧ List.Forall₂ (SaysBody e d) vs bodies
  observers : ∃ w, Says v ["observers"] w ∧ SaysCartesian e d w pts ∧
    ∀ p ∈ [["grid", "xstart_xend_xstep"], ["grid", "ystart_yend_ystep"], ["grid", "zstart_zend_zstep"]], ∃ x, Says w p x

/-! ### How it is read -/

/-- the first source of a view has the value `v` -/
def View.Top (w : View S) (v : Val S) : Prop := ∃ rest, w.items = .ok v :: rest

theorem View.Top.first {w : View S} {v : Val S} (h : w.Top v) : w.first = .ok v := by
  obtain ⟨rest, h⟩ := h
  simp [View.first, h]

theorem View.Top.sub {w : View S} {v x : Val S} (h : w.Top v) {k : Key} (hk : v.sub k = .found x) : (w.sub k).Top x := by
  obtain ⟨rest, h⟩ := h
  exact ⟨resolveKey k rest, by simp [View.sub, h, resolveKey, hk]⟩

theorem View.Top.keys {ks : List Key} : ∀ {w : View S} {v x : Val S}, w.Top v → v.lookup ks = .found x → (w.keys ks).Top x := by
  induction ks with
  | nil => intro w v x h hk; cases hk; exact h
  | cons k ks ih =>
    intro w v x h hk
    simp only [Val.lookup] at hk
    rcases hs : v.sub k with y | _ | _
    · rw [hs] at hk; exact ih (h.sub hs) hk
    · rw [hs] at hk; cases hk
    · rw [hs] at hk; cases hk

theorem path_keys (w : View S) (p : List String) : w.path p = w.keys (p.map .name) := by
  unfold View.path View.keys
  rw [List.foldl_map]
  rfl

theorem View.Top.says {lit : ℚ → S} {w : View S} {v x : Val ℚ} {p : List String} (h : w.Top (v.read lit)) (hs : Says v p x) : (w.path p).Top (x.read lit) := by
  rw [path_keys]
  exact h.keys (by rw [lookup_read, hs]; rfl)

theorem View.path_one (w : View S) (a : String) : w.path [a] = w.at a := rfl

theorem read_num (lit : ℚ → S) (i : Bool) (q : ℚ) : (Val.num i q).read lit = .num i (lit q) := by simp [Val.read]
theorem read_str (lit : ℚ → S) (s : String) : (Val.str s).read lit = .str s := by simp [Val.read]
theorem read_null (lit : ℚ → S) : (Val.null).read lit = .null := by simp [Val.read]
theorem read_list (lit : ℚ → S) (l : List (Val ℚ)) : (Val.list l).read lit = .list (l.map (Val.read lit)) := by simp [Val.read, readList_eq]

theorem showAll_found {w : View S} : ∀ {ps : List (List String)}, (∀ p ∈ ps, ∃ v, (w.path p).first = .ok v) → showAll w ps = .ok ()
  | [], _ => rfl
  | p :: ps, h => by
    obtain ⟨v, hv⟩ := h p (by simp)
    rw [showAll, hv]
    exact showAll_found fun p hp => h p (by simp [hp])

theorem readPoints_listed (lit : ℚ → S) : ∀ {vs : List (Val ℚ)} {qs : List (V3 ℚ)}, List.Forall₂ (fun w q => ∃ i j k, w = Val.list [.num i q.x, .num j q.y, .num k q.z]) vs qs →
    ∃ ps, (vs.map (Val.read lit)).mapM pointOf = .ok ps ∧ ps.map (·.1) = qs.map fun q => ⟨lit q.x, lit q.y, lit q.z⟩
  | _, _, .nil => ⟨[], rfl, rfl⟩
  | _, _, .cons (a := w) (b := q) h hs => by
    obtain ⟨ps, h1, h2⟩ := readPoints_listed lit hs
    obtain ⟨i, j, k, rfl⟩ := h
    refine ⟨(⟨lit q.x, lit q.y, lit q.z⟩, i && j && k) :: ps, ?_, by simp [h2]⟩
    rw [List.map_cons, List.mapM_cons, h1, read_list]
    simp only [List.map_cons, List.map_nil, read_num, pointOf]
    rfl

theorem SaysPoints.ne_nil {e : Surroundings S} {d : Disk} {v : Val ℚ} {pts : List (V3 S)} (h : SaysPoints e d v pts) : pts ≠ [] := by
  rcases h with ⟨vs, qs, -, -, h3⟩ | ⟨path, ls, last, qs, -, -, -, -, -, -, -, -, h3⟩ <;> simpa using h3

theorem SaysRun.ne_nil {e : Surroundings S} {d : Disk} {v : Val ℚ} {bodies : List (BodyEntry S)} {pts : List (V3 S)} (h : SaysRun e d v bodies pts) : pts ≠ [] := by
  obtain ⟨w, -, h1, -⟩ := h.observers
  exact h1.points.ne_nil

variable [Arith S]

theorem SaysPoints.read {e : Surroundings S} {d : Disk} (hd : d.WF) (h0 : d [] = some .dir) {v : Val ℚ} {pts : List (V3 S)} (h : SaysPoints e d v pts)
    {w : View S} (hw : w.Top (v.read e.lit)) :
    ∃ b, readCoords (Outside.ofDisk e.csv e.resolve e.ceil (setupLogger e.install d).2) w = .ok ⟨pts, b⟩ := by
  rcases h with ⟨vs, qs, h1, h2, h3⟩ | ⟨path, ls, last, qs, h1, h2, h3, h4, h5, h6, h7, h8, h9⟩
  · have k1 := (hw.says h1).first
    rw [View.path_one, read_list] at k1
    obtain ⟨ps, k2, k3⟩ := readPoints_listed e.lit h2
    refine ⟨ps.all (·.2), ?_⟩
    have ht : ((w.at "points").truthy) = .ok true := by
      simp only [View.truthy, k1, Bind.bind, Except.bind, Pure.pure, Except.pure, Val.truthy]
      rcases vs with _ | _
      · cases h2; exact absurd rfl h3
      · rfl
    simp only [readCoords, ht, k1, Bind.bind, Except.bind, if_true, arrayOf, k2, Pure.pure, Except.pure, k3]
  · have k1 := (hw.says h1).first
    have k2 := (hw.says h2).first
    rw [View.path_one, read_null] at k1
    rw [View.path_one, read_str] at k2
    refine ⟨qs.all (·.2), ?_⟩
    have k3 : (setupLogger e.install d).2 (e.resolve path) = some (.text (fileText ls last)) := (setupLogger_text hd h0 h5 _).mpr h4
    have k4 := C107_read e.csv h6 h7 h9 h8
    simp only [readCoords, View.truthy, View.getStr, k1, k2, Bind.bind, Except.bind, Pure.pure, Except.pure, Val.truthy, Bool.false_eq_true, if_false, ne_eq, h3,
      not_false_eq_true, decide_true, if_true, Outside.ofDisk, k3, readText, k4]

theorem findMember_CART : findMember "CART" crsMembers = some .CART := by decide +kernel

theorem SaysCartesian.read {e : Surroundings S} {d : Disk} (hd : d.WF) (h0 : d [] = some .dir) {v : Val ℚ} {pts : List (V3 S)} (h : SaysCartesian e d v pts)
    {w : View S} (hw : w.Top (v.read e.lit)) :
    ∃ b, getDataset e.geodesy (Outside.ofDisk e.csv e.resolve e.ceil (setupLogger e.install d).2) w = .ok ⟨⟨pts, b⟩, ⟨.CART, none, none, .ELLPS⟩⟩ := by
  obtain ⟨b, hb⟩ := h.points.read hd h0 hw
  obtain ⟨s, h1, h2⟩ := h.ref
  have k1 := (hw.says h1).first
  rw [read_str] at k1
  have k2 : ((w.at "crs").at "ref").first = .ok (.str s) := k1
  refine ⟨b, ?_⟩
  have k3 : readRef (w.at "crs") = .ok .CART := by
    simp only [readRef, View.getOptStr, k2, Bind.bind, Except.bind, h2, findMember_CART]
    rfl
  simp only [getDataset, hb, getCrs, k3, Bind.bind, Except.bind, mkCrs]
  rfl

theorem SaysBody.read {e : Surroundings S} {d : Disk} (hd : d.WF) (h0 : d [] = some .dir) {v : Val ℚ} {b : BodyEntry S} (h : SaysBody e d v b)
    {w : View S} (hw : w.Top (v.read e.lit)) :
    (∃ i, getMass e.geodesy (Outside.ofDisk e.csv e.resolve e.ceil (setupLogger e.install d).2) w =
      .ok ⟨b.density, b.constant, ⟨⟨b.points, i⟩, ⟨.CART, none, none, .ELLPS⟩⟩⟩) ∧ showAll w massShown = .ok () := by
  obtain ⟨i, hi⟩ := h.toSaysCartesian.read hd h0 hw
  obtain ⟨j, q, h1, h2⟩ := h.density
  obtain ⟨j', q', h1', h2'⟩ := h.constant
  constructor
  · refine ⟨i, ?_⟩
    have k1 := (hw.says h1).first
    have k2 := (hw.says h1').first
    rw [View.path_one, read_num, ← h2] at k1
    rw [View.path_one, read_num, ← h2'] at k2
    simp only [getMass, hi, View.getNum, k1, k2, Bind.bind, Except.bind, Pure.pure, Except.pure]
  · refine showAll_found fun p hp => ?_
    have hp' : p = ["density"] ∨ p = ["gravity_constant"] ∨ p = ["crs", "ref"] ∨ p = ["crs", "vdatum"] ∨
        p ∈ [["points"], ["file_path"], ["crs", "name"], ["crs", "semimajor_axis"], ["crs", "semiminor_axis"], ["crs", "longitude_origin"], ["crs", "latitude_origin"],
          ["crs", "altitude_origin"]] := by
      simp only [massShown, List.mem_cons, List.not_mem_nil, or_false] at hp ⊢
      tauto
    rcases hp' with rfl | rfl | rfl | rfl | hp'
    · exact ⟨_, (hw.says h1).first⟩
    · exact ⟨_, (hw.says h1').first⟩
    · obtain ⟨s, hs, -⟩ := h.ref
      exact ⟨_, (hw.says hs).first⟩
    · obtain ⟨x, hx⟩ := h.vdatum
      exact ⟨_, (hw.says hx).first⟩
    · obtain ⟨x, hx⟩ := h.others p hp'
      exact ⟨_, (hw.says hx).first⟩

theorem bodies_read (e : Surroundings S) {d : Disk} (hd : d.WF) (h0 : d [] = some .dir) {v : Val ℚ} {bodies : List (BodyEntry S)} {vs : List (Val ℚ)}
    (h1 : Says v ["masses"] (.list vs)) (h2 : List.Forall₂ (SaysBody e d) vs bodies) {cfg : View S} (hroot : cfg.Top (v.read e.lit)) :
    ∃ ws, (cfg.at "masses").iter = .ok ws ∧ ws.forM (fun m => showAll m massShown) = .ok () ∧
      ∃ ms, ws.mapM (getMass e.geodesy (Outside.ofDisk e.csv e.resolve e.ceil (setupLogger e.install d).2)) = .ok ms ∧
      List.Forall₂ (fun m b => m.density = b.density ∧ m.gravityConstant = b.constant ∧ m.dataset.coords.rows = b.points ∧ m.dataset.crs.name = .CART) ms bodies := by
  have hm := hroot.says h1
  rw [View.path_one] at hm
  rw [read_list] at hm
  -- the sections of the bodies
  have hiter : (cfg.at "masses").iter = .ok ((List.range vs.length).map fun i => (cfg.at "masses").sub (.idx i)) := by
    simp only [View.iter, hm.first, List.length_map]
  have htop : ∀ i x, vs[i]? = some x → ((cfg.at "masses").sub (.idx i)).Top (x.read e.lit) := by
    intro i x hx
    exact hm.sub (by simp [Val.sub, hx])
  have hsec : List.Forall₂ (fun w v => w.Top (v.read e.lit)) ((List.range vs.length).map fun i => (cfg.at "masses").sub (.idx i)) vs := by
    rw [List.forall₂_iff_get]
    refine ⟨by simp, fun i hi hi' => ?_⟩
    simp only [List.get_eq_getElem, List.getElem_map, List.getElem_range]
    exact htop i _ (List.getElem?_eq_getElem hi')
  generalize (List.range vs.length).map (fun i => (cfg.at "masses").sub (.idx i)) = ws at hiter hsec
  have hall : ws.forM (fun m => showAll m massShown) = .ok () ∧
      ∃ ms, ws.mapM (getMass e.geodesy (Outside.ofDisk e.csv e.resolve e.ceil (setupLogger e.install d).2)) = .ok ms ∧
      List.Forall₂ (fun m b => m.density = b.density ∧ m.gravityConstant = b.constant ∧ m.dataset.coords.rows = b.points ∧ m.dataset.crs.name = .CART) ms bodies := by
    clear hiter htop hm h1
    induction hsec generalizing bodies with
    | nil => cases h2; exact ⟨rfl, [], rfl, .nil⟩
    | @cons w v ws vs hw hws ih =>
      cases h2 with
      | @cons _ b _ bodies hb hbs =>
        obtain ⟨⟨i, k1⟩, k2⟩ := hb.read hd h0 hw
        obtain ⟨k3, ms, k4, k5⟩ := ih hbs
        refine ⟨?_, ⟨b.density, b.constant, ⟨⟨b.points, i⟩, ⟨.CART, none, none, .ELLPS⟩⟩⟩ :: ms, ?_, .cons ⟨rfl, rfl, rfl, rfl⟩ k5⟩
        · rw [show ∀ f : View S → Except PyErr Unit, (w :: ws).forM f = (f w >>= fun _ => ws.forM f) from fun _ => rfl, k2]
          exact k3
        · rw [List.mapM_cons, k1, k4]
          rfl
  exact ⟨ws, hiter, hall⟩

/-- **C122** The bodies and the observation points of a run are those that the configuration file says, whatever the other configuration files say. -/
theorem C122_read (e : Surroundings S) {d : Disk} (hd : d.WF) (h0 : d [] = some .dir) {v : Val ℚ} {bodies : List (BodyEntry S)} {pts : List (V3 S)} (h : SaysRun e d v bodies pts)
    (user : Option (Val S)) (dflt : Val S) :
    configShow (View.root (setupSources (some (v.read e.lit)) user dflt)) = .ok () ∧
    (∃ ms, getMasses e.geodesy (Outside.ofDisk e.csv e.resolve e.ceil (setupLogger e.install d).2) (View.root (setupSources (some (v.read e.lit)) user dflt)) = .ok ms ∧
      List.Forall₂ (fun m b => m.density = b.density ∧ m.gravityConstant = b.constant ∧ m.dataset.coords.rows = b.points ∧ m.dataset.crs.name = .CART) ms bodies) ∧
    ∃ ob, getObserver e.geodesy (Outside.ofDisk e.csv e.resolve e.ceil (setupLogger e.install d).2) (View.root (setupSources (some (v.read e.lit)) user dflt)) = .ok ob ∧
      ob.dataset.coords.rows = pts ∧ ob.dataset.crs.name = .CART ∧ ob.coordsName = ["x_mes", "y_mes", "z_mes"] ∧ ob.coordsUnit = ["(m)", "(m)", "(m)"] := by
  have hroot : (View.root (setupSources (some (v.read e.lit)) user dflt)).Top (v.read e.lit) := ⟨_, rfl⟩
  generalize View.root (setupSources (some (v.read e.lit)) user dflt) = cfg at hroot
  obtain ⟨vs, h1, h2⟩ := h.masses
  obtain ⟨w, h3, h4, h5⟩ := h.observers
  have ho := hroot.says h3
  rw [View.path_one] at ho
  obtain ⟨ws, hiter, hall⟩ := bodies_read e hd h0 h1 h2 hroot
  obtain ⟨k1, ms, k2, k3⟩ := hall
  obtain ⟨b, k4⟩ := h4.read hd h0 ho
  refine ⟨?_, ⟨ms, ?_, k3⟩, ⟨mkObserver ⟨⟨pts, b⟩, ⟨.CART, none, none, .ELLPS⟩⟩, ?_, rfl, rfl, rfl, rfl⟩⟩
  · have hshow : showAll (cfg.at "observers") observersShown = .ok () := by
      refine showAll_found fun p hp => ?_
      have hp' : p = ["crs", "ref"] ∨ p ∈ [["grid", "xstart_xend_xstep"], ["grid", "ystart_yend_ystep"], ["grid", "zstart_zend_zstep"]] ∨
          p ∈ [["points"], ["file_path"], ["crs", "name"], ["crs", "semimajor_axis"], ["crs", "semiminor_axis"], ["crs", "longitude_origin"], ["crs", "latitude_origin"],
            ["crs", "altitude_origin"]] := by
        simp only [observersShown, List.mem_cons, List.not_mem_nil, or_false] at hp ⊢
        tauto
      rcases hp' with rfl | hp' | hp'
      · obtain ⟨s, hs, -⟩ := h4.ref
        exact ⟨_, (ho.says hs).first⟩
      · obtain ⟨x, hx⟩ := h5 p hp'
        exact ⟨_, (ho.says hx).first⟩
      · obtain ⟨x, hx⟩ := h4.others p hp'
        exact ⟨_, (ho.says hx).first⟩
    simp only [configShow, hiter, k1, hshow, Bind.bind, Except.bind]
  · simp only [getMasses, hiter, Bind.bind, Except.bind, k2]
  · simp only [getObserver, k4, Bind.bind, Except.bind, Pure.pure, Except.pure]

/-- A run reads these Cartesian bodies and observation points, whatever the other configuration files say. -/
def Reads (e : Surroundings S) (d : Disk) (v : Val ℚ) (bodies : List (BodyEntry S)) (pts : List (V3 S)) : Prop := ∀ (user : Option (Val S)) (dflt : Val S),
    configShow (View.root (setupSources (some (v.read e.lit)) user dflt)) = .ok () ∧
    (∃ ms, getMasses e.geodesy (Outside.ofDisk e.csv e.resolve e.ceil (setupLogger e.install d).2) (View.root (setupSources (some (v.read e.lit)) user dflt)) = .ok ms ∧
      List.Forall₂ (fun m b => m.density = b.density ∧ m.gravityConstant = b.constant ∧ m.dataset.coords.rows = b.points ∧ m.dataset.crs.name = .CART) ms bodies) ∧
    ∃ ob, getObserver e.geodesy (Outside.ofDisk e.csv e.resolve e.ceil (setupLogger e.install d).2) (View.root (setupSources (some (v.read e.lit)) user dflt)) = .ok ob ∧
      ob.dataset.coords.rows = pts ∧ ob.dataset.crs.name = .CART ∧ ob.coordsName = ["x_mes", "y_mes", "z_mes"] ∧ ob.coordsUnit = ["(m)", "(m)", "(m)"]

/-! ### What is called, and what is written -/

/-- The words call `run`, with gradient if `gr`, for the configuration file in which `v` is written, and `q` is the output file.  The grids are installed, the log can be written,
the directory of the output exists, the output file can be written; the user's file and the defaults of the package can be read. -/
structure Surroundings.Calls (e : Surroundings S) (d : Disk) (args : List (List Char)) (gr : Bool) (v : Val ℚ) (q : Path) : Prop where
  disk : d.WF
  top : d [] = some .dir
  grids : GridsInstalled e.grid e.install d
  logger : (setupLogger e.install d).1 = .ok ()
  other : ∃ user dflt, e.Holds d user dflt
  words : ∃ l os output cfg file es, (args = "run".toList :: l ∨ args = "--".toList :: "run".toList :: l) ∧ RunWords l os [output] ∧ ¬ AsksHelp os ∧
    LastValue "--config".toList os cfg ∧ (gr = true ↔ WantsGradient os) ∧
    cfg ≠ [] ∧ e.resolve (String.ofList cfg) ≠ e.install.logFile ∧ d (e.resolve (String.ofList cfg)) = some (.text (unlines file)) ∧ PlainLines file ∧
    v = .dict es ∧ Writes file v ∧
    output ≠ [] ∧ PathSuffixReplaced ".csv".toList (e.expand output) q
  place : d q.dropLast = some .dir
  free : d q ≠ some .dir ∧ ¬ q <+: e.install.logdir
  writable : e.install.ro q.dropLast = false

/-- numbers, in the texts that the library gives them, with commas between them -/
def numberLine (csv : CsvLib S) (xs : List S) : List Char := List.intercalate [','] (xs.map csv.text) ++ ['\n']

/-- the output file: two lines of titles, and a line for each point -/
def outputText (csv : CsvLib S) (pts : List (V3 S)) (values : V3 S → List S) : List Char :=
  "x_mes,y_mes,z_mes,Gx,Gy,Gz,txx,txy,txz,tyy,tyz,tzz\n".toList ++
  "(m),(m),(m),(mGal),(mGal),(mGal),(E),(E),(E),(E),(E),(E)\n".toList ++
  pts.flatMap fun p => numberLine csv ([p.x, p.y, p.z] ++ values p)

theorem calls_done_at {e : Surroundings S} {d : Disk} {args : List (List Char)} {gr : Bool} {v : Val ℚ} {q : Path} (h : e.Calls d args gr v q)
    {user dflt : Val S} (hold : e.Holds d user dflt) {t : Table S}
    (ht : runTable e.geodesy (Outside.ofDisk e.csv e.resolve e.ceil (setupLogger e.install d).2) e.hull
      (View.root (setupSources (some (v.read e.lit)) (some user) dflt)) gr = .ok t) :
    ∃ d', geecProgram e args d = some (.done, d') ∧ d' q = some (.text (toCsv e.csv t)) ∧ ∀ r, r ≠ q → d' r = (setupLogger e.install d).2 r := by
  obtain ⟨l, os, output, cfg, file, es, k1, k2, k3, k4, k5, k6, k7, k8, k9, rfl, k10, k11, k12⟩ := h.words
  obtain ⟨hstep, hd1, h01⟩ := setupLogger_step e.install h.disk h.top
  have hrun := C121_run e d h.disk h.top h.grids args l k1 os output cfg gr k2 k3 k4 k5 user dflt hold (some ((Val.dict es).read e.lit))
    (.inr ⟨k6, k7, _, .mapping file es k8 k9 k10, rfl⟩)
  rw [if_neg k11] at hrun
  have hl := h.logger
  unfold geecRun at hrun
  rcases hs : setupLogger e.install d with ⟨err | u, d1⟩
  · rw [hs] at hl; cases hl
  rw [hs] at hrun ht hstep hd1 h01
  dsimp only at hrun ht hstep hd1 h01 ⊢
  rw [ht] at hrun
  have hq := pathSuffixReplaced_iff.mp k12
  have hqd : q.dropLast = (e.expand output).dropLast := by
    obtain ⟨dir, name, out, h1, -, rfl⟩ := k12
    rw [h1]; simp
  have hplace : d1 (e.expand output).dropLast = some .dir := by
    rw [← hqd]
    rcases hstep.only q.dropLast with h1 | ⟨-, -, h1⟩ | ⟨-, h1, -⟩
    · rw [h1]; exact h.place
    · exact h1
    · exact absurd h.place h1
  have hfree : d1 q ≠ some .dir := by
    rcases hstep.only q with h1 | ⟨h1, -⟩ | ⟨-, -, t, h1⟩
    · rw [h1]; exact h.free.1
    · exact absurd h1 h.free.2
    · rw [h1]; simp
  have hmk : mkdirP e.install.ro (e.expand output).dropLast d1 = (.ok (), d1) :=
    mkdirFrom_exists e.install.ro _ [] (wf_prefix hd1 _ hplace)
  refine ⟨fun r => if r = q then some (.text (toCsv e.csv t)) else d1 r, ?_, by simp, fun r hr => by simp [hr]⟩
  rw [hrun]
  have hw := h.writable
  rw [hqd] at hw
  simp only [Except.map, Sub2.exec, writeCsv, hmk, hq, openWrite, hw, Bool.false_eq_true, and_false, if_false, writeText, hqd, hplace, hfree, Outcome.of]

theorem calls_done {e : Surroundings S} {d : Disk} {args : List (List Char)} {gr : Bool} {v : Val ℚ} {q : Path} (h : e.Calls d args gr v q)
    (t : Val S → Val S → Table S)
    (ht : ∀ user dflt, runTable e.geodesy (Outside.ofDisk e.csv e.resolve e.ceil (setupLogger e.install d).2) e.hull
      (View.root (setupSources (some (v.read e.lit)) (some user) dflt)) gr = .ok (t user dflt)) :
    ∃ user dflt d', geecProgram e args d = some (.done, d') ∧ d' q = some (.text (toCsv e.csv (t user dflt))) ∧ ∀ r, r ≠ q → d' r = (setupLogger e.install d).2 r := by
  obtain ⟨user, dflt, hold⟩ := h.other
  exact ⟨user, dflt, calls_done_at h hold (ht user dflt)⟩

theorem title_names : List.intercalate [','] (((["x_mes", "y_mes", "z_mes"] ++ fieldName).zip (["(m)", "(m)", "(m)"] ++ fieldUnit)).map (fun c => c.1.toList)) ++ ['\n'] =
    "x_mes,y_mes,z_mes,Gx,Gy,Gz,txx,txy,txz,tyy,tyz,tzz\n".toList := by decide +kernel

theorem title_units : List.intercalate [','] (((["x_mes", "y_mes", "z_mes"] ++ fieldName).zip (["(m)", "(m)", "(m)"] ++ fieldUnit)).map (fun c => c.2.toList)) ++ ['\n'] =
    "(m),(m),(m),(mGal),(mGal),(mGal),(E),(E),(E),(E),(E),(E)\n".toList := by decide +kernel

omit [Arith S] in
theorem header_line (csv : CsvLib S) (t : Table S) (values : V3 S → List S) (pts : List (V3 S))
    (hcol : t.columns = (["x_mes", "y_mes", "z_mes"] ++ fieldName).zip (["(m)", "(m)", "(m)"] ++ fieldUnit))
    (hrows : t.rows = pts.map fun p => [p.x, p.y, p.z] ++ values p) :
    ((t.columns.map (fun c => c.1.toList) :: t.columns.map (fun c => c.2.toList) :: t.rows.map (fun r => r.map csv.text)).flatMap
      fun l => List.intercalate [','] l ++ ['\n']) = outputText csv pts values := by
  have h1 := title_names
  have h2 := title_units
  rw [← hcol] at h1 h2
  unfold outputText
  rw [← h1, ← h2, List.flatMap_cons, List.flatMap_cons, hrows, List.map_map, List.flatMap_map]
  simp only [List.append_assoc, Function.comp_def, numberLine]

omit [Arith S] in
theorem rows_eq {rows : List (List S)} {pts : List (V3 S)} {values : V3 S → List S} (hlen : rows.length = pts.length)
    (h : ∀ (i : Nat) p, pts[i]? = some p → rows[i]? = some ([p.x, p.y, p.z] ++ values p)) : rows = pts.map fun p => [p.x, p.y, p.z] ++ values p := by
  refine List.ext_getElem? fun i => ?_
  rw [List.getElem?_map]
  rcases hi : pts[i]? with _ | p
  · rw [List.getElem?_eq_none_iff] at hi
    rw [List.getElem?_eq_none (by omega)]; rfl
  · exact h i p hi

/-! ### The field -/

/-- the sum of a number per body -/
noncomputable def bodySum (bodies : List (BodyEntry ℝ)) (f : Set P3 → ℝ) : ℝ := (bodies.map fun b => f (solidOf b.points)).sum

theorem bodySum_eq {bodies : List (BodyEntry ℝ)} {ms : List (Mass ℝ)}
    (h : List.Forall₂ (fun (m : Mass ℝ) (b : BodyEntry ℝ) => m.density = b.density ∧ m.gravityConstant = b.constant ∧ m.dataset.coords.rows = b.points ∧ m.dataset.crs.name = .CART)
      ms bodies) (f : Set P3 → ℝ) : sumOver ms f = bodySum bodies f := by
  unfold sumOver bodySum
  congr 1
  induction h with
  | nil => rfl
  | cons h _ ih => simp only [List.map_cons, h.2.2.1, ih]

/-- the bodies have the same density and constant -/
def SameDensity (bodies : List (BodyEntry ℝ)) (ρ Gc : ℝ) : Prop := ∀ b ∈ bodies, b.density = ρ ∧ b.constant = Gc

/-- the point is none of the points of the bodies, and in a regular position -/
def ClearPoint (lib : HullLib ℝ) (bodies : List (BodyEntry ℝ)) (p : V3 ℝ) : Prop :=
  ∀ b ∈ bodies, p ∉ b.points ∧ ∀ h, lib.convexHull b.points = .ok h → h.Regular p

/-- the same for the tensor: outside, in a regular position for it, and no distance from a point of a body is the distance of this point from another one -/
def ClearTensor (lib : HullLib ℝ) (bodies : List (BodyEntry ℝ)) (p : V3 ℝ) : Prop :=
  ClearPoint lib bodies p ∧ ∀ b ∈ bodies, (∀ a ∈ b.points, ∀ c ∈ b.points, vlen (c.sub a) ≠ vlen (a.sub p)) ∧
    ∀ h, lib.convexHull b.points = .ok h → h.TensorRegular p ∧ p.toP ∉ h.body

theorem member {ms : List (Mass ℝ)} {bodies : List (BodyEntry ℝ)} {R : Mass ℝ → BodyEntry ℝ → Prop} (h : List.Forall₂ R ms bodies) {m : Mass ℝ} (hm : m ∈ ms) :
    ∃ b ∈ bodies, R m b := by
  induction h with
  | nil => cases hm
  | cons h _ ih =>
    rcases List.mem_cons.mp hm with rfl | hm
    · exact ⟨_, List.mem_cons_self, h⟩
    · obtain ⟨b, hb, hr⟩ := ih hm
      exact ⟨b, List.mem_cons_of_mem _ hb, hr⟩

theorem run_of_reads (e : Surroundings ℝ) (hlib : e.hull.Honest) (hplain : ∀ x, PlainField (e.csv.text x)) {d : Disk} {args : List (List Char)} {v : Val ℚ} {q : Path}
    (hcall : e.Calls d args false v q) {bodies : List (BodyEntry ℝ)} {pts : List (V3 ℝ)} (hread : Reads e d v bodies pts) (hpts : pts ≠ []) (hne : bodies ≠ [])
    (hhull : ∀ b ∈ bodies, ∃ h, e.hull.convexHull b.points = .ok h) {ρ Gc : ℝ} (hsame : SameDensity bodies ρ Gc) (hclear : ∀ p ∈ pts, ClearPoint e.hull bodies p) :
    ∃ d', geecProgram e args d = some (.done, d') ∧ (∀ r, r ≠ q → d' r = (setupLogger e.install d).2 r) ∧
      d' q = some (.text (outputText e.csv pts fun p => [
        100000 * Gc * ρ * bodySum bodies (fun B => (attraction B p).x),
        100000 * Gc * ρ * bodySum bodies (fun B => (attraction B p).y),
        100000 * Gc * ρ * bodySum bodies (fun B => (attraction B p).z), 0, 0, 0, 0, 0, 0])) := by
  have key : ∀ user dflt, ∃ t, runTable e.geodesy (Outside.ofDisk e.csv e.resolve e.ceil (setupLogger e.install d).2) e.hull
      (View.root (setupSources (some (v.read e.lit)) (some user) dflt)) false = .ok t ∧ toCsv e.csv t = outputText e.csv pts fun p => [
        100000 * Gc * ρ * bodySum bodies (fun B => (attraction B p).x),
        100000 * Gc * ρ * bodySum bodies (fun B => (attraction B p).y),
        100000 * Gc * ρ * bodySum bodies (fun B => (attraction B p).z), 0, 0, 0, 0, 0, 0] := by
    intro user dflt
    obtain ⟨k1, ⟨ms, k2, k3⟩, ob, k4, k5, k6, k7, k8⟩ := hread (some user) dflt
    have hcm : ∀ m ∈ ms, m.dataset.crs.name = .CART := fun m hm => by obtain ⟨b, -, hb⟩ := member k3 hm; exact hb.2.2.2
    have hms : ms ≠ [] := by rintro rfl; cases k3; exact hne rfl
    obtain ⟨t, ht⟩ := (C69_returns e.geodesy _ e.hull hlib _ k1 ms k2 hms hcm (fun m hm => by
      obtain ⟨b, h1, h2⟩ := member k3 hm; rw [h2.2.2.1]; exact hhull b h1) ob k4 k6 (by rw [k5]; exact hpts) (by
      intro p hp m hm
      obtain ⟨b, h1, h2⟩ := member k3 hm
      rw [h2.2.2.1]; exact (hclear p (k5 ▸ hp) b h1).1)).1
    refine ⟨t, ht, ?_⟩
    obtain ⟨r, first, rest, hr, -, -, hcol, hrows⟩ := runTable_ok ht
    obtain rfl : ms = r.configured := by have := hr.configured; rw [k2] at this; exact Except.ok.inj this
    obtain rfl : ob = r.observer := by have := hr.observer; rw [k4] at this; exact Except.ok.inj this
    obtain ⟨-, h2, -⟩ := C36_partial e.geodesy _ e.hull _ r hr hcm k6
    rw [C109_text e.geodesy _ e.csv hplain e.hull _ false t ht]
    refine header_line e.csv t _ pts (by rw [hcol, k7, k8]) (rows_eq (by rw [← hrows.length_eq, h2, k5]) fun i p hp => ?_)
    obtain ⟨row, h3, h4, h5⟩ := C69_cartesian e.geodesy _ e.hull hlib _ false t _ _ ht k2 k4 hcm k6 ρ Gc (fun m hm => by
      obtain ⟨b, h1, h2⟩ := member k3 hm
      rw [h2.1, h2.2.1]; exact hsame b h1) i p (by rw [k5]; exact hp) (fun m hm h hh => by
      obtain ⟨b, h1, h2⟩ := member k3 hm
      rw [h2.2.2.1] at hh; exact (hclear p (List.mem_of_getElem? hp) b h1).2 h hh)
    have h6 := C04_run_zero_columns (fun a : ℝ => add_zero a) e.geodesy _ e.hull _ t ht row (List.mem_of_getElem? h3)
    rw [h3, ← List.take_append_drop 6 row, h5, h6]
    simp only [bodySum_eq k3]
    rfl
  choose t ht1 ht2 using key
  obtain ⟨user, dflt, d', h1, h2, h3⟩ := calls_done hcall t ht1
  exact ⟨d', h1, h3, by rw [h2, ht2]⟩

/-- **C122** From texts to texts.  `geec run`, with any words that mean it, on a configuration file in which Cartesian bodies of the same density and constant and Cartesian
observation points are written (listed there, or in files of points that it names) returns; then the output file has two lines of titles and, for each observation
point in order, a line with its coordinates, `1e5 Gc ρ` times the sum of Newton's integrals over the convex hulls of the points of the bodies, and six zeros.  No other file is changed
but the log. -/
theorem C122_run (e : Surroundings ℝ) (hlib : e.hull.Honest) (hplain : ∀ x, PlainField (e.csv.text x)) {d : Disk} {args : List (List Char)} {v : Val ℚ} {q : Path}
    (hcall : e.Calls d args false v q) {bodies : List (BodyEntry ℝ)} {pts : List (V3 ℝ)} (hsays : SaysRun e d v bodies pts) (hne : bodies ≠ [])
    (hhull : ∀ b ∈ bodies, ∃ h, e.hull.convexHull b.points = .ok h) {ρ Gc : ℝ} (hsame : SameDensity bodies ρ Gc) (hclear : ∀ p ∈ pts, ClearPoint e.hull bodies p) :
    ∃ d', geecProgram e args d = some (.done, d') ∧ (∀ r, r ≠ q → d' r = (setupLogger e.install d).2 r) ∧
      d' q = some (.text (outputText e.csv pts fun p => [
        100000 * Gc * ρ * bodySum bodies (fun B => (attraction B p).x),
        100000 * Gc * ρ * bodySum bodies (fun B => (attraction B p).y),
        100000 * Gc * ρ * bodySum bodies (fun B => (attraction B p).z), 0, 0, 0, 0, 0, 0])) :=
  run_of_reads e hlib hplain hcall (C122_read e hcall.disk hcall.top hsays) hsays.ne_nil hne hhull hsame hclear

theorem gradient_of_reads (e : Surroundings ℝ) (hlib : e.hull.Honest) (hplain : ∀ x, PlainField (e.csv.text x)) {d : Disk} {args : List (List Char)} {v : Val ℚ} {q : Path}
    (hcall : e.Calls d args true v q) {bodies : List (BodyEntry ℝ)} {pts : List (V3 ℝ)} (hread : Reads e d v bodies pts) (hpts : pts ≠ []) (hne : bodies ≠ [])
    (hhull : ∀ b ∈ bodies, ∃ h, e.hull.convexHull b.points = .ok h) {ρ Gc : ℝ} (hsame : SameDensity bodies ρ Gc) (hclear : ∀ p ∈ pts, ClearTensor e.hull bodies p) :
    ∃ d', geecProgram e args d = some (.done, d') ∧ (∀ r, r ≠ q → d' r = (setupLogger e.install d).2 r) ∧
      d' q = some (.text (outputText e.csv pts fun p => [
        100000 * Gc * ρ * bodySum bodies (fun B => (attraction B p).x),
        100000 * Gc * ρ * bodySum bodies (fun B => (attraction B p).y),
        100000 * Gc * ρ * bodySum bodies (fun B => (attraction B p).z),
        1000000000 * Gc * ρ * bodySum bodies (fun B => (tidal B p).r0.x),
        1000000000 * Gc * ρ * bodySum bodies (fun B => (tidal B p).r0.y),
        1000000000 * Gc * ρ * bodySum bodies (fun B => (tidal B p).r0.z),
        1000000000 * Gc * ρ * bodySum bodies (fun B => (tidal B p).r1.y),
        1000000000 * Gc * ρ * bodySum bodies (fun B => (tidal B p).r1.z),
        1000000000 * Gc * ρ * bodySum bodies (fun B => (tidal B p).r2.z)])) := by
  have key : ∀ user dflt, ∃ t, runTable e.geodesy (Outside.ofDisk e.csv e.resolve e.ceil (setupLogger e.install d).2) e.hull
      (View.root (setupSources (some (v.read e.lit)) (some user) dflt)) true = .ok t ∧ toCsv e.csv t = outputText e.csv pts fun p => [
        100000 * Gc * ρ * bodySum bodies (fun B => (attraction B p).x),
        100000 * Gc * ρ * bodySum bodies (fun B => (attraction B p).y),
        100000 * Gc * ρ * bodySum bodies (fun B => (attraction B p).z),
        1000000000 * Gc * ρ * bodySum bodies (fun B => (tidal B p).r0.x),
        1000000000 * Gc * ρ * bodySum bodies (fun B => (tidal B p).r0.y),
        1000000000 * Gc * ρ * bodySum bodies (fun B => (tidal B p).r0.z),
        1000000000 * Gc * ρ * bodySum bodies (fun B => (tidal B p).r1.y),
        1000000000 * Gc * ρ * bodySum bodies (fun B => (tidal B p).r1.z),
        1000000000 * Gc * ρ * bodySum bodies (fun B => (tidal B p).r2.z)] := by
    intro user dflt
    obtain ⟨k1, ⟨ms, k2, k3⟩, ob, k4, k5, k6, k7, k8⟩ := hread (some user) dflt
    have hcm : ∀ m ∈ ms, m.dataset.crs.name = .CART := fun m hm => by obtain ⟨b, -, hb⟩ := member k3 hm; exact hb.2.2.2
    have hms : ms ≠ [] := by rintro rfl; cases k3; exact hne rfl
    obtain ⟨t, ht⟩ := (C69_returns e.geodesy _ e.hull hlib _ k1 ms k2 hms hcm (fun m hm => by
      obtain ⟨b, h1, h2⟩ := member k3 hm; rw [h2.2.2.1]; exact hhull b h1) ob k4 k6 (by rw [k5]; exact hpts) (by
      intro p hp m hm
      obtain ⟨b, h1, h2⟩ := member k3 hm
      rw [h2.2.2.1]; exact ((hclear p (k5 ▸ hp)).1 b h1).1)).2 (by
      intro p hp m hm
      obtain ⟨b, h1, h2⟩ := member k3 hm
      rw [h2.2.2.1]; exact ((hclear p (k5 ▸ hp)).2 b h1).1)
    refine ⟨t, ht, ?_⟩
    obtain ⟨r, first, rest, hr, -, -, hcol, hrows⟩ := runTable_ok ht
    obtain rfl : ms = r.configured := by have := hr.configured; rw [k2] at this; exact Except.ok.inj this
    obtain rfl : ob = r.observer := by have := hr.observer; rw [k4] at this; exact Except.ok.inj this
    obtain ⟨h1, h2, -⟩ := C36_partial e.geodesy _ e.hull _ r hr hcm k6
    have hden : ∀ m ∈ r.configured, m.density = ρ ∧ m.gravityConstant = Gc := fun m hm => by
      obtain ⟨b, h1, h2⟩ := member k3 hm
      rw [h2.1, h2.2.1]; exact hsame b h1
    rw [C109_text e.geodesy _ e.csv hplain e.hull _ true t ht]
    refine header_line e.csv t _ pts (by rw [hcol, k7, k8]) (rows_eq (by rw [← hrows.length_eq, h2, k5]) fun i p hp => ?_)
    obtain ⟨row, h3, h4, h5⟩ := C69_cartesian e.geodesy _ e.hull hlib _ true t _ _ ht k2 k4 hcm k6 ρ Gc hden i p (by rw [k5]; exact hp) (fun m hm h hh => by
      obtain ⟨b, h1, h2⟩ := member k3 hm
      rw [h2.2.2.1] at hh; exact ((hclear p (List.mem_of_getElem? hp)).1 b h1).2 h hh)
    obtain ⟨row', h3', h6⟩ := C69_tidal e.geodesy _ e.hull hlib _ t r ht hr ρ Gc hden i p (by rw [h2, k5]; exact hp) (by
      rw [h1]
      intro m hm h hh
      obtain ⟨b, h1, h2⟩ := member k3 hm
      rw [h2.2.2.1] at hh; exact ((hclear p (List.mem_of_getElem? hp)).2 b h1).2 h hh)
    obtain rfl : row = row' := by rw [h3] at h3'; exact Option.some.inj h3'
    rw [h3, ← List.take_append_drop 6 row, h5, h6, h1]
    simp only [bodySum_eq k3]
    rfl
  choose t ht1 ht2 using key
  obtain ⟨user, dflt, d', h1, h2, h3⟩ := calls_done hcall t ht1
  exact ⟨d', h1, h3, by rw [h2, ht2]⟩

/-- **C122** The same with `--gradient`, at points outside the bodies: the last six numbers are `1e9 Gc ρ` times the sums of the tidal integrals. -/
theorem C122_gradient (e : Surroundings ℝ) (hlib : e.hull.Honest) (hplain : ∀ x, PlainField (e.csv.text x)) {d : Disk} {args : List (List Char)} {v : Val ℚ} {q : Path}
    (hcall : e.Calls d args true v q) {bodies : List (BodyEntry ℝ)} {pts : List (V3 ℝ)} (hsays : SaysRun e d v bodies pts) (hne : bodies ≠ [])
    (hhull : ∀ b ∈ bodies, ∃ h, e.hull.convexHull b.points = .ok h) {ρ Gc : ℝ} (hsame : SameDensity bodies ρ Gc) (hclear : ∀ p ∈ pts, ClearTensor e.hull bodies p) :
    ∃ d', geecProgram e args d = some (.done, d') ∧ (∀ r, r ≠ q → d' r = (setupLogger e.install d).2 r) ∧
      d' q = some (.text (outputText e.csv pts fun p => [
        100000 * Gc * ρ * bodySum bodies (fun B => (attraction B p).x),
        100000 * Gc * ρ * bodySum bodies (fun B => (attraction B p).y),
        100000 * Gc * ρ * bodySum bodies (fun B => (attraction B p).z),
        1000000000 * Gc * ρ * bodySum bodies (fun B => (tidal B p).r0.x),
        1000000000 * Gc * ρ * bodySum bodies (fun B => (tidal B p).r0.y),
        1000000000 * Gc * ρ * bodySum bodies (fun B => (tidal B p).r0.z),
        1000000000 * Gc * ρ * bodySum bodies (fun B => (tidal B p).r1.y),
        1000000000 * Gc * ρ * bodySum bodies (fun B => (tidal B p).r1.z),
        1000000000 * Gc * ρ * bodySum bodies (fun B => (tidal B p).r2.z)])) :=
  gradient_of_reads e hlib hplain hcall (C122_read e hcall.disk hcall.top hsays) hsays.ne_nil hne hhull hsame hclear

/-! ### A complete case: words, files, and what is written -/

namespace Whole

/-- a configuration file with one body, whose points are listed in it, and with the observation points in another file -/
def wholeFile : List (List Char) := [
  "masses:".toList,
  "  - density: 2".toList,
  "    gravity_constant: 1".toList,
  "    points: [[0, 0, 0], [1, 0, 0], [0.5, 0.5, 0], [0, 0, 1]]".toList,
  "    file_path:".toList,
  "    crs:".toList,
  "      ref: cart".toList,
  "      name:".toList,
  "      vdatum:".toList,
  "      semimajor_axis:".toList,
  "      semiminor_axis:".toList,
  "      longitude_origin:".toList,
  "      latitude_origin:".toList,
  "      altitude_origin:".toList,
  "observers:".toList,
  "  points:".toList,
  "  file_path: p.csv".toList,
  "  crs:".toList,
  "    ref: cart".toList,
  "    name:".toList,
  "    vdatum:".toList,
  "    semimajor_axis:".toList,
  "    semiminor_axis:".toList,
  "    longitude_origin:".toList,
  "    latitude_origin:".toList,
  "    altitude_origin:".toList,
  "  grid:".toList,
  "    xstart_xend_xstep:".toList,
  "    ystart_yend_ystep:".toList,
  "    zstart_zend_zstep:".toList]

/-- the points of the body -/
def ptsVal : List (Val ℚ) := [.list [.num true 0, .num true 0, .num true 0], .list [.num true 1, .num true 0, .num true 0], .list [.num false (1/2), .num false (1/2), .num true 0],
  .list [.num true 0, .num true 0, .num true 1]]

/-- what is written in it -/
def wholeValue : List (String × Val ℚ) := [("masses", .list [.dict [("density", .num true 2), ("gravity_constant", .num true 1), ("points", .list ptsVal), ("file_path", .null), 
  ("crs", .dict [("ref", .str "cart"), ("name", .null), ("vdatum", .null), ("semimajor_axis", .null), ("semiminor_axis", .null), ("longitude_origin", .null), ("latitude_origin", .null), ("altitude_origin", .null)])]]), 
  ("observers", .dict [("points", .null), ("file_path", .str "p.csv"), 
  ("crs", .dict [("ref", .str "cart"), ("name", .null), ("vdatum", .null), ("semimajor_axis", .null), ("semiminor_axis", .null), ("longitude_origin", .null), ("latitude_origin", .null), ("altitude_origin", .null)]), 
  ("grid", .dict [("xstart_xend_xstep", .null), ("ystart_yend_ystep", .null), ("zstart_zend_zstep", .null)])])]

theorem key_word {k : String} (h : (match k.toList with | [] => false | c :: _ => c.isAlpha) = true)
    (h2 : k.toList.all (fun c => 33 ≤ c.toNat && c.toNat ≤ 126 && c ∉ [',', '"', '\'', '[', ']', '{', '}']) = true) (h4 : k.toList.getLast? ≠ some ':')
    (h3 : k ∉ ["null", "Null", "NULL", "yes", "Yes", "YES", "no", "No", "NO", "true", "True", "TRUE", "false", "False", "FALSE", "on", "On", "ON", "off", "Off", "OFF"]) :
    Word k.toList := by
  refine sample_word ?_ h2 h4 (by rw [String.ofList_toList]; exact h3)
  rcases hk : k.toList with _ | ⟨c, r⟩
  · rw [hk] at h; cases h
  · rw [hk] at h; exact ⟨c, r, rfl, h⟩

theorem w_inline {s : String} (h : Word s.toList) : Inline s.toList (.str s) := by
  have := Inline.word _ h
  rwa [String.ofList_toList] at this

theorem e_null {i : ℕ} {key line : String} {ls : List (ℕ × List Char)} {es : List (String × Val ℚ)} (hk : KeyWord key.toList) (hf : key ∉ es.map (·.1))
    (hl : line.toList = key.toList ++ [':']) (h : BlockEntries i ls es) : BlockEntries i ((i, line.toList) :: ls) ((key, .null) :: es) := by
  have := BlockEntries.null i key.toList ls es hk (by rw [String.ofList_toList]; exact hf) h
  rwa [String.ofList_toList, ← hl] at this

theorem e_inline {i : ℕ} {key line : String} {t : List Char} {v : Val ℚ} {ls : List (ℕ × List Char)} {es : List (String × Val ℚ)} (hk : KeyWord key.toList)
    (hf : key ∉ es.map (·.1)) (ht : Inline t v) (hl : line.toList = key.toList ++ ':' :: ' ' :: blanks 0 ++ t) (h : BlockEntries i ls es) :
    BlockEntries i ((i, line.toList) :: ls) ((key, v) :: es) := by
  have := BlockEntries.inline i 0 key.toList t v ls es hk (by rw [String.ofList_toList]; exact hf) ht h
  rwa [String.ofList_toList, ← hl] at this

theorem e_block {i j : ℕ} {key line : String} {v : Val ℚ} {bl ls : List (ℕ × List Char)} {es : List (String × Val ℚ)} (hk : KeyWord key.toList)
    (hf : key ∉ es.map (·.1)) (hl : line.toList = key.toList ++ [':']) (hij : i < j) (hv : Block j bl v) (h : BlockEntries i ls es) :
    BlockEntries i ((i, line.toList) :: (bl ++ ls)) ((key, v) :: es) := by
  have := BlockEntries.block i j key.toList bl ls v es hk (by rw [String.ofList_toList]; exact hf) hij hv h
  rwa [String.ofList_toList, ← hl] at this

theorem y_text {i : ℕ} {t line : String} (h : line.toList = blanks i ++ t.toList) : YamlLine line.toList [(i, t.toList)] := by
  have := YamlLine.text i t.toList [] _ (.text i t.toList) (.blanks 0)
  rwa [List.append_nil, ← h] at this

theorem y_hyphen {i : ℕ} {t line : String} (h : line.toList = blanks i ++ '-' :: ' ' :: t.toList) : YamlLine line.toList [(i, ['-']), (i + 2, t.toList)] := by
  have := YamlLine.text i _ [] _ (.hyphen i 0 t.toList _ (.text _ t.toList)) (.blanks 0)
  rw [List.append_nil] at this
  rw [h]; exact this

theorem kw_altitude_origin : KeyWord "altitude_origin".toList := ⟨key_word (by decide +kernel) (by decide +kernel) (by decide +kernel) (by decide +kernel), by decide +kernel⟩
theorem kw_crs : KeyWord "crs".toList := ⟨key_word (by decide +kernel) (by decide +kernel) (by decide +kernel) (by decide +kernel), by decide +kernel⟩
theorem kw_density : KeyWord "density".toList := ⟨key_word (by decide +kernel) (by decide +kernel) (by decide +kernel) (by decide +kernel), by decide +kernel⟩
theorem kw_file_path : KeyWord "file_path".toList := ⟨key_word (by decide +kernel) (by decide +kernel) (by decide +kernel) (by decide +kernel), by decide +kernel⟩
theorem kw_gravity_constant : KeyWord "gravity_constant".toList := ⟨key_word (by decide +kernel) (by decide +kernel) (by decide +kernel) (by decide +kernel), by decide +kernel⟩
theorem kw_grid : KeyWord "grid".toList := ⟨key_word (by decide +kernel) (by decide +kernel) (by decide +kernel) (by decide +kernel), by decide +kernel⟩
theorem kw_latitude_origin : KeyWord "latitude_origin".toList := ⟨key_word (by decide +kernel) (by decide +kernel) (by decide +kernel) (by decide +kernel), by decide +kernel⟩
theorem kw_longitude_origin : KeyWord "longitude_origin".toList := ⟨key_word (by decide +kernel) (by decide +kernel) (by decide +kernel) (by decide +kernel), by decide +kernel⟩
theorem kw_masses : KeyWord "masses".toList := ⟨key_word (by decide +kernel) (by decide +kernel) (by decide +kernel) (by decide +kernel), by decide +kernel⟩
theorem kw_name : KeyWord "name".toList := ⟨key_word (by decide +kernel) (by decide +kernel) (by decide +kernel) (by decide +kernel), by decide +kernel⟩
theorem kw_observers : KeyWord "observers".toList := ⟨key_word (by decide +kernel) (by decide +kernel) (by decide +kernel) (by decide +kernel), by decide +kernel⟩
theorem kw_points : KeyWord "points".toList := ⟨key_word (by decide +kernel) (by decide +kernel) (by decide +kernel) (by decide +kernel), by decide +kernel⟩
theorem kw_ref : KeyWord "ref".toList := ⟨key_word (by decide +kernel) (by decide +kernel) (by decide +kernel) (by decide +kernel), by decide +kernel⟩
theorem kw_semimajor_axis : KeyWord "semimajor_axis".toList := ⟨key_word (by decide +kernel) (by decide +kernel) (by decide +kernel) (by decide +kernel), by decide +kernel⟩
theorem kw_semiminor_axis : KeyWord "semiminor_axis".toList := ⟨key_word (by decide +kernel) (by decide +kernel) (by decide +kernel) (by decide +kernel), by decide +kernel⟩
theorem kw_vdatum : KeyWord "vdatum".toList := ⟨key_word (by decide +kernel) (by decide +kernel) (by decide +kernel) (by decide +kernel), by decide +kernel⟩
theorem kw_xstart_xend_xstep : KeyWord "xstart_xend_xstep".toList := ⟨key_word (by decide +kernel) (by decide +kernel) (by decide +kernel) (by decide +kernel), by decide +kernel⟩
theorem kw_ystart_yend_ystep : KeyWord "ystart_yend_ystep".toList := ⟨key_word (by decide +kernel) (by decide +kernel) (by decide +kernel) (by decide +kernel), by decide +kernel⟩
theorem kw_zstart_zend_zstep : KeyWord "zstart_zend_zstep".toList := ⟨key_word (by decide +kernel) (by decide +kernel) (by decide +kernel) (by decide +kernel), by decide +kernel⟩
theorem w_cart : Word "cart".toList := key_word (by decide +kernel) (by decide +kernel) (by decide +kernel) (by decide +kernel)
theorem w_p_csv : Word "p.csv".toList := key_word (by decide +kernel) (by decide +kernel) (by decide +kernel) (by decide +kernel)

theorem digit_inline {c : Char} (h : c.isDigit = true) : Inline [c] (.num true (digitOf c)) :=
  sample_number ⟨none, [c], none, none⟩ ⟨by simpa using h, by simp, by simp, by simp⟩ ⟨fun _ => ⟨rfl, by by_cases hc : c = '0' <;> simp [hc]⟩, by simp, by simp⟩ rfl rfl
    (by simp [Decimal.value, signValue, digitsValue])

theorem n0 : Inline ['0'] (.num true 0) := by simpa [digitOf] using digit_inline (c := '0') (by decide)
theorem n1 : Inline ['1'] (.num true 1) := by simpa [digitOf] using digit_inline (c := '1') (by decide)
theorem n2 : Inline ['2'] (.num true 2) := by simpa [digitOf] using digit_inline (c := '2') (by decide)
theorem nh : Inline ['0', '.', '5'] (.num false (1/2)) :=
  sample_number ⟨none, ['0'], some ['5'], none⟩ ⟨by simp, by simp, by simp, by simp⟩ ⟨by simp, by simp, by simp⟩ rfl rfl
    (by norm_num [Decimal.value, signValue, digitsValue, show digitOf '0' = 0 from rfl, show digitOf '5' = 5 from rfl, Nat.ofDigits_cons]; all_goals nofun)

theorem triple_inline {a b c : List Char} {u v w : Val ℚ} (ha : Inline a u) (hb : Inline b v) (hc : Inline c w) :
    Inline ('[' :: (a ++ ',' :: ' ' :: (b ++ ',' :: ' ' :: (c ++ [']'])))) (.list [u, v, w]) := by
  simpa [blanks] using Inline.list _ _ (.cons 0 0 a _ _ _ ha (.cons 1 0 b _ _ _ hb (.last 1 0 c _ hc)))

theorem ptsInline : Inline "[[0, 0, 0], [1, 0, 0], [0.5, 0.5, 0], [0, 0, 1]]".toList (.list ptsVal) := by
  have := Inline.list _ _ (.cons 0 0 _ _ _ _ (triple_inline n0 n0 n0) (.cons 1 0 _ _ _ _ (triple_inline n1 n0 n0)
    (.cons 1 0 _ _ _ _ (triple_inline nh nh n0) (.last 1 0 _ _ (triple_inline n0 n0 n1)))))
  rw [show "[[0, 0, 0], [1, 0, 0], [0.5, 0.5, 0], [0, 0, 1]]".toList =
    ['[', '[', '0', ',', ' ', '0', ',', ' ', '0', ']', ',', ' ', '[', '1', ',', ' ', '0', ',', ' ', '0', ']', ',', ' ', '[', '0', '.', '5', ',', ' ', '0', '.', '5', ',', ' ', '0', ']', ',', ' ', '[', '0', ',', ' ', '0', ',', ' ', '1', ']', ']'] by decide +kernel]
  simpa [blanks, ptsVal] using this

theorem whole_lines : List.Forall₂ YamlLine wholeFile [[(0, "masses:".toList)], [(2, ['-']), (4, "density: 2".toList)], [(4, "gravity_constant: 1".toList)], [(4, "points: [[0, 0, 0], [1, 0, 0], [0.5, 0.5, 0], [0, 0, 1]]".toList)], [(4, "file_path:".toList)], [(4, "crs:".toList)], [(6, "ref: cart".toList)], [(6, "name:".toList)], [(6, "vdatum:".toList)], [(6, "semimajor_axis:".toList)], [(6, "semiminor_axis:".toList)], [(6, "longitude_origin:".toList)], [(6, "latitude_origin:".toList)], [(6, "altitude_origin:".toList)], [(0, "observers:".toList)], [(2, "points:".toList)], [(2, "file_path: p.csv".toList)], [(2, "crs:".toList)], [(4, "ref: cart".toList)], [(4, "name:".toList)], [(4, "vdatum:".toList)], [(4, "semimajor_axis:".toList)], [(4, "semiminor_axis:".toList)], [(4, "longitude_origin:".toList)], [(4, "latitude_origin:".toList)], [(4, "altitude_origin:".toList)], [(2, "grid:".toList)], [(4, "xstart_xend_xstep:".toList)], [(4, "ystart_yend_ystep:".toList)], [(4, "zstart_zend_zstep:".toList)]] :=
  (.cons (y_text (by decide +kernel)) (.cons (y_hyphen (i := 2) (by decide +kernel)) (.cons (y_text (by decide +kernel)) (.cons (y_text (by decide +kernel)) (.cons (y_text (by decide +kernel)) (.cons (y_text (by decide +kernel)) (.cons (y_text (by decide +kernel)) (.cons (y_text (by decide +kernel)) (.cons (y_text (by decide +kernel)) (.cons (y_text (by decide +kernel)) (.cons (y_text (by decide +kernel)) (.cons (y_text (by decide +kernel)) (.cons (y_text (by decide +kernel)) (.cons (y_text (by decide +kernel)) (.cons (y_text (by decide +kernel)) (.cons (y_text (by decide +kernel)) (.cons (y_text (by decide +kernel)) (.cons (y_text (by decide +kernel)) (.cons (y_text (by decide +kernel)) (.cons (y_text (by decide +kernel)) (.cons (y_text (by decide +kernel)) (.cons (y_text (by decide +kernel)) (.cons (y_text (by decide +kernel)) (.cons (y_text (by decide +kernel)) (.cons (y_text (by decide +kernel)) (.cons (y_text (by decide +kernel)) (.cons (y_text (by decide +kernel)) (.cons (y_text (by decide +kernel)) (.cons (y_text (by decide +kernel)) (.cons (y_text (by decide +kernel)) .nil))))))))))))))))))))))))))))))

theorem whole_writes : Writes wholeFile (.dict wholeValue) := by
  have h := Block.dict 0 _ _ (List.cons_ne_nil _ _)
    (e_block kw_masses (line := "masses:") (by decide +kernel) (by decide +kernel) (by decide : 0 < 2) (.list 2 _ _ (List.cons_ne_nil _ _) (.item 2 4 _ [] _ [] (by decide) (.dict 4 _ _ (List.cons_ne_nil _ _) (e_inline kw_density (line := "density: 2") (by decide +kernel) n2 (by decide +kernel) (e_inline kw_gravity_constant (line := "gravity_constant: 1") (by decide +kernel) n1 (by decide +kernel) (e_inline kw_points (line := "points: [[0, 0, 0], [1, 0, 0], [0.5, 0.5, 0], [0, 0, 1]]") (by decide +kernel) ptsInline (by decide +kernel) (e_null kw_file_path (line := "file_path:") (by decide +kernel) (by decide +kernel) (e_block kw_crs (line := "crs:") (by decide +kernel) (by decide +kernel) (by decide : 4 < 6) (.dict 6 _ _ (List.cons_ne_nil _ _) (e_inline kw_ref (line := "ref: cart") (by decide +kernel) (w_inline w_cart) (by decide +kernel) (e_null kw_name (line := "name:") (by decide +kernel) (by decide +kernel) (e_null kw_vdatum (line := "vdatum:") (by decide +kernel) (by decide +kernel) (e_null kw_semimajor_axis (line := "semimajor_axis:") (by decide +kernel) (by decide +kernel) (e_null kw_semiminor_axis (line := "semiminor_axis:") (by decide +kernel) (by decide +kernel) (e_null kw_longitude_origin (line := "longitude_origin:") (by decide +kernel) (by decide +kernel) (e_null kw_latitude_origin (line := "latitude_origin:") (by decide +kernel) (by decide +kernel) (e_null kw_altitude_origin (line := "altitude_origin:") (by decide +kernel) (by decide +kernel) (.nil 6)))))))))) (.nil 4))))))) (.nil 2))) (e_block kw_observers (line := "observers:") (by decide +kernel) (by decide +kernel) (by decide : 0 < 2) (.dict 2 _ _ (List.cons_ne_nil _ _) (e_null kw_points (line := "points:") (by decide +kernel) (by decide +kernel) (e_inline kw_file_path (line := "file_path: p.csv") (by decide +kernel) (w_inline w_p_csv) (by decide +kernel) (e_block kw_crs (line := "crs:") (by decide +kernel) (by decide +kernel) (by decide : 2 < 4) (.dict 4 _ _ (List.cons_ne_nil _ _) (e_inline kw_ref (line := "ref: cart") (by decide +kernel) (w_inline w_cart) (by decide +kernel) (e_null kw_name (line := "name:") (by decide +kernel) (by decide +kernel) (e_null kw_vdatum (line := "vdatum:") (by decide +kernel) (by decide +kernel) (e_null kw_semimajor_axis (line := "semimajor_axis:") (by decide +kernel) (by decide +kernel) (e_null kw_semiminor_axis (line := "semiminor_axis:") (by decide +kernel) (by decide +kernel) (e_null kw_longitude_origin (line := "longitude_origin:") (by decide +kernel) (by decide +kernel) (e_null kw_latitude_origin (line := "latitude_origin:") (by decide +kernel) (by decide +kernel) (e_null kw_altitude_origin (line := "altitude_origin:") (by decide +kernel) (by decide +kernel) (.nil 4)))))))))) (e_block kw_grid (line := "grid:") (by decide +kernel) (by decide +kernel) (by decide : 2 < 4) (.dict 4 _ _ (List.cons_ne_nil _ _) (e_null kw_xstart_xend_xstep (line := "xstart_xend_xstep:") (by decide +kernel) (by decide +kernel) (e_null kw_ystart_yend_ystep (line := "ystart_yend_ystep:") (by decide +kernel) (by decide +kernel) (e_null kw_zstart_zend_zstep (line := "zstart_zend_zstep:") (by decide +kernel) (by decide +kernel) (.nil 4))))) (.nil 2)))))) (.nil 0)))
  refine ⟨0, _, whole_lines, ?_⟩
  unfold wholeValue
  simpa only [List.flatten_cons, List.flatten_nil, List.cons_append, List.nil_append, List.append_nil] using h

theorem whole_plain : PlainLines wholeFile := by
  have h : wholeFile.all (fun l => l.all fun c => 32 ≤ c.toNat && c.toNat ≤ 126) = true := by decide +kernel
  intro l hl c hc
  have := List.all_eq_true.mp (List.all_eq_true.mp h l hl) c hc
  simp only [Bool.and_eq_true, decide_eq_true_eq] at this
  exact .inl this

/-! the installation, with its grids, and the files in the working directory `/a` -/

/-- the installation -/
def install : Install := ⟨["a".toList], "geec.log".toList, [], ["a".toList, "geec".toList, "cfg".toList], ["a".toList], fun _ => false⟩

/-- what is on the disk -/
def contents : List (Path × Node) := [([], .dir), (["a".toList], .dir), (["a".toList, "geec".toList], .dir), (["a".toList, "geec".toList, "data".toList], .dir),
  (["a".toList, "geec".toList, "data".toList, "geoids".toList], .dir),
  (["a".toList, "geec".toList, "data".toList, "geoids".toList, "egm2008-2_5.pgm".toList], .text "P5".toList),
  (["a".toList, "geec".toList, "data".toList, "geoids".toList, "egm96-5.pgm".toList], .text "P5".toList),
  (["a".toList, "geec".toList, "data".toList, "geoids".toList, "egm84-15.pgm".toList], .text "P5".toList),
  (["a".toList, "in.yaml".toList], .text (unlines wholeFile)), (["a".toList, "p.csv".toList], .text "2,3,5\n".toList)]

/-- the disk -/
def disk : Disk := fun p => (contents.find? (·.1 = p)).map (·.2)

theorem disk_wf : disk.WF := by
  have h : contents.all (fun x => x.1 == [] || decide (disk x.1.dropLast = some .dir)) = true := by decide +kernel
  intro p c hp
  rcases hf : contents.find? (·.1 = p ++ [c]) with _ | x
  · exact absurd (by rw [disk, hf]; rfl) hp
  · have h1 := List.all_eq_true.mp h x (List.mem_of_find?_eq_some hf)
    have h2 : x.1 = p ++ [c] := by simpa using List.find?_some hf
    rw [h2] at h1
    simpa using h1

open Classical in
/-- the surroundings: a hull library for bodies with four points, and numbers of one digit in files of points -/
noncomputable def around : Surroundings ℝ where
  install := install
  grid := fun c => c.take 2 == "P5".toList
  geodesy := toyGeo
  csv := ⟨fun t => match t with | [c] => if c.isDigit then some (((digitOf c : ℕ) : ℝ), true) else none | _ => none, fun x => if x = 0 then "0.0".toList else "1.5".toList⟩
  ceil := Int.ceil
  hull := fourPoints
  lit := fun q => (q : ℝ)
  resolve := fun s => ["a".toList, s.toList]
  expand := fun a => ["a".toList, a]
  userFile := ["home".toList, "config.yaml".toList]

/-- `run --gradient out.txt --config=in.yaml --no-gradient` -/
def theWords (last : String) : List (List Char) := ["run".toList, "--gradient".toList, "out.txt".toList, "--config=in.yaml".toList, last.toList]

theorem whole_calls (gr : Bool) : around.Calls disk (theWords (if gr then "--gradient" else "--no-gradient")) gr (.dict wholeValue) ["a".toList, "out.csv".toList] where
  disk := disk_wf
  top := by decide +kernel
  grids := by
    intro n hn
    refine ⟨"P5".toList, ?_, by decide +kernel⟩
    simp only [List.mem_cons, List.not_mem_nil, or_false] at hn
    show disk (["a".toList] ++ ["geec".toList, "data".toList, "geoids".toList, n]) = some (.text "P5".toList)
    rcases hn with rfl | rfl | rfl <;> decide +kernel
  logger := by
    have h : isOkB (setupLogger install disk).1 = true := by decide +kernel
    show (setupLogger install disk).1 = .ok ()
    rcases hh : (setupLogger install disk).1 with e | u
    · rw [hh] at h; cases h
    · rfl
  other := by
    have h1 : disk ["home".toList, "config.yaml".toList] = none := by decide +kernel
    have h2 : disk (install.cfg ++ ["config_default.yaml".toList]) = none := by decide +kernel
    refine ⟨.dict [], .dict [], .missing fun t h => ?_, .missing fun t h => ?_, ?_, ?_⟩
    · exact absurd (h1.symm.trans h) (by simp)
    · exact absurd (h2.symm.trans h) (by simp)
    · show ["home".toList, "config.yaml".toList] ≠ install.logFile
      decide +kernel
    · show install.cfg ++ ["config_default.yaml".toList] ≠ install.logFile
      decide +kernel
  words := by
    refine ⟨["--gradient".toList, "out.txt".toList, "--config=in.yaml".toList, (if gr then "--gradient" else "--no-gradient").toList],
      [("--gradient".toList, []), ("--config".toList, "in.yaml".toList), ((if gr then "--gradient" else "--no-gradient").toList, [])], "out.txt".toList, "in.yaml".toList,
      wholeFile, wholeValue, .inl rfl, ?_, ?_, ?_, ?_, by decide +kernel, ?_, ?_, whole_plain, rfl, whole_writes, by decide +kernel, ?_⟩
    · refine .flag _ _ _ _ (by simp) (.operand _ _ _ _ rfl (.inl (by decide +kernel)) ?_)
      rw [show "--config=in.yaml".toList = "--config".toList ++ '=' :: "in.yaml".toList by decide +kernel]
      refine .attached _ _ _ _ _ (by simp) (.flag _ _ _ _ ?_ .nil)
      cases gr <;> simp
    · rintro ⟨v, hv⟩
      simp only [List.mem_cons, List.not_mem_nil, or_false, Prod.mk.injEq] at hv
      rcases hv with ⟨h, -⟩ | ⟨h, -⟩ | ⟨h, -⟩
      · exact absurd h (by decide +kernel)
      · exact absurd h (by decide +kernel)
      · cases gr
        · exact absurd h (by decide +kernel)
        · exact absurd h (by decide +kernel)
    · refine .inl ⟨[("--gradient".toList, [])], [((if gr then "--gradient" else "--no-gradient").toList, [])], rfl, fun w hw => ?_⟩
      simp only [List.mem_cons, List.not_mem_nil, or_false, Prod.mk.injEq] at hw
      cases gr
      · exact absurd hw.1 (by decide +kernel)
      · exact absurd hw.1 (by decide +kernel)
    · cases gr
      · refine ⟨fun h => (by cases h), ?_⟩
        intro h
        have h' := (gradient_iff _).mp h
        exact absurd h' (by decide +kernel)
      · refine ⟨fun _ => ⟨[("--gradient".toList, []), ("--config".toList, "in.yaml".toList)], [], [], rfl, by simp⟩, fun _ => rfl⟩
    · show ["a".toList, (String.ofList "in.yaml".toList).toList] ≠ install.logFile
      decide +kernel
    · show disk ["a".toList, (String.ofList "in.yaml".toList).toList] = some (.text (unlines wholeFile))
      decide +kernel
    · exact pathSuffixReplaced_iff.mpr (by rfl)
  place := by decide +kernel
  free := by
    refine ⟨by decide +kernel, ?_⟩
    show ¬ ["a".toList, "out.csv".toList] <+: install.logdir
    decide +kernel
  writable := rfl

/-- the body, which is one of the halves of a tetrahedron (C69) -/
noncomputable def body : BodyEntry ℝ := ⟨2, 1, [⟨0, 0, 0⟩, ⟨1, 0, 0⟩, ⟨1 / 2, 1 / 2, 0⟩, ⟨0, 0, 1⟩]⟩

theorem cart_upper : "cart".toUpper = "CART" := by decide +kernel

theorem whole_says : SaysRun around disk (.dict wholeValue) [body] [⟨2, 3, 5⟩] where
  masses := by
    refine ⟨_, rfl, .cons ?_ .nil⟩
    refine ⟨⟨?_, ⟨"cart", rfl, cart_upper⟩, ?_⟩, ⟨true, 2, rfl, ?_⟩, ⟨true, 1, rfl, ?_⟩, ⟨.null, rfl⟩⟩
    · have := SaysPoints.listed (e := around) (d := disk) (v := ?_) ptsVal [⟨0, 0, 0⟩, ⟨1, 0, 0⟩, ⟨1/2, 1/2, 0⟩, ⟨0, 0, 1⟩] ?_ ?_ (by simp)
      · simpa [body, around] using this
      · rfl
      · exact .cons ⟨_, _, _, rfl⟩ (.cons ⟨_, _, _, rfl⟩ (.cons ⟨_, _, _, rfl⟩ (.cons ⟨_, _, _, rfl⟩ .nil)))
    · intro p hp
      simp only [List.mem_cons, List.not_mem_nil, or_false] at hp
      rcases hp with rfl | rfl | rfl | rfl | rfl | rfl | rfl | rfl <;> exact ⟨_, rfl⟩
    · simp [body, around]
    · simp [body, around]
  observers := by
    refine ⟨_, rfl, ⟨?_, ⟨"cart", rfl, cart_upper⟩, ?_⟩, ?_⟩
    · refine SaysPoints.file (e := around) (d := disk) "p.csv" [(.row [.plain ['2'], .plain ['3'], .plain ['5']], .lf)] (.blank []) [(⟨2, 3, 5⟩, true)] rfl rfl (by decide +kernel)
        ?_ ?_ (by decide +kernel) (by decide +kernel) (.cons ?_ .nil) (by simp)
      · show disk ["a".toList, "p.csv".toList] = _
        decide +kernel
      · show ["a".toList, "p.csv".toList] ≠ install.logFile
        decide +kernel
      · refine ⟨['2'], ['3'], ['5'], true, true, true, rfl, ?_, ?_, ?_, rfl⟩ <;> simp only [around] <;> rw [if_pos (by decide)] <;> norm_num [digitOf, show '2'.toNat = 50 from rfl, show '3'.toNat = 51 from rfl, show '5'.toNat = 53 from rfl]
    · intro p hp
      simp only [List.mem_cons, List.not_mem_nil, or_false] at hp
      rcases hp with rfl | rfl | rfl | rfl | rfl | rfl | rfl | rfl <;> exact ⟨_, rfl⟩
    · intro p hp
      simp only [List.mem_cons, List.not_mem_nil, or_false] at hp
      rcases hp with rfl | rfl | rfl <;> exact ⟨_, rfl⟩

theorem whole_hull : fourPoints.convexHull body.points = .ok halfA := fourPoints_A

theorem whole_text (x : ℝ) : PlainField (around.csv.text x) := by
  have h1 : PlainField "0.0".toList := by unfold PlainField; decide +kernel
  have h2 : PlainField "1.5".toList := by unfold PlainField; decide +kernel
  simp only [around]
  split
  · exact h1
  · exact h2

theorem whole_clear : ClearTensor around.hull [body] ⟨2, 3, 5⟩ := by
  have hh : ∀ h, around.hull.convexHull body.points = .ok h → h = halfA := fun h hh => by
    have : Except.ok h = (.ok halfA : Except PyErr (Hull ℝ)) := hh.symm.trans whole_hull
    exact Except.ok.inj this
  refine ⟨fun b hb => ?_, fun b hb => ?_⟩
  · obtain rfl : b = body := by simpa using hb
    refine ⟨by simp [body], fun h hb => ?_⟩
    rw [hh h hb]; exact halfA_regular
  · obtain rfl : b = body := by simpa using hb
    refine ⟨?_, fun h hb => ?_⟩
    · intro a ha c hc heq
      have h1 : rdot (c.sub a) (c.sub a) = rdot (a.sub ⟨2, 3, 5⟩) (a.sub ⟨2, 3, 5⟩) := by
        have h := congrArg (fun t : ℝ => t * t) heq
        simpa only [vlen_sq] using h
      simp only [body, List.mem_cons, List.not_mem_nil, or_false] at ha hc
      rcases ha with rfl | rfl | rfl | rfl <;> rcases hc with rfl | rfl | rfl | rfl <;> norm_num [rdot, V3.sub, Arith.sub] at h1
    · rw [hh h hb]
      refine ⟨halfA_tensorRegular, ?_⟩
      rw [halfA_body]; rintro ⟨h1, h2, h3, h4⟩; simp only [V3.toP] at h4; norm_num at h4

/-- C122: this run returns, and this is its output -/
example : ∃ d', geecProgram around (theWords "--no-gradient") disk = some (.done, d') ∧ d' ["a".toList, "out.csv".toList] =
    some (.text (outputText around.csv [⟨2, 3, 5⟩] fun p => [100000 * 1 * 2 * (attraction halfA.body p).x, 100000 * 1 * 2 * (attraction halfA.body p).y,
        100000 * 1 * 2 * (attraction halfA.body p).z, 0, 0, 0, 0, 0, 0])) := by
  obtain ⟨d', h1, -, h2⟩ := C122_run around fourPoints_honest whole_text (whole_calls false) whole_says (by simp) (fun b hb => by
    obtain rfl : b = body := by simpa using hb
    exact ⟨_, whole_hull⟩) (ρ := 2) (Gc := 1) (fun b hb => by
    obtain rfl : b = body := by simpa using hb
    exact ⟨rfl, rfl⟩) (fun p hp => by
    obtain rfl : p = ⟨2, 3, 5⟩ := by simpa using hp
    exact whole_clear.1)
  have hA : solidOf body.points = halfA.body := by
    show solidOf [⟨0, 0, 0⟩, ⟨1, 0, 0⟩, ⟨1 / 2, 1 / 2, 0⟩, ⟨0, 0, 1⟩] = _
    rw [← halfA_points]; rfl
  refine ⟨d', h1, ?_⟩
  rw [h2]
  simp only [bodySum, List.map_cons, List.map_nil, List.sum_cons, List.sum_nil, add_zero, hA]

/-- C122_gradient: the same with `--gradient`, all hypotheses hold -/
example : ∃ d' t, geecProgram around (theWords "--gradient") disk = some (.done, d') ∧ d' ["a".toList, "out.csv".toList] = some (.text t) := by
  obtain ⟨d', h1, -, h2⟩ := C122_gradient around fourPoints_honest whole_text (whole_calls true) whole_says (by simp) (fun b hb => by
    obtain rfl : b = body := by simpa using hb
    exact ⟨_, whole_hull⟩) (ρ := 2) (Gc := 1) (fun b hb => by
    obtain rfl : b = body := by simpa using hb
    exact ⟨rfl, rfl⟩) (fun p hp => by
    obtain rfl : p = ⟨2, 3, 5⟩ := by simpa using hp
    exact whole_clear)
  exact ⟨d', _, h1, h2⟩

/-! C121 on this disk -/

theorem whole_grids : GridsInstalled around.grid around.install disk := (whole_calls true).grids
theorem whole_logger : (setupLogger around.install disk).1 = .ok () := (whole_calls true).logger

/-- C121_run: the words of C122 run the program with the file `in.yaml` -/
example : ∃ user dflt cfg, geecProgram around (theWords "--gradient") disk = some (geecRun around.install around.geodesy around.csv around.resolve around.ceil around.hull
    (View.root (setupSources (some cfg) (some user) dflt)) true (some ["a".toList, "out.txt".toList]) disk) := by
  obtain ⟨user, dflt, hold⟩ := (whole_calls true).other
  refine ⟨user, dflt, _, (C121_run around disk disk_wf (by decide +kernel) whole_grids _ _ (.inl rfl)
    [("--gradient".toList, []), ("--config".toList, "in.yaml".toList), ("--gradient".toList, [])] "out.txt".toList "in.yaml".toList true ?_ ?_ ?_ ?_ user dflt hold
    (some ((Val.dict wholeValue).read around.lit)) ?_).trans (by rw [if_neg (by decide +kernel)]; rfl)⟩
  · refine .flag _ _ _ _ (by simp) (.operand _ _ _ _ rfl (.inl (by decide +kernel)) ?_)
    rw [show "--config=in.yaml".toList = "--config".toList ++ '=' :: "in.yaml".toList by decide +kernel]
    exact .attached _ _ _ _ _ (by simp) (.flag _ _ _ _ (by simp) .nil)
  · exact fun h => absurd ((help_iff _).mpr h) (by decide +kernel)
  · exact (lastValue_iff _ _ _).mpr (by decide +kernel)
  · exact ⟨fun _ => (gradient_iff _).mpr (by decide +kernel), fun _ => rfl⟩
  · refine .inr ⟨by decide +kernel, ?_, _, .mapping wholeFile wholeValue ?_ whole_plain whole_writes, rfl⟩
    · show ["a".toList, (String.ofList "in.yaml".toList).toList] ≠ install.logFile
      decide +kernel
    · show disk ["a".toList, (String.ofList "in.yaml".toList).toList] = some (.text (unlines wholeFile))
      decide +kernel

/-- an option with a value takes the next word, even if it looks like an option: `--config --gradient out` asks for the file `--gradient` and for no gradient -/
theorem swallowed : RunWords ["--config".toList, "--gradient".toList, "out".toList] [("--config".toList, "--gradient".toList)] ["out".toList] :=
  .separate _ _ _ _ _ (by simp) (.operand _ _ _ _ rfl (.inl (by decide +kernel)) .nil)

/-- C121_unreadable: there is no such file -/
example : geecProgram around ["run".toList, "--config".toList, "--gradient".toList, "out".toList] disk = some (.raised .osError, (setupLogger install disk).2) := by
  obtain ⟨user, dflt, hold⟩ := (whole_calls true).other
  refine C121_unreadable around disk disk_wf (by decide +kernel) whole_grids whole_logger _ _ ((C121_command _ (.inl rfl) _ _).mpr (.inl rfl)) _ _ "--gradient".toList swallowed ?_ ?_
    (by decide +kernel) user dflt hold ?_ ?_
  · exact fun h => absurd ((help_iff _).mpr h) (by decide +kernel)
  · exact (lastValue_iff _ _ _).mpr (by decide +kernel)
  · intro t h
    have h1 : disk ["a".toList, (String.ofList "--gradient".toList).toList] = none := by decide +kernel
    exact absurd (h1.symm.trans h) (by simp)
  · show ["a".toList, (String.ofList "--gradient".toList).toList] ≠ install.logFile
    decide +kernel

/-- C121_unique: and for nothing else -/
example {os : List (List Char × List Char)} {r : List (List Char)} (h : RunWords ["--config".toList, "--gradient".toList, "out".toList] os r) : ¬ WantsGradient os := by
  obtain ⟨rfl, -⟩ := C121_unique.1 h swallowed
  exact fun h => absurd ((gradient_iff _).mp h) (by decide +kernel)

/-- C121_help: `run a b --help` -/
example : geecProgram around ["run".toList, "a".toList, "b".toList, "--help".toList] disk = some (.exit, (setupLogger install disk).2) :=
  C121_help around disk whole_grids whole_logger _ _ [("--help".toList, [])] ["a".toList, "b".toList] ⟨[], by simp⟩
    (.inl ⟨.operand _ _ _ _ rfl (.inl (by decide +kernel)) (.operand _ _ _ _ rfl (.inl (by decide +kernel)) (.flag _ _ _ _ (by simp) .nil)), (C121_command _ (.inl rfl) _ _).mpr (.inl rfl)⟩)

/-- C121_refused: `run` without the output -/
example : geecProgram around ["run".toList] disk = some (.usageError, (setupLogger install disk).2) :=
  (C121_refused around disk whole_grids whole_logger _ []).1 ((C121_command _ (.inl rfl) _ _).mpr (.inl rfl)) fun os r h => by
    cases h
    exact ⟨by simp [AsksHelp], by simp⟩

/-- C121_config: `config --output=x --output y` writes `y.yaml`, if the template is there -/
example : geecProgram around ["config".toList, "--output=x".toList, "--output".toList, "y".toList] disk =
    some (geecMain install [] (some (.config none (some ["a".toList, "y".toList]))) disk) := by
  obtain ⟨user, dflt, hold⟩ := (whole_calls true).other
  refine (C121_config around disk disk_wf (by decide +kernel) whole_grids _ _ (.inl rfl) [("--output".toList, "x".toList), ("--output".toList, "y".toList)] "y".toList ?_ ?_ ?_
    user dflt hold).trans (by rw [if_neg (by decide +kernel)]; rfl)
  · rw [show "--output=x".toList = "--output".toList ++ '=' :: "x".toList by decide +kernel]
    exact .attached _ _ _ _ _ (by simp) (.separate _ _ _ _ _ (by simp) .nil)
  · exact fun h => absurd ((help_iff _).mpr h) (by decide +kernel)
  · exact (lastValue_iff _ _ _).mpr (by decide +kernel)

/-- C121_app: an option of `run` before the command is unknown; `--version` before `--log` -/
example : geecProgram around ["--version".toList, "--log".toList, "run".toList] disk = some (.exit, disk) :=
  (C121_app around disk whole_grids _).2.2.1 _ _ _ _ (.flag _ _ _ _ (by simp) (.flag _ _ _ _ (by simp) (.command _ _ rfl (.inl (by decide +kernel))))) (by decide +kernel)

/-- C121_grids: nothing is installed -/
example : geecProgram around ["--version".toList] (fun _ => none) = some (.raised .valueError, fun _ => none) :=
  C121_grids around _ (fun h => by obtain ⟨c, hc, -⟩ := h _ List.mem_cons_self; cases hc) _

end Whole

end Geec
