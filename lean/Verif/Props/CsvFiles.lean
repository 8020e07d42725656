import Verif.Lemmas.CsvText
import Verif.Props.Cli
import Verif.Props.Frames
import Verif.Props.NotANumber
/-
C107: input files of points are read as these points.  C108: incomplete lines of an input file.  C109: the text of the output file.
-/
namespace Geec
open Arith

variable {S : Type}

/-- the fields of a line are the three coordinates of a point; `q.2` tells whether all three are integers -/
def PointFields (lib : CsvLib S) (fs : List (List Char)) (q : V3 S × Bool) : Prop :=
  ∃ a b c i j k, fs = [a, b, c] ∧ lib.number a = some (q.1.x, i) ∧ lib.number b = some (q.1.y, j) ∧ lib.number c = some (q.1.z, k) ∧ q.2 = (i && j && k)

theorem csvPoint_ok {lib : CsvLib S} {fs : List (List Char)} {q : V3 S × Bool} (h : PointFields lib fs q) : csvPoint lib fs = .ok q := by
  obtain ⟨a, b, c, i, j, k, rfl, ha, hb, hc, hq⟩ := h
  simp only [csvPoint, List.map_cons, List.map_nil, ha, hb, hc]
  rw [← hq]

theorem csvSquare_even {n : Nat} {ls : List (List (List Char))} (hne : ls ≠ []) (h : ∀ l ∈ ls, l.length = n) : csvSquare ls = .ok ls := by
  cases ls with
  | nil => exact absurd rfl hne
  | cons l ls =>
    have hl := h l (by simp)
    have h' : ∀ m ∈ ls, m.length = n := fun m hm => h m (by simp [hm])
    rw [csvSquare, if_pos (by simpa using fun m hm => by rw [h' m hm, hl])]
    congr 2
    conv_rhs => rw [← List.map_id ls]
    refine List.map_congr_left fun m hm => ?_
    rw [h' m hm, hl]
    simp

theorem readCsvText_of {lib : CsvLib S} {text : List Char} {a b : List (List (List Char))} {ps : List (V3 S × Bool)} (h1 : csvTokens text = .ok a)
    (h2 : csvSquare a = .ok b) (h3 : b.mapM (csvPoint lib) = .ok ps) : readCsvText lib text = .ok ⟨ps.map (·.1), ps.all (·.2)⟩ := by
  simp only [readCsvText, h1, h2, h3, Bind.bind, Except.bind]
  rfl

/-- **C107** A file whose lines are blank or hold three numbers, separated by commas, possibly with blanks around them or between quotes, with line
feeds, carriage returns, or carriage returns and line feeds at the ends of the lines, in any mixture, and with or without one at the end of the last
line: `_read_coords` returns the points in the order of the lines, as integers exactly if all numbers are. -/
theorem C107_read (lib : CsvLib S) {ls : List (FileLine × Eol)} {last : FileLine} (hls : ∀ l ∈ ls, l.1.Ok) (hlast : last.Ok) {qs : List (V3 S × Bool)}
    (hne : qs ≠ []) (hq : List.Forall₂ (PointFields lib) (ls.flatMap (fun l => l.1.fields) ++ last.fields) qs) :
    readCsvText lib (fileText ls last) = .ok ⟨qs.map (·.1), qs.all (·.2)⟩ := by
  have hlen : ∀ l ∈ ls.flatMap (fun l => l.1.fields) ++ last.fields, l.length = 3 := by
    intro l hl
    obtain ⟨n, hn⟩ := List.getElem?_of_mem hl
    obtain ⟨q, -, a, b, c, i, j, k, rfl, -⟩ := forall₂_get hq hn
    rfl
  have hne' : ls.flatMap (fun l => l.1.fields) ++ last.fields ≠ [] := by
    intro h
    rw [h] at hq
    cases hq
    exact hne rfl
  have hm : (ls.flatMap (fun l => l.1.fields) ++ last.fields).mapM (csvPoint lib) = .ok qs :=
    mapM_ok.mpr (hq.imp fun _ _ h => csvPoint_ok h)
  exact readCsvText_of (csvTokens_file hls hlast) (csvSquare_even hne' hlen) hm

/-- a list of points, as written in a configuration file -/
def pointsVal (rs : List ((S × Bool) × (S × Bool) × (S × Bool))) : Val S :=
  .list (rs.map fun r => .list [.num r.1.2 r.1.1, .num r.2.1.2 r.2.1.1, .num r.2.2.2 r.2.2.1])

section
variable [Arith S]

/-- **C107**, the same as in the configuration: a section whose `file_path` is such a file gives the dataset of a section that lists the same
numbers as `points`. -/
theorem C107_same (g : Geodesy S) (lib : CsvLib S) (resolve : String → Path) (ceil : S → Int) (o : Outside S) (d : Disk) {w w' : View S} {path : String}
    {ls : List (FileLine × Eol)} {last : FileLine} (hls : ∀ l ∈ ls, l.1.Ok) (hlast : last.Ok)
    {rs : List ((S × Bool) × (S × Bool) × (S × Bool))} (hne : rs ≠ [])
    (hrs : List.Forall₂ (fun fs r => ∃ a b c, fs = [a, b, c] ∧ lib.number a = some r.1 ∧ lib.number b = some r.2.1 ∧ lib.number c = some r.2.2)
      (ls.flatMap (fun l => l.1.fields) ++ last.fields) rs)
    (hfile : d (resolve path) = some (.text (fileText ls last)))
    (hw : (w.at "points").first = .ok .null) (hw2 : (w.at "file_path").first = .ok (.str path)) (hp : path ≠ "")
    (hw' : (w'.at "points").first = .ok (pointsVal rs)) (hcrs : w.at "crs" = w'.at "crs") :
    getDataset g (Outside.ofDisk lib resolve ceil d) w = getDataset g o w' := by
  have hq : List.Forall₂ (PointFields lib) (ls.flatMap (fun l => l.1.fields) ++ last.fields)
      (rs.map fun r => ((⟨r.1.1, r.2.1.1, r.2.2.1⟩ : V3 S), r.1.2 && r.2.1.2 && r.2.2.2)) := by
    rw [List.forall₂_map_right_iff]
    refine hrs.imp fun fs r h => ?_
    obtain ⟨a, b, c, h1, h2, h3, h4⟩ := h
    exact ⟨a, b, c, r.1.2, r.2.1.2, r.2.2.2, h1, h2, h3, h4, rfl⟩
  have h1 : readCoords (Outside.ofDisk lib resolve ceil d) w = .ok ⟨rs.map fun r => ⟨r.1.1, r.2.1.1, r.2.2.1⟩, rs.all fun r => r.1.2 && r.2.1.2 && r.2.2.2⟩ := by
    have := C107_read lib hls hlast (by simpa using hne) hq
    simp only [readCoords, View.truthy, View.getStr, hw, hw2, Bind.bind, Except.bind, Pure.pure, Except.pure, Val.truthy, Bool.false_eq_true, if_false, ne_eq, hp,
      not_false_eq_true, decide_true, if_true, Outside.ofDisk, hfile, readText, this, List.map_map, List.all_map]
    rfl
  have h2 : readCoords o w' = .ok ⟨rs.map fun r => ⟨r.1.1, r.2.1.1, r.2.2.1⟩, rs.all fun r => r.1.2 && r.2.1.2 && r.2.2.2⟩ := by
    have hm : (rs.map fun r => (Val.list [.num r.1.2 r.1.1, .num r.2.1.2 r.2.1.1, .num r.2.2.2 r.2.2.1] : Val S)).mapM pointOf =
        .ok (rs.map fun r => ((⟨r.1.1, r.2.1.1, r.2.2.1⟩ : V3 S), r.1.2 && r.2.1.2 && r.2.2.2)) := by
      refine mapM_ok.mpr ?_
      rw [List.forall₂_map_left_iff, List.forall₂_map_right_iff]
      exact List.forall₂_same.mpr fun r _ => rfl
    have ht : Val.truthy (pointsVal rs) = true := by
      cases rs with
      | nil => exact absurd rfl hne
      | cons r rs => rfl
    simp only [readCoords, View.truthy, hw', Bind.bind, Except.bind, Pure.pure, Except.pure, ht, if_true]
    simp only [pointsVal, arrayOf, Bind.bind, Except.bind, Pure.pure, Except.pure]
    rw [hm]
    simp only [List.map_map, List.all_map]
    rfl
  simp only [getDataset, h1, h2, hcrs]

end

/-! ### C108: incomplete lines -/

/-- **C108**, too long: a line with more fields than the first one is refused. -/
theorem C108_long (lib : CsvLib S) {ls : List (FileLine × Eol)} {last : FileLine} (hls : ∀ l ∈ ls, l.1.Ok) (hlast : last.Ok)
    {fs gs : List (List Char)} {rest : List (List (List Char))} (hrows : ls.flatMap (fun l => l.1.fields) ++ last.fields = fs :: rest)
    (hg : gs ∈ rest) (hlen : fs.length < gs.length) : readCsvText lib (fileText ls last) = .error .valueError := by
  unfold readCsvText
  rw [csvTokens_file hls hlast, hrows]
  show (csvSquare _ >>= _) = _
  rw [csvSquare, if_neg]
  · rfl
  · intro h
    have := List.all_eq_true.mp h gs hg
    simp at this
    omega

/-- **C108**, nothing: a file of blank lines is refused. -/
theorem C108_empty (lib : CsvLib S) {ls : List (FileLine × Eol)} {last : FileLine} (hls : ∀ l ∈ ls, l.1.Ok) (hlast : last.Ok)
    (hrows : ls.flatMap (fun l => l.1.fields) ++ last.fields = []) : readCsvText lib (fileText ls last) = .error .valueError := by
  unfold readCsvText
  rw [csvTokens_file hls hlast, hrows]
  rfl

/-- **C108**, too short: a line of two fields below a line of three is accepted, as a point whose third coordinate is that of the empty field. -/
theorem C108_short (lib : CsvLib S) {ls : List (FileLine × Eol)} {last : FileLine} (hls : ∀ l ∈ ls, l.1.Ok) (hlast : last.Ok)
    {fs : List (List Char)} {rest : List (List (List Char))} (hrows : ls.flatMap (fun l => l.1.fields) ++ last.fields = fs :: rest) {q : V3 S × Bool} {qs : List (V3 S × Bool)}
    (hf : PointFields lib fs q)
    (hr : List.Forall₂ (fun gs q => PointFields lib gs q ∨ ∃ a b, gs = [a, b] ∧ PointFields lib [a, b, []] q) rest qs) :
    readCsvText lib (fileText ls last) = .ok ⟨(q :: qs).map (·.1), (q :: qs).all (·.2)⟩ := by
  have hlen : fs.length = 3 := by obtain ⟨a, b, c, i, j, k, rfl, -⟩ := hf; rfl
  have hle : ∀ gs ∈ rest, gs.length ≤ fs.length := by
    intro gs hg
    obtain ⟨n, hn⟩ := List.getElem?_of_mem hg
    obtain ⟨q, -, ⟨a, b, c, i, j, k, rfl, -⟩ | ⟨a, b, rfl, -⟩⟩ := forall₂_get hr hn
    · rw [hlen]; exact le_refl 3
    · rw [hlen]; exact (by decide : 2 ≤ 3)
  have hm : (fs :: rest.map fun m => m ++ List.replicate (fs.length - m.length) []).mapM (csvPoint lib) = .ok (q :: qs) := by
    refine mapM_ok.mpr (.cons (csvPoint_ok hf) ?_)
    rw [List.forall₂_map_left_iff]
    refine hr.imp fun gs q h => ?_
    rw [hlen]
    rcases h with h | ⟨a, b, rfl, h⟩
    · obtain ⟨a, b, c, i, j, k, rfl, -⟩ := id h
      exact csvPoint_ok h
    · exact csvPoint_ok h
  refine readCsvText_of ((csvTokens_file hls hlast).trans (by rw [hrows])) ?_ hm
  rw [csvSquare, if_pos (by simpa using hle)]

section
variable [Arith S]

/-- **C108**, in a run: the observation points in a file one of whose lines has two fields only.  The run goes on, and what it writes for that
line are the two coordinates, and NaN for everything else: a mistake in a file is not reported. -/
theorem C108_run {N : S → Prop} (hN : NaNLike N) (g : Geodesy S) (csv : CsvLib S) (resolve : String → Path) (ceil : S → Int) (d : Disk) (lib : HullLib S)
    (cfg : View S) (gr : Bool) (t : Table S) (r : RunData S) (h : runTable g (Outside.ofDisk csv resolve ceil d) lib cfg gr = .ok t)
    (hr : r.Of g (Outside.ofDisk csv resolve ceil d) lib cfg) (hbody : ∃ q ∈ r.polys, q.faces ≠ [])
    {path : String} (hpath : path ≠ "") (hw : ((cfg.at "observers").at "points").first = .ok .null)
    (hw2 : ((cfg.at "observers").at "file_path").first = .ok (.str path)) (hcart : r.observer.dataset.crs.name = .CART)
    {ls : List (FileLine × Eol)} {last : FileLine} (hls : ∀ l ∈ ls, l.1.Ok) (hlast : last.Ok) (hfile : d (resolve path) = some (.text (fileText ls last)))
    {fs : List (List Char)} {rest : List (List (List Char))} (hrows : ls.flatMap (fun l => l.1.fields) ++ last.fields = fs :: rest) {q : V3 S × Bool} {qs : List (V3 S × Bool)}
    (hf : PointFields csv fs q)
    (hrest : List.Forall₂ (fun gs q => PointFields csv gs q ∨ ∃ a b, gs = [a, b] ∧ PointFields csv [a, b, []] q) rest qs)
    (hnan : ∀ x i, csv.number [] = some (x, i) → N x) {n : Nat} {a b : List Char} (hn : rest[n]? = some [a, b]) :
    ∃ row x y, t.rows[n + 1]? = some row ∧ (∃ i, csv.number a = some (x, i)) ∧ (∃ i, csv.number b = some (y, i)) ∧ row.take 2 = [x, y] ∧
      (∀ z ∈ (row.drop 2).take 4, N z) ∧ (gr = true → ∀ z ∈ row.drop 2, N z) := by
  have hread := C108_short csv hls hlast hrows hf hrest
  have hcoords : readCoords (Outside.ofDisk csv resolve ceil d) (cfg.at "observers") = .ok ⟨(q :: qs).map (·.1), (q :: qs).all (·.2)⟩ := by
    simp only [readCoords, View.truthy, View.getStr, hw, hw2, Bind.bind, Except.bind, Pure.pure, Except.pure, Val.truthy, Bool.false_eq_true, if_false, ne_eq, hpath,
      not_false_eq_true, decide_true, if_true, Outside.ofDisk, hfile, readText, hread]
  have hobs : r.observer.dataset.coords = ⟨(q :: qs).map (·.1), (q :: qs).all (·.2)⟩ := by
    have h1 := hr.observer
    simp only [getObserver, getDataset, hcoords, Bind.bind, Except.bind] at h1
    rcases hc : getCrs g ((cfg.at "observers").at "crs") with e | c <;> rw [hc] at h1
    · cases h1
    · have hds : ∀ d : Dataset S, (mkObserver d).dataset = d := by
        intro d; simp only [mkObserver]; cases d.crs.name <;> rfl
      have h1 : Except.ok (mkObserver _) = Except.ok r.observer := h1
      rw [← Except.ok.inj h1, hds]
  have hst : r.stations = r.observer.dataset := by
    have := hr.stations
    simp only [Dataset.toWgs84, hcart, Dataset.apply, crsId] at this
    exact (Prod.mk.inj this).2.symm
  obtain ⟨p, hp, hpq⟩ := forall₂_get hrest hn
  obtain ⟨x0, y0, z0, i, j, k, he, ha, hb, hz, -⟩ : PointFields csv [a, b, []] p := by
    rcases hpq with ⟨_, _, _, _, _, _, h, -⟩ | ⟨a', b', h, h'⟩
    · simp at h
    · cases h; exact h'
  simp only [List.cons.injEq, and_true] at he
  obtain ⟨rfl, rfl, rfl⟩ := he
  have hrow : r.stations.coords.rows[n + 1]? = some p.1 := by
    rw [hst, hobs]
    simp [hp]
  obtain ⟨row, h1, h2, h3, h4⟩ := C105_run hN g _ lib cfg gr t r h hr hbody (n + 1) p.1 hrow (.inl (.inr (.inr (hnan _ _ hz))))
  have hsplit : row = p.1.x :: p.1.y :: p.1.z :: row.drop 3 := by
    conv_lhs => rw [← List.take_append_drop 3 row, h2]
    rfl
  refine ⟨row, p.1.x, p.1.y, h1, ⟨_, ha⟩, ⟨_, hb⟩, by rw [hsplit]; rfl, ?_, ?_⟩
  · intro z hz'
    rw [hsplit] at hz'
    simp only [List.drop_succ_cons, List.drop_zero, List.take_succ_cons, List.mem_cons] at hz'
    rcases hz' with rfl | hz'
    · exact hnan _ _ hz
    · exact h3 z hz'
  · intro hg z hz'
    rw [hsplit] at hz'
    simp only [List.drop_succ_cons, List.drop_zero, List.mem_cons] at hz'
    rcases hz' with rfl | hz'
    · exact hnan _ _ hz
    · exact h4 hg z hz'

end

/-! ### C109: the text of the output -/

/-- a field as `to_csv` writes it -/
def writtenField (f : List Char) : FileField := if f.any (fun c => c = ',' || c = '"' || c = '\n' || c = '\r') then .quoted f else .plain f

theorem writtenField_text (f : List Char) : (writtenField f).text = csvQuote f := by
  unfold writtenField csvQuote
  split <;> rfl

theorem writtenField_value (f : List Char) : (writtenField f).value = f := by
  unfold writtenField
  split <;> rfl

theorem writtenField_ok (f : List Char) : (writtenField f).Ok := by
  unfold writtenField
  split
  · exact trivial
  · next h =>
    intro c hc
    have : ¬ _ := fun h' => h (List.any_eq_true.mpr ⟨c, hc, h'⟩)
    simpa [not_or, and_assoc] using this

theorem csvLine_joined {fs : List (List Char)} : csvLine fs = joined fs ++ ['\n'] := by
  induction fs with
  | nil => rfl
  | cons f fs ih =>
    cases fs with
    | nil => rfl
    | cons f' fs =>
      show f ++ ',' :: csvLine (f' :: fs) = (f ++ ',' :: joined (f' :: fs)) ++ ['\n']
      rw [ih]
      simp

/-- a line as `to_csv` writes it -/
def writtenLine (fs : List (List Char)) : FileLine × Eol := (.row (fs.map writtenField), .lf)

theorem writtenLine_text (fs : List (List Char)) : (writtenLine fs).1.text ++ (writtenLine fs).2.text = csvLine (fs.map csvQuote) := by
  rw [csvLine_joined]
  simp only [writtenLine, FileLine.text, Eol.text, List.map_map]
  congr 2
  exact List.map_congr_left fun f _ => writtenField_text f

theorem writtenLine_fields (fs : List (List Char)) : (writtenLine fs).1.fields = [fs] := by
  simp only [writtenLine, FileLine.fields, List.map_map, List.cons.injEq, and_true]
  conv_rhs => rw [← List.map_id fs]
  exact List.map_congr_left fun f _ => writtenField_value f

theorem writtenLine_ok {fs : List (List Char)} (h : 2 ≤ fs.length) : (writtenLine fs).1.Ok := by
  refine ⟨by simpa using h, fun f hf => ?_⟩
  obtain ⟨x, -, rfl⟩ := List.mem_map.mp hf
  exact writtenField_ok x

/-- the lines of the text of a table -/
theorem toCsv_lines {lib : CsvLib S} {t : Table S} (hc : 2 ≤ t.columns.length) (hr : ∀ r ∈ t.rows, 2 ≤ r.length) :
    csvTokens (toCsv lib t) = .ok (t.columns.map (fun c => c.1.toList) :: t.columns.map (fun c => c.2.toList) :: t.rows.map (fun r => r.map lib.text)) := by
  have e : toCsv lib t = fileText (writtenLine (t.columns.map fun c => c.1.toList) :: writtenLine (t.columns.map fun c => c.2.toList) ::
      t.rows.map fun r => writtenLine (r.map lib.text)) (.blank []) := by
    unfold toCsv fileText
    rw [List.flatMap_cons, List.flatMap_cons, writtenLine_text, writtenLine_text, List.flatMap_map]
    simp only [writtenLine_text, List.map_map, List.append_assoc]
    rw [show FileLine.text (.blank []) = [] from rfl, List.append_nil]
    rfl
  rw [e, csvTokens_file]
  · simp only [List.flatMap_map, List.flatMap_cons, writtenLine_fields, List.singleton_append, ← List.map_eq_flatMap]
    rw [show FileLine.fields (.blank []) = [] from rfl, List.append_nil]
  · intro l hl
    simp only [List.mem_cons, List.mem_map] at hl
    rcases hl with rfl | rfl | ⟨r, h, rfl⟩
    · exact writtenLine_ok (by simpa using hc)
    · exact writtenLine_ok (by simpa using hc)
    · exact writtenLine_ok (by simpa using hr r h)
  · intro c hc; cases hc

section
variable [Arith S]

/-- the table of a run has twelve columns -/
theorem run_shape {g : Geodesy S} {o : Outside S} {lib : HullLib S} {cfg : View S} {gr : Bool} {t : Table S} (h : runTable g o lib cfg gr = .ok t) :
    t.columns.length = 12 ∧ ∀ row ∈ t.rows, row.length = 12 := by
  obtain ⟨r, first, rest, hr, -, -, hcol, hrows⟩ := runTable_ok h
  have hlab := getObserver_is hr.observer
  refine ⟨?_, ?_⟩
  · rw [hcol, hlab]
    unfold mkObserver
    cases r.observer.dataset.crs.name <;> rfl
  · intro row hrow
    obtain ⟨n, hn⟩ := List.getElem?_of_mem hrow
    obtain ⟨p, -, s, w', -, rfl, -⟩ := forall₂_get hrows.flip hn
    rfl

/-- the names and units of the table of a run are plain -/
theorem run_plain {g : Geodesy S} {o : Outside S} {lib : HullLib S} {cfg : View S} {gr : Bool} {t : Table S} (h : runTable g o lib cfg gr = .ok t) :
    ∀ c ∈ t.columns, PlainField c.1.toList ∧ PlainField c.2.toList := by
  obtain ⟨r, first, rest, hr, -, -, hcol, hrows⟩ := runTable_ok h
  have hlab := getObserver_is hr.observer
  have hplain : ∀ f ∈ (["x_mes", "y_mes", "z_mes", "lon_mes", "lat_mes", "alt_mes", "(m)", "(degree_east)", "(degree_north)"] ++ fieldName ++ fieldUnit).map String.toList,
      PlainField f := by
    unfold PlainField
    decide +kernel
  have hcols : t.columns = [("x_mes", "(m)"), ("y_mes", "(m)"), ("z_mes", "(m)")] ++ fieldName.zip fieldUnit ∨
      t.columns = [("lon_mes", "(degree_east)"), ("lat_mes", "(degree_north)"), ("alt_mes", "(m)")] ++ fieldName.zip fieldUnit := by
    rw [hcol, hlab]
    unfold mkObserver
    cases r.observer.dataset.crs.name
    · exact .inl rfl
    · exact .inr rfl
    · exact .inr rfl
    · exact .inr rfl
  intro c hc
  have hm : c.1.toList ∈ (["x_mes", "y_mes", "z_mes", "lon_mes", "lat_mes", "alt_mes", "(m)", "(degree_east)", "(degree_north)"] ++ fieldName ++ fieldUnit).map String.toList ∧
      c.2.toList ∈ (["x_mes", "y_mes", "z_mes", "lon_mes", "lat_mes", "alt_mes", "(m)", "(degree_east)", "(degree_north)"] ++ fieldName ++ fieldUnit).map String.toList := by
    refine ⟨List.mem_map_of_mem ?_, List.mem_map_of_mem ?_⟩
    all_goals
      rcases hcols with h | h <;> rw [h] at hc <;> simp only [fieldName, fieldUnit, List.zip_cons_cons, List.zip_nil_right, List.cons_append, List.nil_append, List.mem_cons,
        List.not_mem_nil, or_false] at hc <;> rcases hc with rfl | rfl | rfl | rfl | rfl | rfl | rfl | rfl | rfl | rfl | rfl | rfl <;> simp [fieldName, fieldUnit]
  exact ⟨hplain _ hm.1, hplain _ hm.2⟩

theorem csvQuote_plain {f : List Char} (h : PlainField f) : csvQuote f = f := by
  unfold csvQuote
  rw [if_neg]
  intro hf
  obtain ⟨c, hc, h'⟩ := List.any_eq_true.mp hf
  obtain ⟨h1, h2, h3, h4⟩ := h c hc
  simp [h1, h2, h3, h4] at h'

theorem joined_intercalate (fs : List (List Char)) : joined fs = List.intercalate [','] fs := by
  induction fs with
  | nil => rfl
  | cons f fs ih =>
    cases fs with
    | nil => simp [joined, List.intercalate]
    | cons f' fs =>
      show f ++ ',' :: joined (f' :: fs) = _
      rw [ih, List.intercalate_cons_cons]
      simp

/-- **C109**, the text: if the texts of numbers have no commas, quotes and line ends, the output has no quotes: the names, the units and the numbers
of each station with commas between them, and a line feed at the end of each line. -/
theorem C109_text (g : Geodesy S) (o : Outside S) (csv : CsvLib S) (hplain : ∀ x, PlainField (csv.text x)) (lib : HullLib S) (cfg : View S) (gr : Bool) (t : Table S)
    (h : runTable g o lib cfg gr = .ok t) :
    toCsv csv t = (t.columns.map (fun c => c.1.toList) :: t.columns.map (fun c => c.2.toList) :: t.rows.map (fun r => r.map csv.text)).flatMap
      fun l => List.intercalate [','] l ++ ['\n'] := by
  have hcol := run_plain h
  have e1 : (t.columns.map fun c => csvQuote c.1.toList) = t.columns.map fun c => c.1.toList :=
    List.map_congr_left fun c h => csvQuote_plain (hcol c h).1
  have e2 : (t.columns.map fun c => csvQuote c.2.toList) = t.columns.map fun c => c.2.toList :=
    List.map_congr_left fun c h => csvQuote_plain (hcol c h).2
  have e3 : ∀ r : List S, (r.map fun x => csvQuote (csv.text x)) = r.map csv.text := fun r =>
    List.map_congr_left fun x _ => csvQuote_plain (hplain x)
  unfold toCsv
  rw [e1, e2, List.flatMap_cons, List.flatMap_cons, List.flatMap_map]
  simp only [e3, csvLine_joined, joined_intercalate, List.append_assoc]

/-- **C109** The output of a run, cut at the ends of lines and at the commas: a line of names, a line of units, and a line for each station with the
texts of its twelve numbers, in the order of the table. -/
theorem C109_lines (g : Geodesy S) (o : Outside S) (csv : CsvLib S) (lib : HullLib S) (cfg : View S) (gr : Bool) (t : Table S)
    (h : runTable g o lib cfg gr = .ok t) :
    csvTokens (toCsv csv t) = .ok (t.columns.map (fun c => c.1.toList) :: t.columns.map (fun c => c.2.toList) :: t.rows.map (fun r => r.map csv.text)) := by
  obtain ⟨h1, h3⟩ := run_shape h
  exact toCsv_lines (by omega) (fun r hr => by rw [h3 r hr]; decide)

/-- **C109**, nothing is lost: two runs that write the same text have the same table, if different numbers have different texts. -/
theorem C109_injective (g g' : Geodesy S) (o o' : Outside S) (csv : CsvLib S) (hinj : ∀ x y, csv.text x = csv.text y → x = y)
    (lib lib' : HullLib S) (cfg cfg' : View S) (gr gr' : Bool) (t t' : Table S) (h : runTable g o lib cfg gr = .ok t) (h' : runTable g' o' lib' cfg' gr' = .ok t')
    (he : toCsv csv t = toCsv csv t') : t = t' := by
  have h1 := C109_lines g o csv lib cfg gr t h
  have h2 := C109_lines g' o' csv lib' cfg' gr' t' h'
  rw [he, h2] at h1
  have h1 := Except.ok.inj h1
  simp only [List.cons.injEq] at h1
  obtain ⟨a1, a2, a3⟩ := h1
  obtain ⟨cols, rows⟩ := t
  obtain ⟨cols', rows'⟩ := t'
  simp only at a1 a2 a3
  have r1 : rows' = rows := List.map_injective_iff.mpr (List.map_injective_iff.mpr hinj) a3
  have c1 : cols' = cols := by
    have b1 : cols'.map Prod.fst = cols.map Prod.fst := by
      refine List.map_injective_iff.mpr (fun a b h => String.toList_injective h) ?_
      rw [List.map_map, List.map_map]; exact a1
    have b2 : cols'.map Prod.snd = cols.map Prod.snd := by
      refine List.map_injective_iff.mpr (fun a b h => String.toList_injective h) ?_
      rw [List.map_map, List.map_map]; exact a2
    rw [← List.zip_unzip cols', ← List.zip_unzip cols, List.unzip_eq_map, List.unzip_eq_map, b1, b2]
  rw [r1, c1]

/-- **C109**, not an input: no output of a run is accepted as a file of points: it has twelve columns (and two lines of texts). -/
theorem C109_not_input (g : Geodesy S) (o : Outside S) (csv : CsvLib S) (lib : HullLib S) (cfg : View S) (gr : Bool) (t : Table S)
    (h : runTable g o lib cfg gr = .ok t) : readCsvText csv (toCsv csv t) = .error .valueError := by
  have h1 := C109_lines g o csv lib cfg gr t h
  obtain ⟨h2, h3⟩ := run_shape h
  have hsq : csvSquare (t.columns.map (fun c => c.1.toList) :: t.columns.map (fun c => c.2.toList) :: t.rows.map (fun r => r.map csv.text)) =
      .ok (t.columns.map (fun c => c.1.toList) :: t.columns.map (fun c => c.2.toList) :: t.rows.map (fun r => r.map csv.text)) := by
    refine csvSquare_even (n := 12) (by simp) ?_
    intro l hl
    simp only [List.mem_cons, List.mem_map] at hl
    rcases hl with rfl | rfl | ⟨r, h, rfl⟩
    · simpa using h2
    · simpa using h2
    · simpa using h3 r h
  have hp : csvPoint csv (t.columns.map (fun c => c.1.toList)) = .error .valueError := by
    unfold csvPoint
    have hl : ((t.columns.map fun c => c.1.toList).map csv.number).length = 12 := by simpa using h2
    split
    · next e => rw [e] at hl; simp at hl
    · rfl
  simp only [readCsvText, h1, hsq, Bind.bind, Except.bind, List.mapM_cons, hp]

end

/-! ### Examples -/
namespace Toy
attribute [local instance] nanToy

/-- without the blanks around it -/
def strip (f : List Char) : List Char := ((f.dropWhile (fun c => c = ' ' || c = '\t')).reverse.dropWhile (fun c => c = ' ' || c = '\t')).reverse

def digitsVal (ds : List Char) : Rat := ds.foldl (fun n c => 10 * n + ((c.toNat - 48 : Nat) : Rat)) 0

/-- decimal numbers without exponent, for examples -/
def decimal (f : List Char) : Option (Rat × Bool) :=
  let f := strip f
  let (sgn, g) : Rat × List Char := match f with
    | '-' :: g => (-1, g)
    | '+' :: g => (1, g)
    | _ => (1, f)
  let (a, rest) := g.span Char.isDigit
  match rest with
  | [] => if a = [] then none else some (sgn * digitsVal a, true)
  | '.' :: b => if b.all Char.isDigit && (a ≠ [] || b ≠ []) then some (sgn * (digitsVal a + digitsVal b / 10 ^ b.length), false) else none
  | _ => none

/-- numbers of the examples: decimal ones, an empty field is NaN; they are written as fractions with tally marks -/
def csvLib : CsvLib (Option Rat) where
  number := fun f => if strip f = [] then some (none, false) else (decimal f).map fun v => (some v.1, v.2)
  text := fun x => match x with
    | none => []
    | some q => (if q.num < 0 then '-' else '+') :: (List.replicate q.num.natAbs '1' ++ '/' :: List.replicate q.den '1')

theorem csvLib_plain (x : Option Rat) : PlainField (csvLib.text x) := by
  intro c hc
  match x with
  | none => cases hc
  | some q =>
    simp only [csvLib, List.mem_cons, List.mem_append, List.mem_replicate] at hc
    rcases hc with rfl | ⟨-, rfl⟩ | rfl | ⟨-, rfl⟩
    · split <;> decide
    · decide
    · decide
    · decide

theorem tally_inj {a b c d : Nat} (h : List.replicate a '1' ++ '/' :: List.replicate b '1' = List.replicate c '1' ++ '/' :: List.replicate d '1') : a = c ∧ b = d := by
  induction a generalizing c with
  | zero =>
    cases c with
    | zero =>
      simp only [List.replicate_zero, List.nil_append, List.cons.injEq, true_and] at h
      exact ⟨rfl, by simpa using congrArg List.length h⟩
    | succ c => simp [List.replicate_succ] at h
  | succ a ih =>
    cases c with
    | zero => simp [List.replicate_succ] at h
    | succ c =>
      simp only [List.replicate_succ, List.cons_append, List.cons.injEq, true_and] at h
      obtain ⟨h1, h2⟩ := ih h
      exact ⟨by rw [h1], h2⟩

theorem csvLib_inj (x y : Option Rat) (h : csvLib.text x = csvLib.text y) : x = y := by
  match x, y with
  | none, none => rfl
  | none, some q => simp [csvLib] at h
  | some q, none => simp [csvLib] at h
  | some q, some r =>
    simp only [csvLib, List.cons.injEq] at h
    obtain ⟨h1, h2⟩ := h
    obtain ⟨h3, h4⟩ := tally_inj h2
    congr 1
    refine Rat.ext ?_ h4
    by_cases a : q.num < 0 <;> by_cases b : r.num < 0
    · omega
    · rw [if_pos a, if_neg b] at h1; exact absurd h1 (by decide)
    · rw [if_neg a, if_pos b] at h1; exact absurd h1 (by decide)
    · omega

/-- a line of the file, by its fields -/
def fileRow (fs : List String) : FileLine × Eol := (.row (fs.map fun f => .plain f.toList), .lf)

/-- /repo/geec/data/cube.csv -/
def cubeFile : List (FileLine × Eol) := [fileRow ["-0.5", " -0.5", " 0.0"], fileRow ["0.5", " -0.5", " 0.0"], fileRow ["0.5", " 0.5", " 0.0"],
  fileRow ["-0.5", " 0.5", " 0.0"], fileRow ["-0.5", " -0.5", " -1.0"], fileRow ["0.5", " -0.5", " -1.0"], fileRow ["0.5", " 0.5", " -1.0"], fileRow ["-0.5", " 0.5", " -1.0"]]

instance (f : List Char) : Decidable (PlainField f) := by unfold PlainField; infer_instance
instance (f : List Char) : Decidable (Blank f) := by unfold Blank; infer_instance
instance : (f : FileField) → Decidable f.Ok
  | .plain f => inferInstanceAs (Decidable (PlainField f))
  | .quoted _ => inferInstanceAs (Decidable True)
instance : (l : FileLine) → Decidable l.Ok
  | .blank b => inferInstanceAs (Decidable (Blank b))
  | .row fs => inferInstanceAs (Decidable (2 ≤ fs.length ∧ ∀ f ∈ fs, f.Ok))

/-- three numbers, checked -/
theorem pointFields_of {fs : List (List Char)} {q : V3 (Option Rat) × Bool} {i j k : Bool} {a b c : List Char} (h : fs = [a, b, c] ∧ csvLib.number a = some (q.1.x, i) ∧
    csvLib.number b = some (q.1.y, j) ∧ csvLib.number c = some (q.1.z, k) ∧ q.2 = (i && j && k)) : PointFields csvLib fs q := ⟨a, b, c, i, j, k, h⟩

theorem cubeFile_text : fileText cubeFile (.blank []) =
    "-0.5, -0.5, 0.0\n0.5, -0.5, 0.0\n0.5, 0.5, 0.0\n-0.5, 0.5, 0.0\n-0.5, -0.5, -1.0\n0.5, -0.5, -1.0\n0.5, 0.5, -1.0\n-0.5, 0.5, -1.0\n".toList := by decide +kernel

/-- C107: the file that is shipped with the program -/
example : readCsvText csvLib "-0.5, -0.5, 0.0\n0.5, -0.5, 0.0\n0.5, 0.5, 0.0\n-0.5, 0.5, 0.0\n-0.5, -0.5, -1.0\n0.5, -0.5, -1.0\n0.5, 0.5, -1.0\n-0.5, 0.5, -1.0\n".toList =
    .ok ⟨[⟨some (-1/2), some (-1/2), some 0⟩, ⟨some (1/2), some (-1/2), some 0⟩, ⟨some (1/2), some (1/2), some 0⟩, ⟨some (-1/2), some (1/2), some 0⟩,
      ⟨some (-1/2), some (-1/2), some (-1)⟩, ⟨some (1/2), some (-1/2), some (-1)⟩, ⟨some (1/2), some (1/2), some (-1)⟩, ⟨some (-1/2), some (1/2), some (-1)⟩], false⟩ := by
  rw [← cubeFile_text]
  refine C107_read csvLib (qs := [(⟨some (-1/2), some (-1/2), some 0⟩, false), (⟨some (1/2), some (-1/2), some 0⟩, false), (⟨some (1/2), some (1/2), some 0⟩, false),
    (⟨some (-1/2), some (1/2), some 0⟩, false), (⟨some (-1/2), some (-1/2), some (-1)⟩, false), (⟨some (1/2), some (-1/2), some (-1)⟩, false),
    (⟨some (1/2), some (1/2), some (-1)⟩, false), (⟨some (-1/2), some (1/2), some (-1)⟩, false)]) (by decide +kernel) (by decide) (by simp) ?_
  refine .cons (pointFields_of (i := false) (j := false) (k := false) ⟨rfl, ?_⟩) (.cons (pointFields_of (i := false) (j := false) (k := false) ⟨rfl, ?_⟩)
    (.cons (pointFields_of (i := false) (j := false) (k := false) ⟨rfl, ?_⟩) (.cons (pointFields_of (i := false) (j := false) (k := false) ⟨rfl, ?_⟩)
    (.cons (pointFields_of (i := false) (j := false) (k := false) ⟨rfl, ?_⟩) (.cons (pointFields_of (i := false) (j := false) (k := false) ⟨rfl, ?_⟩)
    (.cons (pointFields_of (i := false) (j := false) (k := false) ⟨rfl, ?_⟩) (.cons (pointFields_of (i := false) (j := false) (k := false) ⟨rfl, ?_⟩) .nil))))))) <;>
    decide +kernel

/-- C107: carriage returns, quotes, blank lines, and no end of the last line -/
example : readCsvText csvLib "\r\"1\",2, 3\r\r\n4,\" 5\",6\r \n7,8,9.5".toList =
    .ok ⟨[⟨some 1, some 2, some 3⟩, ⟨some 4, some 5, some 6⟩, ⟨some 7, some 8, some (19/2)⟩], false⟩ :=
  (by decide +kernel : fileText [(.blank [], .cr), (.row [.quoted ['1'], .plain ['2'], .plain [' ', '3']], .cr), (.blank [], .crlf),
      (.row [.plain ['4'], .quoted [' ', '5'], .plain ['6']], .cr), (.blank [' '], .lf)] (.row [.plain ['7'], .plain ['8'], .plain "9.5".toList]) =
      "\r\"1\",2, 3\r\r\n4,\" 5\",6\r \n7,8,9.5".toList) ▸
    C107_read csvLib (qs := [(⟨some 1, some 2, some 3⟩, true), (⟨some 4, some 5, some 6⟩, true), (⟨some 7, some 8, some (19/2)⟩, false)]) (by decide +kernel) (by decide +kernel)
      (by simp) (.cons (pointFields_of (i := true) (j := true) (k := true) ⟨rfl, by decide +kernel⟩) (.cons (pointFields_of (i := true) (j := true) (k := true) ⟨rfl, by decide +kernel⟩)
        (.cons (pointFields_of (i := true) (j := true) (k := false) ⟨rfl, by decide +kernel⟩) .nil)))

/-! a run with stations in a file whose second line has two fields only -/

/-- the stations -/
def shortFile : List (FileLine × Eol) := [fileRow ["3", "5", "7"], fileRow ["4", " 6"], (.blank [' '], .crlf), fileRow ["4", "6", "9.5"]]

theorem shortFile_text : fileText shortFile (.blank []) = "3,5,7\n4, 6\n \r\n4,6,9.5\n".toList := by decide +kernel

/-- C108: its points -/
theorem shortFile_read : readCsvText csvLib "3,5,7\n4, 6\n \r\n4,6,9.5\n".toList =
    .ok ⟨[⟨some 3, some 5, some 7⟩, ⟨some 4, some 6, none⟩, ⟨some 4, some 6, some (19/2)⟩], false⟩ := by
  rw [← shortFile_text]
  refine C108_short csvLib (by decide +kernel) (by decide) (fs := ["3".toList, "5".toList, "7".toList]) (rest := [["4".toList, " 6".toList], ["4".toList, "6".toList, "9.5".toList]])
    rfl (q := (⟨some 3, some 5, some 7⟩, true)) (qs := [(⟨some 4, some 6, none⟩, false), (⟨some 4, some 6, some (19/2)⟩, false)]) ?_ ?_
  · exact pointFields_of (i := true) (j := true) (k := true) ⟨rfl, by decide +kernel⟩
  · exact .cons (.inr ⟨_, _, rfl, pointFields_of (i := true) (j := true) (k := false) ⟨rfl, by decide +kernel⟩⟩)
      (.cons (.inl (pointFields_of (i := true) (j := true) (k := false) ⟨rfl, by decide +kernel⟩)) .nil)

/-- C108_long and C108_empty: these files are refused -/
example : readCsvText csvLib "1,2,3\n1,2,3,4\n".toList = .error .valueError :=
  (by decide +kernel : fileText [fileRow ["1", "2", "3"], fileRow ["1", "2", "3", "4"]] (.blank []) = "1,2,3\n1,2,3,4\n".toList) ▸
    C108_long csvLib (ls := [fileRow ["1", "2", "3"], fileRow ["1", "2", "3", "4"]]) (last := .blank []) (by decide +kernel) (by decide) (fs := ["1".toList, "2".toList, "3".toList])
      (gs := ["1".toList, "2".toList, "3".toList, "4".toList]) (rest := [["1".toList, "2".toList, "3".toList, "4".toList]]) rfl (by simp) (by decide)
example : readCsvText csvLib " \n\n".toList = .error .valueError :=
  (by decide +kernel : fileText [(.blank [' '], .lf), (.blank [], .lf)] (.blank []) = " \n\n".toList) ▸
    C108_empty csvLib (ls := [(.blank [' '], .lf), (.blank [], .lf)]) (last := .blank []) (by decide) (by decide) rfl

/-- **C108 refuted**: not every file with a line that has a coordinate too few is refused. -/
theorem C108_false : ¬ ∀ (lib : CsvLib (Option Rat)) (ls : List (FileLine × Eol)) (last : FileLine), (∀ l ∈ ls, l.1.Ok) → last.Ok →
    (∃ fs ∈ ls.flatMap (fun l => l.1.fields) ++ last.fields, fs.length ≠ 3) → ∃ e, readCsvText lib (fileText ls last) = .error e := by
  intro h
  obtain ⟨e, he⟩ := h csvLib shortFile (.blank []) (by decide +kernel) (by decide) ⟨["4".toList, " 6".toList], by decide +kernel, by decide⟩
  rw [shortFile_text, shortFile_read] at he
  cases he

/-- a tetrahedron, seen from the stations of the file `obs.csv` -/
def fileConfig : View (Option Rat) := View.root [.dict [
  ("masses", .list [.dict [("density", .num false (some 2)), ("gravity_constant", .num false (some 1)),
    ("points", .list [nanPoint (some 0) (some 0) (some 0), nanPoint (some 1) (some 0) (some 0), nanPoint (some 0) (some 1) (some 0),
      nanPoint (some 0) (some 0) (some 1)]), ("file_path", .null), ("crs", nanCrs)]]),
  ("observers", .dict [("points", .null), ("file_path", .str "obs.csv"),
    ("grid", .dict [("xstart_xend_xstep", .null), ("ystart_yend_ystep", .null), ("zstart_zend_zstep", .null)]),
    ("crs", nanCrs)])]]

/-- paths of the configuration, relative to `/home` -/
def atHome (p : String) : Path := ["home".toList, p.toList]

/-- `/home` with one file -/
def homeDisk (name : String) (text : String) : Disk := fun p =>
  if p = [] ∨ p = ["home".toList] then some .dir else if p = atHome name then some (.text text.toList) else none

def fileOutside : Outside (Option Rat) := Outside.ofDisk csvLib atHome (fun _ => 0) (homeDisk "obs.csv" "3,5,7\n4, 6\n \r\n4,6,9.5\n")

theorem fileRun_ok (gr : Bool) : ∃ t, runTable nanGeo fileOutside nanHullLib fileConfig gr = .ok t := by
  have h0 : isOkB (runTable nanGeo fileOutside nanHullLib fileConfig gr) = true := by cases gr <;> decide +kernel
  cases h : runTable nanGeo fileOutside nanHullLib fileConfig gr with
  | ok t => exact ⟨t, rfl⟩
  | error e => rw [h] at h0; cases h0

/-- C108_run: the run goes on, and the second line of its table is NaN -/
example : ∃ t, runTable nanGeo fileOutside nanHullLib fileConfig true = .ok t ∧ ∃ row, t.rows[1]? = some row ∧ row.take 2 = [some 4, some 6] ∧ ∀ x ∈ row.drop 2, x = none := by
  obtain ⟨t, ht⟩ := fileRun_ok true
  obtain ⟨r, -, -, hr, -⟩ := runTable_ok ht
  have hb : (match bodiesOf nanGeo fileOutside nanHullLib fileConfig with
      | .ok (_, ps) => decide (ps.length = 1) && ps.all fun q => !q.faces.isEmpty
      | .error _ => false) = true := by decide +kernel
  have hs : (match getObserver nanGeo fileOutside fileConfig with
      | .ok ob => decide (ob.dataset.crs.name = .CART)
      | .error _ => false) = true := by decide +kernel
  rw [bodiesOf_eq hr] at hb
  rw [hr.observer] at hs
  simp only [Bool.and_eq_true, decide_eq_true_eq, List.all_eq_true] at hb hs
  have hbody : ∃ q ∈ r.polys, q.faces ≠ [] := by
    cases hl : r.polys with
    | nil => rw [hl] at hb; exact absurd hb.1 (by simp)
    | cons q _ => exact ⟨q, by simp, by have := hb.2 q (by simp [hl]); simpa using this⟩
  obtain ⟨row, x, y, h1, ⟨i, h2⟩, ⟨j, h3⟩, h4, -, h5⟩ := C108_run nanToy_nan nanGeo csvLib atHome (fun _ => 0) (homeDisk "obs.csv" "3,5,7\n4, 6\n \r\n4,6,9.5\n") nanHullLib
    fileConfig true t r ht hr hbody (path := "obs.csv") (by decide) rfl rfl hs (ls := shortFile) (last := .blank []) (by decide +kernel) (by decide)
    (by rw [shortFile_text]; decide +kernel) (fs := ["3".toList, "5".toList, "7".toList]) (rest := [["4".toList, " 6".toList], ["4".toList, "6".toList, "9.5".toList]])
    rfl (q := (⟨some 3, some 5, some 7⟩, true)) (qs := [(⟨some 4, some 6, none⟩, false), (⟨some 4, some 6, some (19/2)⟩, false)])
    (pointFields_of (i := true) (j := true) (k := true) ⟨rfl, by decide +kernel⟩)
    (.cons (.inr ⟨_, _, rfl, pointFields_of (i := true) (j := true) (k := false) ⟨rfl, by decide +kernel⟩⟩)
      (.cons (.inl (pointFields_of (i := true) (j := true) (k := false) ⟨rfl, by decide +kernel⟩)) .nil))
    (fun x i h => by
      have : csvLib.number [] = some (none, false) := by decide +kernel
      rw [this] at h
      exact (congrArg Prod.fst (Option.some.inj h)).symm) (n := 0) rfl
  have e2 : csvLib.number "4".toList = some (some 4, true) := by decide +kernel
  have e3 : csvLib.number " 6".toList = some (some 6, true) := by decide +kernel
  rw [e2] at h2
  rw [e3] at h3
  cases h2
  cases h3
  exact ⟨t, ht, row, h1, h4, h5 rfl⟩

/-- C107_same: two points, in a file and in the configuration -/
example : getDataset nanGeo (Outside.ofDisk csvLib atHome (fun _ => 0) (homeDisk "two.csv" "3,5,7\n4,6,9.5\n"))
      (View.root [.dict [("points", .null), ("file_path", .str "two.csv"), ("crs", nanCrs)]]) =
    getDataset nanGeo nanOutside (View.root [.dict [("points", .list [.list [.num true (some 3), .num true (some 5), .num true (some 7)],
      .list [.num true (some 4), .num true (some 6), .num false (some (19/2))]]), ("file_path", .null), ("crs", nanCrs)]]) := by
  refine C107_same nanGeo csvLib atHome _ _ _ (path := "two.csv") (ls := [fileRow ["3", "5", "7"], fileRow ["4", "6", "9.5"]]) (last := .blank []) (by decide +kernel) (by decide)
    (rs := [((some 3, true), (some 5, true), (some 7, true)), ((some 4, true), (some 6, true), (some (19/2), false))]) (by simp) ?_ (by decide +kernel) rfl rfl (by decide) rfl rfl
  exact .cons ⟨"3".toList, "5".toList, "7".toList, rfl, by decide +kernel⟩ (.cons ⟨"4".toList, "6".toList, "9.5".toList, rfl, by decide +kernel⟩ .nil)

/-- C109_text: what the run writes begins with the names -/
example : ∃ t, runTable nanGeo fileOutside nanHullLib fileConfig true = .ok t ∧ (toCsv csvLib t).take 12 = "x_mes,y_mes,".toList := by
  obtain ⟨t, ht⟩ := fileRun_ok true
  have h0 : (match runTable nanGeo fileOutside nanHullLib fileConfig true with
      | .ok t => decide ((List.intercalate [','] (t.columns.map (fun c => c.1.toList))).take 12 = "x_mes,y_mes,".toList ∧
          12 ≤ (List.intercalate [','] (t.columns.map (fun c => c.1.toList))).length)
      | .error _ => false) = true := by decide +kernel
  rw [ht] at h0
  obtain ⟨h1, h2⟩ := of_decide_eq_true h0
  refine ⟨t, ht, ?_⟩
  rw [C109_text _ _ csvLib csvLib_plain _ _ _ t ht, List.flatMap_cons, List.append_assoc, List.take_append_of_le_length h2, h1]

/-- C109: what the run writes -/
example : ∃ t, runTable nanGeo fileOutside nanHullLib fileConfig true = .ok t ∧ readCsvText csvLib (toCsv csvLib t) = .error .valueError ∧
    ∃ a b rows, csvTokens (toCsv csvLib t) = .ok (a :: b :: rows) ∧ rows.length = 3 ∧ a.take 2 = ["x_mes".toList, "y_mes".toList] ∧ b.take 1 = ["(m)".toList] := by
  obtain ⟨t, ht⟩ := fileRun_ok true
  refine ⟨t, ht, C109_not_input _ _ csvLib _ _ _ t ht, _, _, _, C109_lines _ _ csvLib _ _ _ t ht, ?_⟩
  have h0 : (match runTable nanGeo fileOutside nanHullLib fileConfig true with
      | .ok t => decide (t.rows.length = 3 ∧ t.columns.take 2 = [("x_mes", "(m)"), ("y_mes", "(m)")])
      | .error _ => false) = true := by decide +kernel
  rw [ht] at h0
  obtain ⟨h1, h2⟩ := of_decide_eq_true h0
  refine ⟨by simpa using h1, ?_, ?_⟩
  · rw [← List.map_take, h2]; rfl
  · have : t.columns.take 1 = [("x_mes", "(m)")] := by
      have := congrArg (List.take 1) h2
      rwa [List.take_take] at this
    rw [← List.map_take, this]; rfl

end Toy

end Geec
