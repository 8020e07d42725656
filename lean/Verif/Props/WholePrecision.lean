import Verif.Props.WholeProgram
import Verif.Props.AnyHullTensor

/-! The whole program in floating point, from the text of the configuration to the text of the output. -/

namespace Geec
open Arith
noncomputable section

/-! ### Reading with rounded numbers -/

/-- the library that rounds the numbers that it reads -/
def CsvLib.rounded (rnd : ℝ → ℝ) (c : CsvLib ℝ) : CsvLib ℝ := { c with number := fun t => (c.number t).map fun r => (rnd r.1, r.2) }

/-- the same surroundings, where the numbers of all files are rounded on reading, and with another hull library -/
def Surroundings.rounded (rnd : ℝ → ℝ) (lib : HullLib ℝ) (e : Surroundings ℝ) : Surroundings ℝ :=
  { e with lit := fun q => rnd (e.lit q), csv := e.csv.rounded rnd, hull := lib }

/-- a body with its numbers rounded -/
def BodyEntry.rounded (rnd : ℝ → ℝ) (b : BodyEntry ℝ) : BodyEntry ℝ := ⟨rnd b.density, rnd b.constant, b.points.map (V3.rounded rnd)⟩

mutual
theorem read_mapNum (f : ℝ → ℝ) (lit : ℚ → ℝ) : ∀ v : Val ℚ, (v.read lit).mapNum f = v.read fun q => f (lit q)
  | .null => by simp [Val.read, Val.mapNum]
  | .bool _ => by simp [Val.read, Val.mapNum]
  | .num _ _ => by simp [Val.read, Val.mapNum]
  | .str _ => by simp [Val.read, Val.mapNum]
  | .list l => by simp [Val.read, Val.mapNum, readList_mapNum f lit l]
  | .dict l => by simp [Val.read, Val.mapNum_dict, readDict_mapNum f lit l]
theorem readList_mapNum (f : ℝ → ℝ) (lit : ℚ → ℝ) : ∀ l : List (Val ℚ), (readList lit l).map (fun v => v.mapNum f) = readList (fun q => f (lit q)) l
  | [] => rfl
  | v :: l => by simp [readList, read_mapNum f lit v, readList_mapNum f lit l]
theorem readDict_mapNum (f : ℝ → ℝ) (lit : ℚ → ℝ) : ∀ l : List (String × Val ℚ),
    (readDict lit l).map (fun p => (p.1, p.2.mapNum f)) = readDict (fun q => f (lit q)) l
  | [] => rfl
  | (k, v) :: l => by simp [readDict, read_mapNum f lit v, readDict_mapNum f lit l]
end

theorem csvPoint_rounded (rnd : ℝ → ℝ) (c : CsvLib ℝ) (l : List (List Char)) :
    csvPoint (c.rounded rnd) l = (csvPoint c l).map fun r => (r.1.rounded rnd, r.2) := by
  unfold csvPoint
  have e : l.map (c.rounded rnd).number = (l.map c.number).map (Option.map fun r => (rnd r.1, r.2)) := by
    rw [List.map_map]; rfl
  rw [e]
  generalize l.map c.number = m
  rcases m with _ | ⟨_ | a, _ | ⟨_ | b, _ | ⟨_ | d, _ | _⟩⟩⟩ <;> rfl

theorem mapM_rounded {α β : Type} (f : α → Except PyErr β) (g : β → β) : ∀ l : List α,
    l.mapM (fun a => (f a).map g) = (l.mapM f).map (List.map g)
  | [] => rfl
  | a :: l => by
    rw [List.mapM_cons, List.mapM_cons, mapM_rounded f g l]
    rcases f a with _ | b
    · rfl
    · rcases l.mapM f with _ | bs <;> rfl

theorem readCsvText_rounded (rnd : ℝ → ℝ) (c : CsvLib ℝ) (t : List Char) :
    readCsvText (c.rounded rnd) t = match readCsvText c t with
      | .ok a => .ok ⟨a.rows.map (V3.rounded rnd), a.intDtype⟩
      | .error e => .error e := by
  unfold readCsvText
  rcases csvTokens t with _ | l1
  · rfl
  simp only [Bind.bind, Except.bind]
  rcases csvSquare l1 with _ | l2
  · rfl
  dsimp only
  rw [show csvPoint (c.rounded rnd) = fun l => (csvPoint c l).map fun r => (r.1.rounded rnd, r.2) from funext (csvPoint_rounded rnd c), mapM_rounded]
  rcases l2.mapM (csvPoint c) with _ | ps
  · rfl
  · simp only [Except.map, Pure.pure, Except.pure, List.map_map, List.all_map]
    rfl

theorem ofDisk_rounded (rnd : ℝ → ℝ) (c : CsvLib ℝ) (resolve : String → Path) (ceil : ℝ → Int) (d : Disk) :
    Outside.ofDisk (c.rounded rnd) resolve ceil d = (Outside.ofDisk c resolve ceil d).mapNum rnd := by
  unfold Outside.ofDisk Outside.mapNum
  congr 1
  funext p
  dsimp only
  rcases readText (resolve p) d with _ | t
  · rfl
  · exact readCsvText_rounded rnd c t

theorem root_rounded (f : ℝ → ℝ) (v : Val ℚ) (lit : ℚ → ℝ) (user dflt : Val ℝ) :
    (View.root (setupSources (some (v.read lit)) (some user) dflt)).mapNum f =
      View.root (setupSources (some (v.read fun q => f (lit q))) (some (user.mapNum f)) (dflt.mapNum f)) := by
  simp [View.mapNum, View.root, setupSources, outcomeMap, read_mapNum]

theorem FileSource.rounded {lit : ℚ → ℝ} {d : Disk} {p : Path} {v : Val ℝ} (h : FileSource lit d p v) (f : ℝ → ℝ) :
    FileSource (fun q => f (lit q)) d p (v.mapNum f) := by
  rcases h with ⟨file, es, h1, h2, h3⟩ | ⟨file, h1, h2, h3⟩
  · rw [read_mapNum]; exact .mapping file es h1 h2 h3
  · rw [Val.mapNum_dict]; exact .empty file h1 h2 h3

theorem OptionalFile.rounded {lit : ℚ → ℝ} {d : Disk} {p : Path} {v : Val ℝ} (h : OptionalFile lit d p v) (f : ℝ → ℝ) :
    OptionalFile (fun q => f (lit q)) d p (v.mapNum f) := by
  rcases h with ⟨_, h⟩ | h
  · exact .there _ (h.rounded f)
  · rw [Val.mapNum_dict]; exact .missing h

theorem Surroundings.Holds.rounded {e : Surroundings ℝ} {d : Disk} {user dflt : Val ℝ} (h : e.Holds d user dflt) (rnd : ℝ → ℝ) (lib : HullLib ℝ) :
    (e.rounded rnd lib).Holds d (user.mapNum rnd) (dflt.mapNum rnd) :=
  ⟨h.user.rounded rnd, h.dflt.rounded rnd, h.userLog, h.dfltLog⟩

theorem Surroundings.Calls.rounded {e : Surroundings ℝ} {d : Disk} {args : List (List Char)} {gr : Bool} {v : Val ℚ} {q : Path} (h : e.Calls d args gr v q)
    (rnd : ℝ → ℝ) (lib : HullLib ℝ) : (e.rounded rnd lib).Calls d args gr v q := by
  obtain ⟨user, dflt, hold⟩ := h.other
  exact ⟨h.disk, h.top, h.grids, h.logger, ⟨_, _, hold.rounded rnd lib⟩, h.words, h.place, h.free, h.writable⟩

theorem SaysNumber.rounded {lit : ℚ → ℝ} {v : Val ℚ} {p : List String} {x : ℝ} (h : SaysNumber lit v p x) (rnd : ℝ → ℝ) : SaysNumber (fun q => rnd (lit q)) v p (rnd x) := by
  obtain ⟨i, q, h1, rfl⟩ := h
  exact ⟨i, q, h1, rfl⟩

theorem SaysPoints.rounded {e : Surroundings ℝ} {d : Disk} {v : Val ℚ} {pts : List (V3 ℝ)} (h : SaysPoints e d v pts) (rnd : ℝ → ℝ) (lib : HullLib ℝ) :
    SaysPoints (e.rounded rnd lib) d v (pts.map (V3.rounded rnd)) := by
  rcases h with ⟨vs, qs, h1, h2, h3⟩ | ⟨path, ls, last, qs, h1, h2, h3, h4, h5, h6, h7, h8, h9⟩
  · rw [List.map_map]
    exact .listed vs qs h1 h2 h3
  · have h8' : List.Forall₂ (PointFields (e.csv.rounded rnd)) (ls.flatMap (fun l => l.1.fields) ++ last.fields) (qs.map fun r => (r.1.rounded rnd, r.2)) := by
      refine List.forall₂_map_right_iff.mpr (h8.imp fun fs r hr => ?_)
      obtain ⟨a, b, c, i, j, k, rfl, ha, hb, hc, hq⟩ := hr
      exact ⟨a, b, c, i, j, k, rfl, by simp [CsvLib.rounded, ha, V3.rounded], by simp [CsvLib.rounded, hb, V3.rounded], by simp [CsvLib.rounded, hc, V3.rounded], hq⟩
    have := SaysPoints.file (e := e.rounded rnd lib) path ls last _ h1 h2 h3 h4 h5 h6 h7 h8' (by simpa using h9)
    rw [List.map_map] at this ⊢
    exact this

theorem SaysCartesian.rounded {e : Surroundings ℝ} {d : Disk} {v : Val ℚ} {pts : List (V3 ℝ)} (h : SaysCartesian e d v pts) (rnd : ℝ → ℝ) (lib : HullLib ℝ) :
    SaysCartesian (e.rounded rnd lib) d v (pts.map (V3.rounded rnd)) := ⟨h.points.rounded rnd lib, h.ref, h.others⟩

theorem SaysRun.rounded {e : Surroundings ℝ} {d : Disk} {v : Val ℚ} {bodies : List (BodyEntry ℝ)} {pts : List (V3 ℝ)} (h : SaysRun e d v bodies pts) (rnd : ℝ → ℝ)
    (lib : HullLib ℝ) : SaysRun (e.rounded rnd lib) d v (bodies.map (BodyEntry.rounded rnd)) (pts.map (V3.rounded rnd)) := by
  obtain ⟨⟨vs, h1, h2⟩, w, h3, h4, h5⟩ := h
  refine ⟨⟨vs, h1, List.forall₂_map_right_iff.mpr (h2.imp fun v b hb => ?_)⟩, w, h3, h4.rounded rnd lib, h5⟩
  exact ⟨hb.toSaysCartesian.rounded rnd lib, hb.density.rounded rnd, hb.constant.rounded rnd, hb.vdatum⟩

/-! ### The configuration is a plain one -/

theorem SaysCartesian.plain {e : Surroundings ℝ} {d : Disk} {v : Val ℚ} {pts : List (V3 ℝ)} (h : SaysCartesian e d v pts) {w : View ℝ} (hw : w.Top (v.read e.lit)) :
    PlainSection w .CART := by
  obtain ⟨s, h1, h2⟩ := h.ref
  have k1 := (hw.says h1).first
  rw [read_str] at k1
  have k2 : ((w.at "crs").at "ref").first = .ok (.str s) := k1
  refine ⟨?_, by simp only [readRef, View.getOptStr, k2, Bind.bind, Except.bind, h2, findMember_CART]; rfl⟩
  rcases h.points with ⟨vs, qs, h1, h2, h3⟩ | ⟨path, ls, last, qs, h1, h2, h3, -⟩
  · have k1 := (hw.says h1).first
    rw [View.path_one, read_list] at k1
    rcases vs with _ | ⟨a, vs⟩
    · cases h2; exact absurd rfl h3
    · exact .inl ⟨_, _, k1⟩
  · have k1 := (hw.says h1).first
    have k2 := (hw.says h2).first
    rw [View.path_one, read_null] at k1
    rw [View.path_one, read_str] at k2
    exact .inr ⟨k1, path, h3, k2⟩

theorem SaysRun.plain {e : Surroundings ℝ} {d : Disk} {v : Val ℚ} {bodies : List (BodyEntry ℝ)} {pts : List (V3 ℝ)} (h : SaysRun e d v bodies pts)
    {cfg : View ℝ} (hroot : cfg.Top (v.read e.lit)) : ∃ l, PlainConfig cfg l := by
  obtain ⟨⟨vs, h1, h2⟩, w, h3, h4, -⟩ := h
  have hm := hroot.says h1
  have ho := hroot.says h3
  rw [View.path_one] at hm ho
  rw [read_list] at hm
  refine ⟨(List.range vs.length).map fun i => (cfg.at "masses").sub (.idx i), ⟨⟨by simp only [View.iter, hm.first, List.length_map], ?_⟩, h4.plain ho⟩⟩
  intro w hw
  obtain ⟨i, hi, rfl⟩ := List.mem_map.mp hw
  have hi := List.mem_range.mp hi
  have htop : ((cfg.at "masses").sub (.idx i)).Top (vs[i].read e.lit) := hm.sub (by simp [Val.sub, hi])
  have hlen := h2.length_eq
  have hb : SaysBody e d vs[i] (bodies[i]'(hlen ▸ hi)) := by
    have := List.forall₂_iff_get.mp h2
    exact this.2 i hi (hlen ▸ hi)
  obtain ⟨j, a, k1, -⟩ := hb.density
  obtain ⟨j', a', k2, -⟩ := hb.constant
  have k1 := (htop.says k1).first
  have k2 := (htop.says k2).first
  rw [View.path_one, read_num] at k1 k2
  exact ⟨.inl (hb.toSaysCartesian.plain htop), ⟨_, _, k1⟩, _, _, k2⟩

/-! ### The output -/

/-- the output file with the given lines of numbers -/
def linesText (csv : CsvLib ℝ) (rows : List (List ℝ)) : List Char :=
  "x_mes,y_mes,z_mes,Gx,Gy,Gz,txx,txy,txz,tyy,tyz,tzz\n".toList ++
  "(m),(m),(m),(mGal),(mGal),(mGal),(E),(E),(E),(E),(E),(E)\n".toList ++ rows.flatMap (numberLine csv)

/-- from the table of the run in rounded arithmetic to the file on the disk -/
theorem rounded_done {e : Surroundings ℝ} (hplain : ∀ x, PlainField (e.csv.text x)) {d : Disk} {args : List (List Char)} {gr : Bool} {v : Val ℚ} {q : Path}
    (hcall : e.Calls d args gr v q) {bodies : List (BodyEntry ℝ)} {pts : List (V3 ℝ)} (hsays : SaysRun e d v bodies pts) {user dflt : Val ℝ}
    (hold : e.Holds d user dflt) (rnd : ℝ → ℝ) (lib : HullLib ℝ) {t : Table ℝ}
    (ht : @runTable ℝ (roundArith rnd) e.geodesy ((Outside.ofDisk e.csv e.resolve e.ceil (setupLogger e.install d).2).mapNum rnd) lib
      ((View.root (setupSources (some (v.read e.lit)) (some user) dflt)).mapNum rnd) gr = .ok t) :
    ∃ d', @geecProgram ℝ (roundArith rnd) (e.rounded rnd lib) args d = some (.done, d') ∧ (∀ r, r ≠ q → d' r = (setupLogger e.install d).2 r) ∧
      d' q = some (.text (linesText e.csv t.rows)) := by
  rw [← ofDisk_rounded, root_rounded] at ht
  have hc := hcall.rounded rnd lib
  obtain ⟨d', h1, h2, h3⟩ := @calls_done_at ℝ (roundArith rnd) (e.rounded rnd lib) _ _ _ _ _ hc _ _ (hold.rounded rnd lib) t ht
  refine ⟨d', h1, h3, ?_⟩
  rw [h2]
  have h4 := @C109_text ℝ (roundArith rnd) e.geodesy _ (e.csv.rounded rnd) hplain lib _ gr t ht
  obtain ⟨-, -, ob, k4, -, -, k7, k8⟩ := @C122_read ℝ (roundArith rnd) (e.rounded rnd lib) d hcall.disk hcall.top v _ _ (hsays.rounded rnd lib) (some (user.mapNum rnd)) (dflt.mapNum rnd)
  obtain ⟨r, first, rest, hr, -, -, hcol, -⟩ := @runTable_ok ℝ (roundArith rnd) _ _ _ _ _ _ ht
  obtain rfl : ob = r.observer := by exact Except.ok.inj (k4.symm.trans (@RunData.Of.observer ℝ (roundArith rnd) _ _ _ _ _ hr))
  rw [k7, k8] at hcol
  have g1 := title_names
  have g2 := title_units
  rw [← hcol] at g1 g2
  have h5 : toCsv (e.rounded rnd lib).csv t = linesText e.csv t.rows := by
    refine h4.trans ?_
    unfold linesText
    rw [← g1, ← g2, List.flatMap_cons, List.flatMap_cons, List.flatMap_map]
    simp only [List.append_assoc]
    rfl
  rw [h5]

/-- **C04** Without `--gradient` the six tensor columns are zero on every line, in every arithmetic in which `0 + 0 = 0`. -/
theorem C04_run_zero {S : Type} [Arith S] (h0 : (zero : S) +. zero = zero) (g : Geodesy S) (o : Outside S) (lib : HullLib S)
    (cfg : View S) (t : Table S) (h : runTable g o lib cfg false = .ok t) :
    ∀ row ∈ t.rows, row.drop 6 = [zero, zero, zero, zero, zero, zero] := by
  obtain ⟨r, first, rest, hr, _, _, _, hrows⟩ := runTable_ok h
  intro row hrow
  generalize r.stations.coords.rows = pts at hrows
  generalize t.rows = rows at hrows hrow
  induction hrows with
  | nil => simp at hrow
  | cons h1 _ ih =>
    rcases List.mem_cons.mp hrow with rfl | hrow
    · obtain ⟨s, w', hs, hl, hc⟩ := h1
      have := computeGravity_tensor (Q := fun T : M3 S => T = M3.zeros) (gr := false) (density := first.density) (Gc := first.gravityConstant) (by
        intro p obs m G T h T0 h1
        rw [C04_no_gradient_zero_tensor h0 p obs _ _ m h]
        subst h1
        simp [M3.zeros, M3.add, V3.zeros, V3.add, h0]) r.bodies (Station.new s.coord) r.world rfl
      rw [hs, hc] at this
      simp only at this
      rw [hl]
      simp [lineOf, this, M3.zeros, V3.zeros]
    · exact ih hrow

/-- a line of the output for the point `p`: its rounded coordinates, and numbers that are within `ε` of the given ones -/
def NearLine (rnd : ℝ → ℝ) (ε : ℝ) (p : V3 ℝ) (columns row : List ℝ) : Prop :=
  ∃ xs, row = [rnd p.x, rnd p.y, rnd p.z] ++ xs ∧ List.Forall₂ (fun a b => |a - b| ≤ ε) xs columns

/-- the points of a body are read, after rounding, and the library returns some triangulated hull for them -/
def Triangulates (lib : HullLib ℝ) (rnd : ℝ → ℝ) (b : BodyEntry ℝ) : Prop :=
  ∃ H, lib.convexHull (b.points.map (V3.rounded rnd)) = .ok H ∧ H.points = b.points.map (V3.rounded rnd) ∧ H.IsHull ∧ H.Tidy

theorem nearLines {rnd : ℝ → ℝ} {ε : ℝ} {pts : List (V3 ℝ)} {rows : List (List ℝ)} {columns : V3 ℝ → List ℝ} (hlen : rows.length = pts.length)
    (h : ∀ (i : Nat) p, pts[i]? = some p → ∃ row, rows[i]? = some row ∧ NearLine rnd ε p (columns p) row) :
    List.Forall₂ (fun p row => NearLine rnd ε p (columns p) row) pts rows := by
  rw [List.forall₂_iff_get]
  refine ⟨hlen.symm, fun i hi hi' => ?_⟩
  obtain ⟨row, h1, h2⟩ := h i _ (List.getElem?_eq_getElem hi)
  rw [List.getElem?_eq_getElem hi'] at h1
  cases h1
  exact h2

/-- **C124** From texts to texts in floating point.  A configuration file says Cartesian bodies of the same density and constant, with firm points, and Cartesian observation points
that are regular and where no comparison is a tie, for all triangulations of the points.  All numbers of all files are rounded on reading and all operations are rounded, with the
unit roundoff `δ ≤ 1 / K`, and `0` is exact; the hull library returns some triangulated hull for the rounded points of every body.  Then the program ends well, and the output file
has the two lines of titles and, for each observation point in order, a line with the texts of twelve numbers: the rounded coordinates, numbers within `K δ` of `1e5 Gc ρ` times Newton's integrals over the
bodies as written, at the point as written, and six zeros.  No other file is changed but the log. -/
theorem C124_run (e : Surroundings ℝ) (hplain : ∀ x, PlainField (e.csv.text x)) {d : Disk} {args : List (List Char)} {v : Val ℚ} {q : Path}
    (hcall : e.Calls d args false v q) {bodies : List (BodyEntry ℝ)} {pts : List (V3 ℝ)} (hsays : SaysRun e d v bodies pts) (hne : bodies ≠ [])
    {ρ Gc : ℝ} (hsame : SameDensity bodies ρ Gc) (hf : ∀ b ∈ bodies, Firm b.points)
    (hd : ∀ b ∈ bodies, ∀ h : Hull ℝ, h.points = b.points → h.IsHull → ∀ p ∈ pts, h.Decided p ∧ h.Regular p) :
    ∃ K, 0 < K ∧ ∀ (rnd : ℝ → ℝ) (δ : ℝ), 0 < δ → δ ≤ 1 / K → (∀ a, |a| ≤ K → |rnd a - a| ≤ δ * max 1 |a|) → rnd 0 = 0 →
      ∀ lib : HullLib ℝ, (∀ b ∈ bodies, Triangulates lib rnd b) →
      ∃ d' rows, @geecProgram ℝ (roundArith rnd) (e.rounded rnd lib) args d = some (.done, d') ∧ (∀ r, r ≠ q → d' r = (setupLogger e.install d).2 r) ∧
        d' q = some (.text (linesText e.csv rows)) ∧
        List.Forall₂ (fun p row => NearLine rnd (K * δ) p [100000 * Gc * ρ * bodySum bodies (fun B => (attraction B p).x),
          100000 * Gc * ρ * bodySum bodies (fun B => (attraction B p).y), 100000 * Gc * ρ * bodySum bodies (fun B => (attraction B p).z), 0, 0, 0, 0, 0, 0] row ∧
          row.drop 6 = [0, 0, 0, 0, 0, 0]) pts rows := by
  obtain ⟨user, dflt, hold⟩ := hcall.other
  obtain ⟨k1, ⟨ms, k2, k3⟩, ob, k4, k5, -⟩ := C122_read e hcall.disk hcall.top hsays (some user) dflt
  obtain ⟨l, hl⟩ := hsays.plain (cfg := View.root (setupSources (some (v.read e.lit)) (some user) dflt)) ⟨_, rfl⟩
  have hms : ms ≠ [] := by rintro rfl; cases k3; exact hne rfl
  have hpts : pts ≠ [] := by obtain ⟨w, -, h1, -⟩ := hsays.observers; exact h1.points.ne_nil
  obtain ⟨K, hK, key⟩ := C103_run e.geodesy _ _ l hl k1 ms k2 hms ob k4 (by rw [k5]; exact hpts) ρ Gc (fun m hm => by
      obtain ⟨b, h1, h2⟩ := member k3 hm; rw [h2.1, h2.2.1]; exact hsame b h1) (fun m hm => by
      obtain ⟨b, h1, h2⟩ := member k3 hm; rw [h2.2.2.1]; exact hf b h1) (fun m hm h e1 e2 p hp => by
      obtain ⟨b, h1, h2⟩ := member k3 hm
      exact hd b h1 h (e1.trans h2.2.2.1) e2 p (k5 ▸ hp))
  refine ⟨K, hK, fun rnd δ hδ hδK hr h0 lib hlib => ?_⟩
  obtain ⟨t, ht, hlen, hrows⟩ := key rnd δ hδ hδK hr lib fun m hm => by
    obtain ⟨b, h1, h2⟩ := member k3 hm
    rw [h2.2.2.1]; exact hlib b h1
  obtain ⟨d', g1, g2, g3⟩ := rounded_done hplain hcall hsays hold rnd lib ht
  refine ⟨d', t.rows, g1, g2, g3, ?_⟩
  have hz := @C04_run_zero ℝ (roundArith rnd) (by change rnd (rnd 0 + rnd 0) = rnd 0; rw [h0, add_zero, h0]) _ _ _ _ t ht
  have hz' : ∀ row ∈ t.rows, row.drop 6 = [0, 0, 0, 0, 0, 0] := fun row hrow => (hz row hrow).trans (by change [rnd 0, rnd 0, rnd 0, rnd 0, rnd 0, rnd 0] = _; rw [h0])
  rw [k5] at hlen hrows
  have hKδ : (0 : ℝ) ≤ K * δ := (mul_pos hK hδ).le
  have hnear := nearLines (rnd := rnd) (ε := K * δ) (columns := fun p => [100000 * Gc * ρ * bodySum bodies (fun B => (attraction B p).x),
          100000 * Gc * ρ * bodySum bodies (fun B => (attraction B p).y), 100000 * Gc * ρ * bodySum bodies (fun B => (attraction B p).z), 0, 0, 0, 0, 0, 0]) hlen fun i p hp => by
    obtain ⟨G, e1, e2, e3, e4⟩ := hrows i p hp
    obtain ⟨row, f1, f2⟩ := Option.map_eq_some_iff.mp e1
    refine ⟨row, f1, [G.x, G.y, G.z, 0, 0, 0, 0, 0, 0], ?_, ?_⟩
    · rw [← List.take_append_drop 6 row, f2, hz' row (List.mem_of_getElem? f1)]; rfl
    · simp only [bodySum_eq k3] at e2 e3 e4
      refine .cons e2 (.cons e3 (.cons e4 ?_))
      simp only [List.forall₂_cons, sub_self, abs_zero, hKδ, true_and, List.Forall₂.nil]
  rw [List.forall₂_iff_get] at hnear ⊢
  exact ⟨hnear.1, fun i hi hi' => ⟨hnear.2 i hi hi', hz' _ (List.get_mem _ _)⟩⟩

/-- **C124** The same with `--gradient`, at points outside the bodies and off the lines of their edges: the last six numbers are within `K δ` of `1e9 Gc ρ` times the tidal integrals. -/
theorem C124_gradient (e : Surroundings ℝ) (hplain : ∀ x, PlainField (e.csv.text x)) {d : Disk} {args : List (List Char)} {v : Val ℚ} {q : Path}
    (hcall : e.Calls d args true v q) {bodies : List (BodyEntry ℝ)} {pts : List (V3 ℝ)} (hsays : SaysRun e d v bodies pts) (hne : bodies ≠ [])
    {ρ Gc : ℝ} (hsame : SameDensity bodies ρ Gc) (hf : ∀ b ∈ bodies, Firm b.points)
    (hd : ∀ b ∈ bodies, ∀ h : Hull ℝ, h.points = b.points → h.IsHull → ∀ p ∈ pts, h.Decided p ∧ h.OffLines p ∧ h.TensorRegular p ∧ p.toP ∉ h.body) :
    ∃ K, 0 < K ∧ ∀ (rnd : ℝ → ℝ) (δ : ℝ), 0 < δ → δ ≤ 1 / K → (∀ a, |a| ≤ K → |rnd a - a| ≤ δ * max 1 |a|) →
      ∀ lib : HullLib ℝ, (∀ b ∈ bodies, Triangulates lib rnd b) →
      ∃ d' rows, @geecProgram ℝ (roundArith rnd) (e.rounded rnd lib) args d = some (.done, d') ∧ (∀ r, r ≠ q → d' r = (setupLogger e.install d).2 r) ∧
        d' q = some (.text (linesText e.csv rows)) ∧
        List.Forall₂ (fun p row => NearLine rnd (K * δ) p [100000 * Gc * ρ * bodySum bodies (fun B => (attraction B p).x),
          100000 * Gc * ρ * bodySum bodies (fun B => (attraction B p).y), 100000 * Gc * ρ * bodySum bodies (fun B => (attraction B p).z),
          1000000000 * Gc * ρ * bodySum bodies (fun B => (tidal B p).r0.x), 1000000000 * Gc * ρ * bodySum bodies (fun B => (tidal B p).r0.y),
          1000000000 * Gc * ρ * bodySum bodies (fun B => (tidal B p).r0.z), 1000000000 * Gc * ρ * bodySum bodies (fun B => (tidal B p).r1.y),
          1000000000 * Gc * ρ * bodySum bodies (fun B => (tidal B p).r1.z), 1000000000 * Gc * ρ * bodySum bodies (fun B => (tidal B p).r2.z)] row) pts rows := by
  obtain ⟨user, dflt, hold⟩ := hcall.other
  obtain ⟨k1, ⟨ms, k2, k3⟩, ob, k4, k5, -⟩ := C122_read e hcall.disk hcall.top hsays (some user) dflt
  obtain ⟨l, hl⟩ := hsays.plain (cfg := View.root (setupSources (some (v.read e.lit)) (some user) dflt)) ⟨_, rfl⟩
  have hms : ms ≠ [] := by rintro rfl; cases k3; exact hne rfl
  have hpts : pts ≠ [] := by obtain ⟨w, -, h1, -⟩ := hsays.observers; exact h1.points.ne_nil
  obtain ⟨K, hK, key⟩ := C103_run_tidal e.geodesy _ _ l hl k1 ms k2 hms ob k4 (by rw [k5]; exact hpts) ρ Gc (fun m hm => by
      obtain ⟨b, h1, h2⟩ := member k3 hm; rw [h2.1, h2.2.1]; exact hsame b h1) (fun m hm => by
      obtain ⟨b, h1, h2⟩ := member k3 hm; rw [h2.2.2.1]; exact hf b h1) (fun m hm h e1 e2 p hp => by
      obtain ⟨b, h1, h2⟩ := member k3 hm
      exact hd b h1 h (e1.trans h2.2.2.1) e2 p (k5 ▸ hp))
  refine ⟨K, hK, fun rnd δ hδ hδK hr lib hlib => ?_⟩
  obtain ⟨t, ht, hlen, hrows⟩ := key rnd δ hδ hδK hr lib fun m hm => by
    obtain ⟨b, h1, h2⟩ := member k3 hm
    rw [h2.2.2.1]; exact hlib b h1
  obtain ⟨d', g1, g2, g3⟩ := rounded_done hplain hcall hsays hold rnd lib ht
  refine ⟨d', t.rows, g1, g2, g3, ?_⟩
  rw [k5] at hlen hrows
  refine nearLines (rnd := rnd) (ε := K * δ) hlen fun i p hp => ?_
  obtain ⟨row, e1, e2, e3⟩ := hrows i p hp
  refine ⟨row, e1, row.drop 3, ?_, ?_⟩
  · rw [← e2, List.take_append_drop]
  · simp only [fieldColumns, bodySum_eq k3] at e3
    exact e3

/-! ### The disk of C122 in fixed-point arithmetic -/

namespace Whole

theorem body_general : General body.points := halves_general 2 2 _ (List.mem_cons_self)

theorem body_decided : ∀ b ∈ [body], ∀ h : Hull ℝ, h.points = b.points → h.IsHull → ∀ p ∈ [(⟨2, 3, 5⟩ : V3 ℝ)],
    h.Decided p ∧ h.OffLines p ∧ h.TensorRegular p ∧ p.toP ∉ h.body := by
  intro b hb h e hh p hp
  obtain rfl : b = body := by simpa using hb
  obtain rfl : p = ⟨2, 3, 5⟩ := by simpa using hp
  refine outside_any halfA_isHull hh (e.trans halfA_points.symm) (by rw [halfA_points]; exact body_general) ⟨halfA_decided, halfA_offLines, halfA_tensorRegular, ?_⟩
  rw [halfA_body]; rintro ⟨h1, h2, h3, h4⟩; simp only [V3.toP] at h4; norm_num at h4

/-- numbers with `n` binary digits behind the point, rounded down -/
def fixed (n : ℕ) (a : ℝ) : ℝ := ⌊a * 2 ^ n⌋ / 2 ^ n

theorem fixed_near (n : ℕ) (a : ℝ) : |fixed n a - a| ≤ 1 / 2 ^ n := by
  have h2 : (0 : ℝ) < 2 ^ n := by positivity
  have h3 : fixed n a - a = -(Int.fract (a * 2 ^ n)) / 2 ^ n := by
    unfold fixed Int.fract
    field_simp
    ring
  rw [h3, abs_div, abs_neg, abs_of_pos h2, abs_of_nonneg (Int.fract_nonneg _)]
  exact div_le_div_of_nonneg_right (Int.fract_lt_one _).le h2.le

theorem fixed_int (n : ℕ) (k : ℤ) : fixed n k = k := by
  unfold fixed
  rw [show ((k : ℝ) * 2 ^ n) = ((k * 2 ^ n : ℤ) : ℝ) by push_cast; rfl, Int.floor_intCast]
  push_cast
  field_simp

theorem fixed_half (n : ℕ) (hn : 1 ≤ n) : fixed n (1 / 2) = 1 / 2 := by
  obtain ⟨m, rfl⟩ : ∃ m, n = m + 1 := ⟨n - 1, by omega⟩
  unfold fixed
  rw [show ((1 / 2 : ℝ) * 2 ^ (m + 1)) = ((2 ^ m : ℤ) : ℝ) by push_cast; ring, Int.floor_intCast]
  push_cast
  field_simp
  ring

theorem body_fixed (n : ℕ) (hn : 1 ≤ n) : body.points.map (V3.rounded (fixed n)) = body.points := by
  have h0 : fixed n 0 = 0 := by simpa using fixed_int n 0
  have h1 : fixed n 1 = 1 := by simpa using fixed_int n 1
  have h2 := fixed_half n hn
  simp only [body, List.map_cons, List.map_nil, V3.rounded, h0, h1, h2]

theorem halfA_tidy : halfA.Tidy := by
  unfold Hull.Tidy halfA
  decide

theorem body_triangulated (n : ℕ) (hn : 1 ≤ n) : ∀ b ∈ [body], Triangulates fourPoints (fixed n) b := by
  intro b hb
  obtain rfl : b = body := by simpa using hb
  unfold Triangulates
  rw [body_fixed n hn]
  exact ⟨halfA, whole_hull, halfA_points, halfA_isHull, halfA_tidy⟩

/-- C124_run: the program of C122 computes with `n` binary digits behind the point; its line has twelve numbers, and Gz is right up to `K / 2 ^ n` -/
example : ∃ K, 0 < K ∧ ∀ n : ℕ, 1 ≤ n → K ≤ 2 ^ n → ∃ d' row G,
    @geecProgram ℝ (roundArith (fixed n)) (around.rounded (fixed n) fourPoints) (theWords "--no-gradient") disk = some (.done, d') ∧
    d' ["a".toList, "out.csv".toList] = some (.text (linesText around.csv [row])) ∧ row.length = 12 ∧ row.take 3 = [2, 3, 5] ∧ row[5]? = some G ∧
    |G - 100000 * 1 * 2 * bodySum [body] (fun B => (attraction B ⟨2, 3, 5⟩).z)| ≤ K / 2 ^ n := by
  obtain ⟨K, hK, key⟩ := C124_run around whole_text (whole_calls false) whole_says (List.cons_ne_nil _ _) (ρ := 2) (Gc := 1) (fun b hb => by
    obtain rfl : b = body := by simpa using hb
    exact ⟨rfl, rfl⟩) (fun b hb => by
    obtain rfl : b = body := by simpa using hb
    exact body_general.firm) (fun b hb h e hh p hp => ⟨(body_decided b hb h e hh p hp).1, (body_decided b hb h e hh p hp).2.2.1.regular⟩)
  refine ⟨K, hK, fun n hn hKn => ?_⟩
  have h2 : (0 : ℝ) < 2 ^ n := by positivity
  obtain ⟨d', rows, h1, -, h3, h4⟩ := key (fixed n) (1 / 2 ^ n) (by positivity) (one_div_le_one_div_of_le hK hKn)
    (fun a _ => (fixed_near n a).trans (le_mul_of_one_le_right (by positivity) (le_max_left _ _))) (by simpa using fixed_int n 0) fourPoints (body_triangulated n hn)
  rcases h4 with _ | ⟨⟨⟨xs, rfl, h5⟩, h6⟩, h'⟩
  cases h'
  rcases h5 with _ | ⟨-, _ | ⟨-, _ | ⟨h7, h8⟩⟩⟩
  refine ⟨d', _, _, h1, h3, ?_, ?_, rfl, ?_⟩
  · have := h8.length_eq
    simp only [List.length_cons, List.length_nil, List.length_append] at this ⊢
    omega
  · have e2 : fixed n 2 = 2 := by simpa using fixed_int n 2
    have e3 : fixed n 3 = 3 := by simpa using fixed_int n 3
    have e5 : fixed n 5 = 5 := by simpa using fixed_int n 5
    simp [e2, e3, e5]
  · rw [mul_one_div] at h7
    exact h7

/-- C124_gradient: the same, and the last number, tzz -/
example : ∃ K, 0 < K ∧ ∀ n : ℕ, 1 ≤ n → K ≤ 2 ^ n → ∃ d' row T,
    @geecProgram ℝ (roundArith (fixed n)) (around.rounded (fixed n) fourPoints) (theWords "--gradient") disk = some (.done, d') ∧
    d' ["a".toList, "out.csv".toList] = some (.text (linesText around.csv [row])) ∧ row[11]? = some T ∧
    |T - 1000000000 * 1 * 2 * bodySum [body] (fun B => (tidal B ⟨2, 3, 5⟩).r2.z)| ≤ K / 2 ^ n := by
  obtain ⟨K, hK, key⟩ := C124_gradient around whole_text (whole_calls true) whole_says (List.cons_ne_nil _ _) (ρ := 2) (Gc := 1) (fun b hb => by
    obtain rfl : b = body := by simpa using hb
    exact ⟨rfl, rfl⟩) (fun b hb => by
    obtain rfl : b = body := by simpa using hb
    exact body_general.firm) body_decided
  refine ⟨K, hK, fun n hn hKn => ?_⟩
  have h2 : (0 : ℝ) < 2 ^ n := by positivity
  obtain ⟨d', rows, h1, -, h3, h4⟩ := key (fixed n) (1 / 2 ^ n) (by positivity) (one_div_le_one_div_of_le hK hKn)
    (fun a _ => (fixed_near n a).trans (le_mul_of_one_le_right (by positivity) (le_max_left _ _))) fourPoints (body_triangulated n hn)
  rcases h4 with _ | ⟨⟨xs, rfl, h5⟩, h'⟩
  cases h'
  rcases h5 with _ | ⟨-, _ | ⟨-, _ | ⟨-, _ | ⟨-, _ | ⟨-, _ | ⟨-, _ | ⟨-, _ | ⟨-, _ | ⟨h7, -⟩⟩⟩⟩⟩⟩⟩⟩⟩
  refine ⟨d', _, _, h1, h3, rfl, ?_⟩
  rw [mul_one_div] at h7
  exact h7

/-- C04_run_zero: with `n` binary digits, `0 + 0 = 0` -/
example (n : ℕ) : @Arith.add ℝ (roundArith (fixed n)) (@Arith.zero ℝ (roundArith (fixed n))) (@Arith.zero ℝ (roundArith (fixed n))) = @Arith.zero ℝ (roundArith (fixed n)) := by
  have h0 : fixed n 0 = 0 := by simpa using fixed_int n 0
  change fixed n (fixed n 0 + fixed n 0) = fixed n 0
  rw [h0, add_zero, h0]

end Whole

end
end Geec
