import Verif.Spec.Run
import Verif.Spec.Suffix
import Verif.Props.Frames
import Verif.Props.Station
/-
C36 – C39, C45, C47, C53 – C55 and the command-line part of C04.
-/
namespace Geec
open Arith
set_option linter.unusedSectionVars false
variable {S : Type} [Arith S]

theorem except_bind_ok {ε α β : Type} {x : Except ε α} {f : α → Except ε β} {b : β} (h : (x >>= f) = .ok b) :
    ∃ a, x = .ok a ∧ f a = .ok b := by
  cases x with
  | error e => cases h
  | ok a => exact ⟨a, rfl, h⟩

theorem massesMap_ok {f : Dataset S → Except PyErr Unit × Dataset S} {ms ms' : List (Mass S)}
    (h : massesMap f ms = .ok ms') : List.Forall₂ (fun m m' => m'.density = m.density ∧
      m'.gravityConstant = m.gravityConstant ∧ f m.dataset = (.ok (), m'.dataset)) ms ms' := by
  refine (mapM_ok.mp h).imp (fun m m' hm => ?_)
  rcases hf : f m.dataset with ⟨e | ⟨⟩, d⟩
  · rw [hf] at hm; cases hm
  · rw [hf] at hm; cases hm; exact ⟨rfl, rfl, rfl⟩

/-- the loop over the observation points: each row is what a new station computes on unused bodies -/
theorem applyRows_ok (ids : List Nat) (density Gc : S) (gr : Bool) (pts : List (V3 S)) :
    ∀ (w : World S), w.Sound → ∀ rs, (applyRows ids density Gc gr pts w).1 = .ok rs →
    List.Forall₂ (fun p row => ∃ s w', s.coord = p ∧ lineOf s = [p.x, p.y, p.z] ++ row ∧
      computeGravity (.list (ids.map .poly)) density Gc gr (Station.new p) ⟨w.poly, fun _ => Mem.fresh⟩ =
        (.ok (), s, w')) pts rs := by
  induction pts with
  | nil => intro w _ rs h; simp only [applyRows] at h; cases h; exact .nil
  | cons p pts ih =>
    intro w hw rs h
    simp only [applyRows, addGravity] at h
    rcases hc : computeGravity (.list (ids.map .poly)) density Gc gr (Station.new p) w with ⟨e | u, s, w1⟩
    · rw [hc] at h; cases h
    · rw [hc] at h
      simp only at h
      have hc0 := hc
      simp only [computeGravity, polyIds_map] at hc
      obtain ⟨as, has⟩ := stationLoop_returns ids hw hc
      obtain ⟨w2, h1, h2, h3⟩ := stationLoop_ok density Gc gr ids (Station.new p) w hw as has
      obtain ⟨w3, h4, _, _⟩ := stationLoop_ok density Gc gr ids (Station.new p) ⟨w.poly, fun _ => Mem.fresh⟩
        ⟨hw.inside, fun _ => clean_fresh⟩ as has
      rw [hc] at h1
      cases h1
      rcases ha : applyRows ids density Gc gr pts w1 with ⟨e | rs', w4⟩
      · rw [ha] at h; cases h
      · rw [ha] at h
        simp only [Except.ok.injEq] at h
        subst h
        have hcoord : (accumulate (Station.new p) as).coord = p := by
          have := (stationLoop_frame density Gc gr ids (Station.new p) w).1
          rw [hc] at this; exact this
        refine .cons ⟨accumulate (Station.new p) as, w3, hcoord, ?_, ?_⟩ ?_
        · simp [lineOf, hcoord]
        · simp only [computeGravity, polyIds_map]; exact h4
        · have := ih w1 h2 rs' (by rw [ha])
          rw [h3] at this; exact this

theorem poly_nil_inside : (⟨[], []⟩ : Poly S).TwinsInside := by
  intro i f h; simp at h

theorem RunData.world_sound (r : RunData S) (h : ∀ p ∈ r.polys, p.TwinsInside) : r.world.Sound := by
  refine ⟨fun k => ?_, fun _ => clean_fresh⟩
  simp only [RunData.world, List.getD]
  cases hk : r.polys[k]? with
  | none => simp only [Option.getD_none]; exact poly_nil_inside
  | some p => exact h p (List.mem_of_getElem? hk)

theorem polyhedronOf_inside {lib : HullLib S} {pts : List (V3 S)} {p : Poly S} (h : polyhedronOf lib pts = .ok p) :
    p.TwinsInside := by
  obtain ⟨hh, _, h2⟩ := except_bind_ok h
  exact mkPoly_inside h2

theorem runData_inside {r : RunData S} {g : Geodesy S} {o : Outside S} {lib : HullLib S} {cfg : View S}
    (h : r.Of g o lib cfg) : ∀ p ∈ r.polys, p.TwinsInside := by
  have h1 := h.polys
  generalize r.masses = ms at h1
  generalize r.polys = ps at h1
  induction h1 with
  | nil => simp
  | cons h _ ih =>
    intro p hp
    rcases List.mem_cons.mp hp with rfl | hp
    · exact polyhedronOf_inside h
    · exact ih p hp

/-- everything about a returning run -/
theorem runTable_ok {g : Geodesy S} {o : Outside S} {lib : HullLib S} {cfg : View S} {gr : Bool} {t : Table S}
    (h : runTable g o lib cfg gr = .ok t) : ∃ (r : RunData S) (first : Mass S) (rest : List (Mass S)),
    r.Of g o lib cfg ∧ r.masses = first :: rest ∧ r.stations.coords.rows ≠ [] ∧
    t.columns = (r.observer.coordsName ++ fieldName).zip (r.observer.coordsUnit ++ fieldUnit) ∧
    List.Forall₂ (fun p row => ∃ s w', s.coord = p ∧ row = lineOf s ∧
      computeGravity r.bodies first.density first.gravityConstant gr (Station.new p) r.world = (.ok (), s, w'))
      r.stations.coords.rows t.rows := by
  simp only [runTable] at h
  obtain ⟨_, _, h⟩ := except_bind_ok h
  obtain ⟨ms, hms, h⟩ := except_bind_ok h
  obtain ⟨ms1, hms1, h⟩ := except_bind_ok h
  obtain ⟨ms2, hms2, h⟩ := except_bind_ok h
  obtain ⟨ms3, hms3, h⟩ := except_bind_ok h
  obtain ⟨polys, hpolys, h⟩ := except_bind_ok h
  obtain ⟨first, hfirst, h⟩ := except_bind_ok h
  obtain ⟨ob, hob, h⟩ := except_bind_ok h
  obtain ⟨ds, hds, h⟩ := except_bind_ok h
  have hds' : ob.dataset.toWgs84 g = (.ok (), ds) := by
    rcases hh : ob.dataset.toWgs84 g with ⟨e | ⟨⟩, d⟩
    · rw [hh] at hds; cases hds
    · rw [hh] at hds; cases hds; rfl
  obtain ⟨rest, hrest⟩ : ∃ rest, ms3 = first :: rest := by
    cases ms3 with
    | nil => cases hfirst
    | cons m rest => cases hfirst; exact ⟨rest, rfl⟩
  split at h
  · cases h
  · rename_i hne
    obtain ⟨rs, hrs, h⟩ := except_bind_ok h
    have h1 := massesMap_ok hms1
    have h2 := massesMap_ok hms2
    have h3 := massesMap_ok hms3
    let r : RunData S := ⟨ms, ms3, polys, ob, ds⟩
    have hr : r.Of g o lib cfg := by
      refine ⟨hms, ?_, mapM_ok.mp hpolys, hob, hds'⟩
      refine forall₂_comp (R := fun m m' => m'.density = m.density ∧ m'.gravityConstant = m.gravityConstant ∧
        runOps g [.lon180, .height] m.dataset = (.ok (), m'.dataset)) ?_ (forall₂_comp ?_ h1 h2) h3
      · rintro a b c ⟨h1, h2, h3⟩ ⟨h4, h5, h6⟩
        refine ⟨h4.trans h1, h5.trans h2, ?_⟩
        simp only [runOps, Op.run] at h3 ⊢
        rcases hh : a.dataset.toLon180.toEllipsoidHeight g with ⟨e | ⟨⟩, d⟩
        · rw [hh] at h3; cases h3
        · rw [hh] at h3; cases h3
          simp only [h6]
      · rintro a b c ⟨h1, h2, h3⟩ ⟨h4, h5, h6⟩
        refine ⟨h4.trans h1, h5.trans h2, ?_⟩
        simp only [Prod.mk.injEq, true_and] at h3
        simp only [runOps, Op.run, h3, h6]
    refine ⟨r, first, rest, hr, hrest, ?_, ?_, ?_⟩
    · intro h0; exact hne (by simpa using h0)
    · cases h; rfl
    · have h4 := applyRows_ok _ _ _ _ _ _ (r.world_sound (runData_inside hr)) rs hrs
      cases h
      simp only
      have hz : ∀ (pts : List (V3 S)) (rs : List (List S)) (P : V3 S → List S → Prop),
          List.Forall₂ (fun p row => P p ([p.x, p.y, p.z] ++ row)) pts rs →
          List.Forall₂ P pts ((pts.zip rs).map (fun pr => [pr.1.x, pr.1.y, pr.1.z] ++ pr.2)) := by
        intro pts rs P h
        induction h with
        | nil => exact .nil
        | cons h _ ih => exact .cons h ih
      refine hz _ _ _ (h4.imp ?_)
      rintro p row ⟨s, w', hs, hl, hc⟩
      exact ⟨s, w', hs, hl.symm, hc⟩

/-- the labels and units of the table -/
def resultColumns : List (String × String) :=
  [("Gx", "(mGal)"), ("Gy", "(mGal)"), ("Gz", "(mGal)"), ("txx", "(E)"), ("txy", "(E)"), ("txz", "(E)"),
   ("tyy", "(E)"), ("tyz", "(E)"), ("tzz", "(E)")]
def cartesianColumns : List (String × String) := [("x_mes", "(m)"), ("y_mes", "(m)"), ("z_mes", "(m)")]
def geographicColumns : List (String × String) :=
  [("lon_mes", "(degree_east)"), ("lat_mes", "(degree_north)"), ("alt_mes", "(m)")]

theorem observer_labels (d : Dataset S) : ((mkObserver d).coordsName ++ fieldName).zip
    ((mkObserver d).coordsUnit ++ fieldUnit) =
    (if d.crs.name = .CART then cartesianColumns else geographicColumns) ++ resultColumns := by
  simp only [mkObserver]
  cases h : d.crs.name <;> rfl

theorem getObserver_is {g : Geodesy S} {o : Outside S} {cfg : View S} {ob : Observer S}
    (h : getObserver g o cfg = .ok ob) : ob = mkObserver ob.dataset := by
  simp only [getObserver] at h
  obtain ⟨d, _, h⟩ := except_bind_ok h
  cases h
  simp only [mkObserver]
  cases hn : d.crs.name <;> simp [hn]

/-- **C38.** The table of a returning run: one line per observation point, in order; the line of a point holds its
coordinates and, under the labels Gx … tzz, what a *new* station at that point computes for *unused* bodies, hence it
does not depend on the other points. -/
theorem C38_table (g : Geodesy S) (o : Outside S) (lib : HullLib S) (cfg : View S) (gr : Bool) (t : Table S)
    (h : runTable g o lib cfg gr = .ok t) : ∃ (r : RunData S) (density Gc : S), r.Of g o lib cfg ∧
    t.rows.length = r.stations.coords.rows.length ∧
    (∃ first3 : List (String × String), first3.length = 3 ∧ t.columns = first3 ++ resultColumns) ∧
    ∀ (i : Nat) (p : V3 S), r.stations.coords.rows[i]? = some p → ∃ s w',
      computeGravity r.bodies density Gc gr (Station.new p) r.world = (.ok (), s, w') ∧
      s.coord = p ∧ t.rows[i]? = some (lineOf s) := by
  obtain ⟨r, first, rest, hr, _, _, hcol, hrows⟩ := runTable_ok h
  refine ⟨r, first.density, first.gravityConstant, hr, hrows.length_eq.symm, ?_, ?_⟩
  · rw [hcol, getObserver_is hr.observer, observer_labels]
    refine ⟨_, ?_, rfl⟩
    split <;> rfl
  · intro i p hp
    generalize r.stations.coords.rows = pts at hrows hp
    generalize t.rows = rows at hrows ⊢
    induction hrows generalizing i with
    | nil => simp at hp
    | cons h1 _ ih =>
      cases i with
      | zero =>
        simp only [List.getElem?_cons_zero, Option.some.injEq] at hp
        subst hp
        obtain ⟨s, w', hs, hrow, hc⟩ := h1
        exact ⟨s, w', hc, hs, by simp [hrow]⟩
      | succ i => exact ih i (by simpa using hp)

/-- **C39.** The coordinate labels of the table are x/y/z in metres when the coordinates in it are Cartesian, and
lon/lat/alt when they are geographic on WGS84; there is no third case. -/
theorem C39_labels (g : Geodesy S) (hg : g.Lawful) (o : Outside S) (lib : HullLib S) (cfg : View S) (gr : Bool)
    (t : Table S) (h : runTable g o lib cfg gr = .ok t) : ∃ r : RunData S, r.Of g o lib cfg ∧
    (∀ (i : Nat) (row : List S), t.rows[i]? = some row → ∃ p : V3 S, r.stations.coords.rows[i]? = some p ∧
      row.take 3 = [p.x, p.y, p.z]) ∧
    ((t.columns.take 3 = cartesianColumns ∧ r.stations.crs.name = .CART ∧ r.stations = r.observer.dataset) ∨
     (t.columns.take 3 = geographicColumns ∧ r.stations.crs.name = .ELLPS ∧
       ∃ e, r.stations.crs.ellps = some e ∧ g.ellEq e (wgs84 g) = true)) := by
  obtain ⟨r, first, rest, hr, _, _, hcol, hrows⟩ := runTable_ok h
  refine ⟨r, hr, ?_, ?_⟩
  · intro i row hrow
    generalize r.stations.coords.rows = pts at hrows ⊢
    generalize t.rows = rows at hrows hrow
    induction hrows generalizing i with
    | nil => simp at hrow
    | cons h1 _ ih =>
      cases i with
      | zero =>
        simp only [List.getElem?_cons_zero, Option.some.injEq] at hrow
        subst hrow
        obtain ⟨s, w', hs, hrow, hc⟩ := h1
        exact ⟨_, rfl, by rw [hrow, ← hs]; rfl⟩
      | succ i => exact ih i (by simpa using hrow)
  · rw [getObserver_is hr.observer, observer_labels] at hcol
    have hs := hr.stations
    by_cases hc : r.observer.dataset.crs.name = .CART
    · left
      rw [if_pos hc] at hcol
      simp only [Dataset.toWgs84, hc, Dataset.apply, crsId, Prod.mk.injEq, true_and] at hs
      have : r.stations = r.observer.dataset := hs.symm
      exact ⟨by rw [hcol]; rfl, by rw [this]; exact hc, this⟩
    · right
      rw [if_neg hc] at hcol
      refine ⟨by rw [hcol]; rfl, ?_⟩
      -- only the labels of the result matter here, so consistency is not needed
      have through : ∀ (c1 : Coords S) (crs1 : Crs S),
          ecefToWgs84 g c1 crs1 = (.ok r.stations.coords, r.stations.crs) →
          r.stations.crs.name = .ELLPS ∧ ∃ e, r.stations.crs.ellps = some e ∧ g.ellEq e (wgs84 g) = true := by
        intro c1 crs1 h1
        obtain ⟨_, h4⟩ := ecefToWgs84_ok h1
        exact ⟨by rw [h4], wgs84 g, by rw [h4], hg.eq_refl _⟩
      simp only [Dataset.toWgs84] at hs
      cases hn : r.observer.dataset.crs.name with
      | CART => exact absurd hn hc
      | ECEF => rw [hn] at hs; simp only [apply_ok] at hs; exact through _ _ hs
      | ENU =>
        rw [hn] at hs; simp only [apply_ok, enuToWgs84] at hs
        obtain ⟨c1, crs1, _, h2⟩ := then_ok hs
        exact through _ _ h2
      | ELLPS =>
        rw [hn] at hs; simp only [apply_ok, ellpsToWgs84] at hs
        split at hs
        · rename_i hw
          simp only [Prod.mk.injEq, Except.ok.injEq] at hs
          simp only [Bool.and_eq_true] at hw
          rw [← hs.2]
          refine ⟨hn, ?_⟩
          cases he : r.observer.dataset.crs.ellps with
          | none => rw [he] at hw; simp [isWgs84] at hw
          | some e => rw [he] at hw; exact ⟨e, rfl, hw.2⟩
        · obtain ⟨c1, crs1, _, h2⟩ := then_ok hs
          exact through _ _ h2

/-- **C04**, command line: without `--gradient` the six tensor columns are zero on every line, if `a + 0 = a`. -/
theorem C04_run_zero_columns (h0 : ∀ a : S, a +. zero = a) (g : Geodesy S) (o : Outside S) (lib : HullLib S)
    (cfg : View S) (t : Table S) (h : runTable g o lib cfg false = .ok t) :
    ∀ row ∈ t.rows, row.drop 6 = [zero, zero, zero, zero, zero, zero] := by
  obtain ⟨r, first, rest, hr, _, _, _, hrows⟩ := runTable_ok h
  intro row hrow
  generalize r.stations.coords.rows = pts at hrows
  generalize t.rows = rows at hrows hrow
  induction hrows with
  | nil => simp at hrow
  | cons h1 _ ih =>
    rcases List.mem_cons.mp hrow with rfl | hrow
    · obtain ⟨s, w', hs, hl, hc⟩ := h1
      have := C04_station_tensor_unchanged h0 r.bodies first.density first.gravityConstant (Station.new s.coord) r.world
      rw [hs, hc] at this
      simp only [Station.new] at this
      rw [hl]
      simp [lineOf, this, M3.zeros, V3.zeros]
    · exact ih hrow

/-- prepared bodies are in ECEF unless they are Cartesian -/
theorem prepared_frame {g : Geodesy S} {d d' : Dataset S} (h : runOps g [.lon180, .height, .ecef] d = (.ok (), d')) :
    d'.crs.name = if d.crs.name = .CART then .CART else .ECEF := by
  simp only [runOps, Op.run] at h
  rcases hh : d.toLon180.toEllipsoidHeight g with ⟨e | ⟨⟩, d1⟩
  · rw [hh] at h; cases h
  · rw [hh] at h
    simp only at h
    have hn1 : d1.crs.name = d.crs.name := by
      have h0 : d.toLon180.crs = d.crs := by simp only [Dataset.toLon180]; split <;> rfl
      simp only [Dataset.toEllipsoidHeight, h0] at hh
      rw [← h0]
      split at hh
      all_goals
        simp only [apply_ok, ellipsoidHeight, crsId] at hh
        try split at hh
        all_goals
          first
          | (simp only [Prod.mk.injEq] at hh; rw [← hh.2])
          | cases hh
          | skip
      all_goals
        split at hh
        · cases hh
        · simp only [Prod.mk.injEq] at hh; rw [← hh.2]
    rcases h2 : d1.toEcef g with ⟨e | ⟨⟩, d2⟩
    · rw [h2] at h; cases h
    · rw [h2] at h; cases h
      rw [← hn1]
      simp only [Dataset.toEcef] at h2
      cases hn : d1.crs.name <;> rw [hn] at h2 <;> simp only [apply_ok] at h2
      · simp only [crsId, Prod.mk.injEq] at h2; rw [← h2.2]; simpa using hn
      · rw [(ellpsToEcef_ok h2).2]; rfl
      · obtain ⟨_, _, _, h3⟩ := enuToEcef_ok h2; rw [h3]; rfl
      · simp only [crsId, Prod.mk.injEq] at h2; rw [← h2.2]; simpa using hn

/-- The full statement of C36: bodies and stations are in the same frame (for configurations in which all, or none, of
them are Cartesian). -/
def C36_statement (S : Type) [Arith S] : Prop :=
  ∀ (g : Geodesy S) (o : Outside S) (lib : HullLib S) (cfg : View S) (gr : Bool) (t : Table S) (r : RunData S),
    runTable g o lib cfg gr = .ok t → r.Of g o lib cfg →
    (∀ m ∈ r.configured, m.dataset.crs.name = .CART ↔ r.observer.dataset.crs.name = .CART) →
    ∀ m ∈ r.masses, m.dataset.crs.name = r.stations.crs.name

/-- **C36**, what happens: bodies that are not Cartesian are in ECEF metres, stations that are not Cartesian are in
degrees and metres on WGS84 (and these numbers are used as coordinates of the station, see C38). -/
theorem C36_frames (g : Geodesy S) (hg : g.Lawful) (o : Outside S) (lib : HullLib S) (cfg : View S) (r : RunData S)
    (hr : r.Of g o lib cfg) (hcons : r.observer.dataset.crs.Consistent g) :
    List.Forall₂ (fun m m' => m'.dataset.crs.name = if m.dataset.crs.name = CRSName.CART then CRSName.CART else .ECEF)
      r.configured r.masses ∧
    r.stations.crs.name = if r.observer.dataset.crs.name = CRSName.CART then CRSName.CART else .ELLPS := by
  refine ⟨hr.masses.imp (fun m m' h => prepared_frame h.2.2), ?_⟩
  by_cases hc : r.observer.dataset.crs.name = .CART
  · have hs := hr.stations
    simp only [Dataset.toWgs84, hc, apply_ok, crsId, Prod.mk.injEq, Except.ok.injEq] at hs
    rw [← hs.2, if_pos hc]; exact hc
  · rw [if_neg hc]
    exact (C32_to_wgs84 g hg _ _ hcons hc hr.stations).1

/-- **C36, partial**: with Cartesian bodies and Cartesian observers the frame is the same, and the coordinates are the
configured ones (missing: geographic, local and ECEF data, for which the statement is false). -/
theorem C36_partial (g : Geodesy S) (o : Outside S) (lib : HullLib S) (cfg : View S) (r : RunData S)
    (hr : r.Of g o lib cfg) (hm : ∀ m ∈ r.configured, m.dataset.crs.name = .CART)
    (ho : r.observer.dataset.crs.name = .CART) :
    r.masses = r.configured ∧ r.stations = r.observer.dataset ∧
    ∀ m ∈ r.masses, m.dataset.crs.name = r.stations.crs.name := by
  have h1 : r.stations = r.observer.dataset := by
    have hs := hr.stations
    simp only [Dataset.toWgs84, ho, Dataset.apply, crsId, Prod.mk.injEq, true_and] at hs
    exact hs.symm
  have h2 : r.masses = r.configured := by
    have h3 := hr.masses
    generalize r.masses = l' at h3 ⊢
    generalize r.configured = l at h3 hm ⊢
    induction h3 with
    | nil => rfl
    | @cons m m' _ _ h _ ih =>
      rw [ih (fun x hx => hm x (by simp [hx]))]
      have hn := hm m (by simp)
      obtain ⟨ha, hb, hc⟩ := h
      simp only [runOps, Op.run, Dataset.toLon180, hn, Dataset.toEllipsoidHeight, Dataset.apply, crsId,
        Dataset.toEcef, Prod.mk.injEq, true_and] at hc
      cases m; cases m'
      simp only at ha hb hc
      simp [ha, hb, ← hc]
  refine ⟨h2, h1, ?_⟩
  rw [h2, h1, ho]
  exact hm

/-- The full statement of C37: every line is the sum, over the bodies, of the gravity of the body with its own density
and constant. -/
def C37_statement (S : Type) [Arith S] : Prop :=
  ∀ (g : Geodesy S) (o : Outside S) (lib : HullLib S) (cfg : View S) (gr : Bool) (t : Table S) (r : RunData S),
    runTable g o lib cfg gr = .ok t → r.Of g o lib cfg →
    ∀ (i : Nat) (p : V3 S), r.stations.coords.rows[i]? = some p →
      ∃ as : List (V3 S × M3 S),
        List.zipWith (fun (m : Mass S) q => (Call.mk p m.density m.gravityConstant gr).onNew q) r.masses r.polys =
          as.map .ok ∧
        t.rows[i]? = some (lineOf (accumulate (Station.new p) as))

theorem RunData.Of.unique {r r' : RunData S} {g : Geodesy S} {o : Outside S} {lib : HullLib S} {cfg : View S}
    (h : r.Of g o lib cfg) (h' : r'.Of g o lib cfg) : r = r' := by
  have uniq : ∀ {α β : Type} {R : α → β → Prop}, (∀ a b b', R a b → R a b' → b = b') → ∀ {l : List α} {m m' : List β},
      List.Forall₂ R l m → List.Forall₂ R l m' → m = m' := by
    intro α β R hR l m m' h1 h2
    induction h1 generalizing m' with
    | nil => cases h2; rfl
    | cons h _ ih => cases h2 with | cons h3 h4 => rw [hR _ _ _ h h3, ih h4]
  have h1 : r.configured = r'.configured := by have := h.configured; rw [h'.configured] at this; exact (Except.ok.inj this).symm
  have h2 : r.masses = r'.masses := by
    have := h.masses
    rw [h1] at this
    refine uniq ?_ this h'.masses
    rintro a b b' ⟨ha, hb, hc⟩ ⟨ha', hb', hc'⟩
    rw [hc] at hc'
    cases b; cases b'
    simp only [Prod.mk.injEq, true_and] at hc'
    simp_all
  have h3 : r.polys = r'.polys := by
    have := h.polys
    rw [h2] at this
    refine uniq ?_ this h'.polys
    intro a b b' ha hb
    rw [ha] at hb; cases hb; rfl
  have h4 : r.observer = r'.observer := by have := h.observer; rw [h'.observer] at this; exact (Except.ok.inj this).symm
  have h5 : r.stations = r'.stations := by
    have := h.stations
    rw [h4, h'.stations] at this
    exact (Prod.mk.inj this).2.symm
  cases r; cases r'
  simp_all

theorem forall₂_get {α β : Type} {R : α → β → Prop} {l : List α} {m : List β} (h : List.Forall₂ R l m) {i : Nat} {a : α}
    (ha : l[i]? = some a) : ∃ b, m[i]? = some b ∧ R a b := by
  induction h generalizing i with
  | nil => simp at ha
  | cons h _ ih =>
    cases i with
    | zero => simp only [List.getElem?_cons_zero, Option.some.injEq] at ha; subst ha; exact ⟨_, rfl, h⟩
    | succ i => simpa using ih (by simpa using ha)

/-- **C37**, what happens: every line is the sum, over the bodies, of the gravity of the body with the density and
constant *of the first body*. -/
theorem C37_first_density (g : Geodesy S) (o : Outside S) (lib : HullLib S) (cfg : View S) (gr : Bool) (t : Table S)
    (r : RunData S) (h : runTable g o lib cfg gr = .ok t) (hr : r.Of g o lib cfg) :
    ∃ first rest, r.masses = first :: rest ∧ ∀ (i : Nat) (p : V3 S), r.stations.coords.rows[i]? = some p →
      ∃ as : List (V3 S × M3 S),
        r.polys.map (Call.mk p first.density first.gravityConstant gr).onNew = as.map .ok ∧
        t.rows[i]? = some (lineOf (accumulate (Station.new p) as)) := by
  obtain ⟨r', first, rest, hr', hfirst, _, _, hrows⟩ := runTable_ok h
  obtain rfl := hr'.unique hr
  refine ⟨first, rest, hfirst, fun i p hp => ?_⟩
  obtain ⟨row, hrow, s, w', hs, rfl, hc⟩ := forall₂_get hrows hp
  have hw := r'.world_sound (runData_inside hr)
  simp only [computeGravity, RunData.bodies, polyIds_map] at hc
  obtain ⟨as, has⟩ := stationLoop_returns _ hw hc
  obtain ⟨w2, h1, _, _⟩ := stationLoop_ok _ _ _ _ _ _ hw as has
  rw [hc] at h1
  cases h1
  refine ⟨as, ?_, hrow⟩
  rw [← has]
  apply List.ext_getElem
  · simp
  · intro n h1 h2
    simp only [List.length_map] at h1
    simp [RunData.world, List.getD, h1, Station.new]

/-- **C37, partial**: if all bodies have the density and constant of the first one, each contributes with its own
(missing: bodies of different densities, for which the statement is false). -/
theorem C37_partial (g : Geodesy S) (o : Outside S) (lib : HullLib S) (cfg : View S) (gr : Bool) (t : Table S)
    (r : RunData S) (h : runTable g o lib cfg gr = .ok t) (hr : r.Of g o lib cfg) (density Gc : S)
    (hd : ∀ m ∈ r.masses, m.density = density ∧ m.gravityConstant = Gc) (i : Nat) (p : V3 S)
    (hp : r.stations.coords.rows[i]? = some p) :
    ∃ as : List (V3 S × M3 S),
      List.zipWith (fun (m : Mass S) q => (Call.mk p m.density m.gravityConstant gr).onNew q) r.masses r.polys =
        as.map .ok ∧
      t.rows[i]? = some (lineOf (accumulate (Station.new p) as)) := by
  obtain ⟨first, rest, hfirst, hrows⟩ := C37_first_density g o lib cfg gr t r h hr
  obtain ⟨as, has, hrow⟩ := hrows i p hp
  refine ⟨as, ?_, hrow⟩
  rw [← has]
  have h1 := hd first (by simp [hfirst])
  rw [h1.1, h1.2]
  have hl := hr.polys
  clear has hrow hrows hfirst h1 h hp
  generalize r.masses = ms at hl hd ⊢
  generalize r.polys = ps at hl ⊢
  induction hl with
  | nil => rfl
  | cons _ _ ih =>
    have h2 := hd _ List.mem_cons_self
    simp [h2.1, h2.2, ih (fun m hm => hd m (by simp [hm]))]

/-- **C53**, what happens: for observers given in geographic coordinates on WGS84 the coordinates used are the
configured numbers, whatever the vertical datum. -/
theorem C53_vdatum_ignored (g : Geodesy S) (o : Outside S) (lib : HullLib S) (cfg : View S) (r : RunData S)
    (hr : r.Of g o lib cfg) (hn : r.observer.dataset.crs.name = .ELLPS) (he : r.observer.dataset.crs.enu = none)
    (hw : isWgs84 g r.observer.dataset.crs.ellps = true) : r.stations = r.observer.dataset := by
  have hs := hr.stations
  simp only [Dataset.toWgs84, hn, Dataset.apply, ellpsToWgs84, he, Option.isNone_none, hw, Bool.and_self, if_true,
    Prod.mk.injEq, true_and] at hs
  exact hs.symm

/-- The full statement of C53: the stations of a run have ellipsoidal heights. -/
def C53_statement (S : Type) [Arith S] : Prop :=
  ∀ (g : Geodesy S) (o : Outside S) (lib : HullLib S) (cfg : View S) (gr : Bool) (t : Table S) (r : RunData S),
    runTable g o lib cfg gr = .ok t → r.Of g o lib cfg → r.stations.crs.vdatum = .ELLPS

/-- the three loops over the bodies, in the order of the code -/
theorem prepare_masses {g : Geodesy S} {o : Outside S} {lib : HullLib S} {cfg : View S} {r : RunData S}
    (hr : r.Of g o lib cfg) : ∃ ms1 ms2, massesMap (fun d => (.ok (), d.toLon180)) r.configured = .ok ms1 ∧
      massesMap (Dataset.toEllipsoidHeight g) ms1 = .ok ms2 ∧ massesMap (Dataset.toEcef g) ms2 = .ok r.masses := by
  have h := hr.masses
  generalize r.configured = l at h
  generalize r.masses = l' at h
  induction h with
  | nil => exact ⟨[], [], rfl, rfl, rfl⟩
  | @cons m m' l l' h _ ih =>
    obtain ⟨ms1, ms2, h1, h2, h3⟩ := ih
    obtain ⟨ha, hb, hc⟩ := h
    simp only [runOps, Op.run] at hc
    rcases hh : m.dataset.toLon180.toEllipsoidHeight g with ⟨e | ⟨⟩, d⟩
    · rw [hh] at hc; cases hc
    · rw [hh] at hc
      simp only at hc
      rcases h4 : d.toEcef g with ⟨e | ⟨⟩, d2⟩
      · rw [h4] at hc; cases hc
      · rw [h4] at hc
        simp only [Prod.mk.injEq, true_and] at hc
        subst hc
        refine ⟨{ m with dataset := m.dataset.toLon180 } :: ms1, { m with dataset := d } :: ms2, ?_, ?_, ?_⟩
        · exact mapM_ok.mpr (.cons rfl (mapM_ok.mp h1))
        · exact mapM_ok.mpr (.cons (by simp [hh]) (mapM_ok.mp h2))
        · refine mapM_ok.mpr (.cons ?_ (mapM_ok.mp h3))
          simp only [h4, Except.ok.injEq]
          cases m'; simp only at ha hb; simp [ha, hb]

section
attribute [local instance] toyArith

def isOkB {ε α : Type} : Except ε α → Bool
  | .ok _ => true
  | .error _ => false

/-- a concrete run returns: two bodies of different densities, two observation points -/
theorem toy_run_returns : ∃ t, runTable Toy.geo Toy.outside Toy.hullLib (Toy.config "ecef" "ellps" "egm96") true = .ok t := by
  have : isOkB (runTable Toy.geo Toy.outside Toy.hullLib (Toy.config "ecef" "ellps" "egm96") true) = true := by
    decide +kernel
  cases h : runTable Toy.geo Toy.outside Toy.hullLib (Toy.config "ecef" "ellps" "egm96") true with
  | ok t => exact ⟨t, rfl⟩
  | error e => rw [h] at this; cases this

theorem toy_observer {r : RunData Rat}
    (hr : r.Of Toy.geo Toy.outside Toy.hullLib (Toy.config "ecef" "ellps" "egm96")) :
    r.observer.dataset.crs.name = .ELLPS ∧ r.observer.dataset.crs.vdatum = .EGM96 ∧
    r.observer.dataset.crs.enu.isNone = true ∧ isWgs84 Toy.geo r.observer.dataset.crs.ellps = true := by
  have h1 : (match getObserver Toy.geo Toy.outside (Toy.config "ecef" "ellps" "egm96") with
      | .ok ob => decide (ob.dataset.crs.name = .ELLPS ∧ ob.dataset.crs.vdatum = .EGM96 ∧
        ob.dataset.crs.enu.isNone = true ∧ isWgs84 Toy.geo ob.dataset.crs.ellps = true)
      | .error _ => false) = true := by decide +kernel
  rw [hr.observer] at h1
  simpa using h1

theorem toy_masses {r : RunData Rat}
    (hr : r.Of Toy.geo Toy.outside Toy.hullLib (Toy.config "ecef" "ellps" "egm96")) :
    r.configured.map (fun m => (m.density, m.dataset.crs.name)) = [(2, .ECEF), (5, .ECEF)] := by
  have h1 : (match getMasses Toy.geo Toy.outside (Toy.config "ecef" "ellps" "egm96") with
      | .ok ms => decide (ms.map (fun m => (m.density, m.dataset.crs.name)) = [(2, .ECEF), (5, .ECEF)])
      | .error _ => false) = true := by decide +kernel
  rw [hr.configured] at h1
  simpa using h1

/-- **C36 is false**: in a run with bodies in ECEF and observers in longitude, latitude and altitude, the frames
differ. -/
theorem C36_false : ¬ ∀ (S : Type) [Arith S], C36_statement S := by
  intro h
  obtain ⟨t, ht⟩ := toy_run_returns
  obtain ⟨r, first, rest, hr, hfirst, _⟩ := runTable_ok ht
  obtain ⟨h1, _, h3, h4⟩ := toy_observer hr
  have h5 : r.stations = r.observer.dataset := C53_vdatum_ignored _ _ _ _ r hr h1 (by simpa using h3) h4
  have h6 := toy_masses hr
  have h7 : ∀ m ∈ r.configured, m.dataset.crs.name = .ECEF := by
    intro m hm
    have : (m.density, m.dataset.crs.name) ∈ r.configured.map (fun m => (m.density, m.dataset.crs.name)) :=
      List.mem_map_of_mem hm
    rw [h6] at this
    simp only [List.mem_cons, Prod.mk.injEq, List.not_mem_nil, or_false] at this
    rcases this with h | h <;> exact h.2
  have h8 := h Rat Toy.geo Toy.outside Toy.hullLib _ _ t r ht hr (by
    intro m hm; rw [h7 m hm, h1]; simp) first (by simp [hfirst])
  rw [h5, h1] at h8
  have h9 := hr.masses
  rw [hfirst] at h9
  generalize hconf : r.configured = conf at h9 h7
  cases h9 with
  | @cons a _ l _ h9 _ =>
    have := prepared_frame h9.2.2
    rw [h8, h7 a (by simp)] at this
    simp at this

/-- the bodies of a configuration and their polyhedra, computed -/
def bodiesOf {S : Type} [Arith S] (g : Geodesy S) (o : Outside S) (lib : HullLib S) (cfg : View S) :
    Except PyErr (List (Mass S) × List (Poly S)) := do
  let ms ← getMasses g o cfg
  let ms ← massesMap (fun d => (.ok (), d.toLon180)) ms
  let ms ← massesMap (Dataset.toEllipsoidHeight g) ms
  let ms ← massesMap (Dataset.toEcef g) ms
  return (ms, ← ms.mapM (fun m => polyhedronOf lib m.dataset.coords.rows))

theorem bodiesOf_eq {S : Type} [Arith S] {g : Geodesy S} {o : Outside S} {lib : HullLib S} {cfg : View S}
    {r : RunData S} (hr : r.Of g o lib cfg) : bodiesOf g o lib cfg = .ok (r.masses, r.polys) := by
  obtain ⟨ms1, ms2, h1, h2, h3⟩ := prepare_masses hr
  have h4 : r.masses.mapM (fun m => polyhedronOf lib m.dataset.coords.rows) = .ok r.polys := mapM_ok.mpr hr.polys
  simp only [bodiesOf, hr.configured, h1, h2, h3, h4, bind, Except.bind, pure, Except.pure]

/-- the sum of the answers when all of them are values -/
def sumUp (p : V3 Rat) : List (Except PyErr (V3 Rat × M3 Rat)) → Option (List (V3 Rat × M3 Rat)) → Option (List Rat)
  | [], acc => acc.map (fun as => lineOf (accumulate (Station.new p) as.reverse))
  | .ok a :: rest, acc => sumUp p rest (acc.map (a :: ·))
  | .error _ :: _, _ => none

theorem sumUp_ok (p : V3 Rat) (as acc : List (V3 Rat × M3 Rat)) : sumUp p (as.map .ok) (some acc) =
    some (lineOf (accumulate (Station.new p) (acc.reverse ++ as))) := by
  induction as generalizing acc with
  | nil => simp [sumUp]
  | cons a as ih => simp [sumUp, ih]

/-- **C37 is false**: with bodies of densities 2 and 5, the second one contributes as if its density were 2. -/
theorem C37_false : ¬ ∀ (S : Type) [Arith S], C37_statement S := by
  intro h
  obtain ⟨t, ht⟩ := toy_run_returns
  obtain ⟨r, _, _, hr, _, hne, _⟩ := runTable_ok ht
  obtain ⟨first, rest, hfirst, hrows⟩ := C37_first_density _ _ _ _ _ t r ht hr
  obtain ⟨h1, _, h3, h4⟩ := toy_observer hr
  have h5 : r.stations = r.observer.dataset := C53_vdatum_ignored _ _ _ _ r hr h1 (by simpa using h3) h4
  have hp : r.stations.coords.rows[0]? = some ⟨3, 5, 7⟩ := by
    have h6 : (match getObserver Toy.geo Toy.outside (Toy.config "ecef" "ellps" "egm96") with
        | .ok ob => decide (ob.dataset.coords.rows[0]? = some ⟨3, 5, 7⟩)
        | .error _ => false) = true := by decide +kernel
    rw [hr.observer] at h6
    rw [h5]; simpa using h6
  obtain ⟨as, has, hrow⟩ := hrows 0 _ hp
  obtain ⟨as', has', hrow'⟩ := h Rat _ _ _ _ _ t r ht hr 0 _ hp
  have h7 : (match bodiesOf Toy.geo Toy.outside Toy.hullLib (Toy.config "ecef" "ellps" "egm96") with
      | .ok (m :: ms, ps) =>
        decide (sumUp ⟨3, 5, 7⟩ (ps.map (Call.mk ⟨3, 5, 7⟩ m.density m.gravityConstant true).onNew) (some []) =
          sumUp ⟨3, 5, 7⟩ (List.zipWith (fun (m : Mass Rat) q =>
            (Call.mk ⟨3, 5, 7⟩ m.density m.gravityConstant true).onNew q) (m :: ms) ps) (some []))
      | _ => true) = false := by decide +kernel
  rw [bodiesOf_eq hr, hfirst] at h7
  simp only at h7
  rw [has, ← hfirst, has', sumUp_ok, sumUp_ok, List.reverse_nil, List.nil_append, List.nil_append, ← hrow, ← hrow'] at h7
  simp at h7

/-- **C53 is false**: the observers' vertical datum is silently ignored. -/
theorem C53_false : ¬ ∀ (S : Type) [Arith S], C53_statement S := by
  intro h
  obtain ⟨t, ht⟩ := toy_run_returns
  obtain ⟨r, first, rest, hr, hfirst, _⟩ := runTable_ok ht
  obtain ⟨h1, h2, h3, h4⟩ := toy_observer hr
  have h5 : r.stations = r.observer.dataset := C53_vdatum_ignored _ _ _ _ r hr h1 (by simpa using h3) h4
  have h6 := h Rat _ _ _ _ _ t r ht hr
  rw [h5, h2] at h6
  cases h6

end

/-- **C53, partial**: the vertical datum of the stations is the configured one; so heights are ellipsoidal if they were
configured so (missing: observers referred to a geoid, for which the statement is false). -/
theorem C53_partial (g : Geodesy S) (hg : g.Lawful) (o : Outside S) (lib : HullLib S) (cfg : View S) (r : RunData S)
    (hr : r.Of g o lib cfg) (hcons : r.observer.dataset.crs.Consistent g)
    (hv : r.observer.dataset.crs.vdatum = .ELLPS) : r.stations.crs.vdatum = .ELLPS := by
  by_cases hc : r.observer.dataset.crs.name = .CART
  · have hs := hr.stations
    simp only [Dataset.toWgs84, hc, apply_ok, crsId, Prod.mk.injEq, Except.ok.injEq] at hs
    rw [← hs.2]; exact hv
  · rw [(C32_to_wgs84 g hg _ _ hcons hc hr.stations).2.2.2.1]; exact hv

/-! ### Files -/

/-- **C55.** A run that raises leaves all files as they were; a run that returns changes at most the one file named after
its output argument. -/
theorem C55_files (g : Geodesy S) (o : Outside S) (lib : HullLib S) (sources : List (Val S)) (gr : Bool)
    (dir name : List Char) (fs : Files S) :
    (∀ e fs', run g o lib sources gr dir name fs = (.error e, fs') → fs' = fs) ∧
    (∀ fs', run g o lib sources gr dir name fs = (.ok (), fs') →
      (∃ t, runTable g o lib (View.root sources) gr = .ok t ∧
        (dir ≠ [] ∨ name ≠ [] → ∀ out, SuffixReplaced ".csv".toList name out → fs' dir out = some t)) ∧
      ∀ d n, ¬ (d = dir ∧ SuffixReplaced ".csv".toList name n) → fs' d n = fs d n) := by
  simp only [suffixReplaced_iff, forall_eq]
  simp only [run]
  cases h : runTable g o lib (View.root sources) gr with
  | error e =>
    refine ⟨fun e' fs' h => ?_, fun fs' h => ?_⟩
    · simp only [Prod.mk.injEq] at h; exact h.2.symm
    · simp at h
  | ok t =>
    refine ⟨fun e' fs' h => ?_, fun fs' h => ?_⟩
    · simp at h
    · simp only [Prod.mk.injEq, true_and] at h
      subst h
      refine ⟨⟨t, rfl, fun hne => ?_⟩, fun d n hdn => ?_⟩
      · rcases hne with hne | hne <;> simp [writeFile, csvName, hne]
      · simp only [writeFile]
        split
        · rfl
        · exact if_neg hdn

/-- The full statement of C45: after two writings to different outputs of one directory, both results are there. -/
def C45_statement (S : Type) : Prop :=
  ∀ (t t' : Table S) (dir a b out : List Char) (fs : Files S), dir ≠ [] → a ≠ b → SuffixReplaced ".csv".toList a out →
    writeFile t' dir b (writeFile t dir a fs) dir out = some t

/-- **C45 is false**: "run.1" and "run.2" both go to "run.csv". -/
theorem C45_false : ¬ C45_statement ℝ := by
  intro h
  have h1 := h ⟨[], []⟩ ⟨[("x", "")], []⟩ ['d'] "run.1".toList "run.2".toList "run.csv".toList (fun _ _ => none) (by simp) (by decide)
    (.inr ⟨"run".toList, "1".toList, by decide, by decide, by decide, by decide, by decide⟩)
  have h2 : csvName "run.1".toList = "run.csv".toList ∧ csvName "run.2".toList = "run.csv".toList := by decide +kernel
  simp only [writeFile, h2.1, h2.2] at h1
  simp at h1

/-- **C45, partial**: outputs whose names have no suffix go to different files (missing: names with a suffix, for which
the statement is false). -/
theorem C45_partial (t t' : Table S) (dir a b : List Char) (fs : Files S) (hdir : dir ≠ []) (hab : a ≠ b)
    (ha : NoSuffix a) (hb : NoSuffix b) :
    writeFile t' dir b (writeFile t dir a fs) dir (a ++ ".csv".toList) = some t := by
  rw [show a ++ ".csv".toList = csvName a by rw [csvName, stem_of_no_suffix ha]]
  have : csvName a ≠ csvName b := by
    simp only [csvName, stem_of_no_suffix ha, stem_of_no_suffix hb]
    intro h; exact hab (List.append_cancel_right h)
  simp [writeFile, hdir, this]

example : NoSuffix "gravity_a".toList ∧ NoSuffix ".hidden".toList ∧ ".hidden".toList ≠ ".secret".toList :=
  ⟨noSuffix_of_no_dot (by decide), noSuffix_of_no_dot (by decide), by decide⟩

/-! ### Empty inputs and missing parameters -/

/-- **C47.** Without any body the run raises `IndexError` and writes no file (if the parameters of the observers can be
shown). -/
theorem C47_no_bodies (g : Geodesy S) (o : Outside S) (lib : HullLib S) (sources : List (Val S)) (gr : Bool)
    (dir name : List Char) (fs : Files S) (hm : ((View.root sources).at "masses").iter = .ok [])
    (hs : showAll ((View.root sources).at "observers") observersShown = .ok ()) :
    run g o lib sources gr dir name fs = (.error .indexError, fs) := by
  have : runTable g o lib (View.root sources) gr = .error .indexError := by
    simp [runTable, configShow, hm, hs, getMasses, massesMap, firstMass, bind, Except.bind, pure, Except.pure]
  simp [run, this]

/-- **C47.** Without any observation point the run raises `ValueError` and writes no file (if everything before
succeeds). -/
theorem C47_no_points (g : Geodesy S) (o : Outside S) (lib : HullLib S) (sources : List (Val S)) (gr : Bool)
    (dir name : List Char) (fs : Files S) (r : RunData S) (hr : r.Of g o lib (View.root sources))
    (hshow : configShow (View.root sources) = .ok ()) (hm : r.configured ≠ [])
    (hp : r.stations.coords.rows = []) :
    run g o lib sources gr dir name fs = (.error .valueError, fs) := by
  have h1 := prepare_masses hr
  obtain ⟨ms1, ms2, h1, h2, h3⟩ := h1
  have h4 : ∃ m ms, r.masses = m :: ms := by
    cases hm' : r.masses with
    | nil =>
      have := hr.masses.length_eq
      rw [hm'] at this
      exact absurd (List.length_eq_zero_iff.mp this) hm
    | cons m ms => exact ⟨m, ms, rfl⟩
  obtain ⟨m, ms, h4⟩ := h4
  have h5 : r.masses.mapM (fun m => polyhedronOf lib m.dataset.coords.rows) = .ok r.polys := mapM_ok.mpr hr.polys
  have : runTable g o lib (View.root sources) gr = .error .valueError := by
    rw [h4] at h3 h5
    simp only [runTable, hshow, hr.configured, h1, h2, h3, h5, hr.observer, hr.stations, hp, bind, Except.bind,
      firstMass, outcome, List.isEmpty_nil, if_true]
  simp [run, this]

/-- a configuration without bodies that can be shown -/
example : ∃ sources : List (Val Rat), (match ((View.root sources).at "masses").iter with
      | .ok l => decide (l.length = 0)
      | .error _ => false) = true ∧
    isOkB (showAll ((View.root sources).at "observers") observersShown) = true :=
  ⟨[.dict [("masses", .list []), ("observers", Toy.observerSection "ellps" "egm96")]], by decide +kernel⟩

theorem showAll_error (w : View S) (p : List String) (e : PyErr) (h : (w.path p).first = .error e) :
    ∀ ps, p ∈ ps → ∃ e', showAll w ps = .error e'
  | [], hp => by cases hp
  | q :: ps, hp => by
    simp only [showAll]
    cases hq : (w.path q).first with
    | error e => exact ⟨e, rfl⟩
    | ok v =>
      rcases List.mem_cons.mp hp with rfl | hp
      · rw [h] at hq; cases hq
      · exact showAll_error w p e h ps hp

/-- the parameters of a body, as in the template, /repo/geec/cfg/config_template.yaml:6-36 -/
def bodyParameters : List (List String) :=
  [["density"], ["gravity_constant"], ["points"], ["file_path"], ["crs", "ref"], ["crs", "name"], ["crs", "semimajor_axis"], ["crs", "semiminor_axis"],
   ["crs", "longitude_origin"], ["crs", "latitude_origin"], ["crs", "altitude_origin"], ["crs", "vdatum"]]

/-- the parameters of the observers, without the vertical datum -/
def observerParameters : List (List String) :=
  [["points"], ["file_path"], ["grid", "xstart_xend_xstep"], ["grid", "ystart_yend_ystep"], ["grid", "zstart_zend_zstep"], ["crs", "ref"], ["crs", "name"],
   ["crs", "semimajor_axis"], ["crs", "semiminor_axis"], ["crs", "longitude_origin"], ["crs", "latitude_origin"], ["crs", "altitude_origin"]]

/-- the parameter with this path is found in some source -/
def Present (w : View S) (p : List String) : Prop := ∃ v, (p.foldl (fun u k => u.at k) w).first = .ok v

/-- the parameter with this path is in no source -/
def Absent (w : View S) (p : List String) : Prop := (p.foldl (fun u k => u.at k) w).first = .error .configNotFoundError

/-- The full statement of C54: a vertical datum left out of a body means the ellipsoid (as documented), and does not
prevent the run from using the body. -/
def C54_statement (S : Type) [Arith S] : Prop :=
  ∀ (cfg : View S) (ms : List (View S)), (cfg.at "masses").iter = .ok ms →
    (∀ m ∈ ms, ∀ p ∈ bodyParameters, p ≠ ["crs", "vdatum"] → Present m p) →
    (∀ m ∈ ms, Absent m ["crs", "vdatum"] ∨ Present m ["crs", "vdatum"]) →
    (∀ p ∈ observerParameters, Present (cfg.at "observers") p) →
    configShow cfg = .ok ()

/-- **C54**, failure: if a parameter that `show` prints is absent from a body in all sources, the run raises, even when
the body could be read without it. -/
theorem C54_absent_parameter (g : Geodesy S) (o : Outside S) (lib : HullLib S) (cfg : View S) (gr : Bool)
    (ms : List (View S)) (hms : (cfg.at "masses").iter = .ok ms) (m : View S) (hm : m ∈ ms) (p : List String)
    (hp : p ∈ bodyParameters) (h : Absent m p) :
    ∃ e, runTable g o lib cfg gr = .error e := by
  have hp : p ∈ massShown := hp
  have h : (m.path p).first = .error .configNotFoundError := h
  have key : ∀ ms : List (View S), m ∈ ms → ∃ e, ms.forM (fun m => showAll m massShown) = .error e := by
    intro ms
    induction ms with
    | nil => intro h; cases h
    | cons a ms ih =>
      intro hm
      simp only [List.forM_eq_forM, List.forM_cons, bind, Except.bind]
      cases ha : showAll a massShown with
      | error e => exact ⟨e, rfl⟩
      | ok u =>
        rcases List.mem_cons.mp hm with rfl | hm
        · obtain ⟨e, he⟩ := showAll_error m p _ h massShown hp
          rw [he] at ha; cases ha
        · exact ih hm
  obtain ⟨e, he⟩ := key ms hm
  exact ⟨e, by simp [runTable, configShow, hms, he, bind, Except.bind]⟩

attribute [local instance] toyArith in
/-- **C54 is false**: a second body without the key `vdatum`. -/
theorem C54_false : ¬ ∀ (S : Type) [Arith S], C54_statement S := by
  intro h
  let cfg : View Rat := View.root [.dict [("masses", .list [Toy.massSection "ecef" 2 0,
    .dict [("density", .num false 2), ("gravity_constant", .num false 1), ("points", .null), ("file_path", .null),
      ("crs", .dict [("ref", .str "ecef"), ("name", .null), ("semimajor_axis", .null), ("semiminor_axis", .null),
        ("longitude_origin", .null), ("latitude_origin", .null), ("altitude_origin", .null)])]]),
    ("observers", Toy.observerSection "ellps" "egm96")]]
  let m (i : Nat) : View Rat := (cfg.at "masses").sub (.idx i)
  have hit : (cfg.at "masses").iter = .ok [m 0, m 1] := rfl
  have key : ∀ (w : View Rat) (ps : List (List String)), ps.all (fun p => isOkB (w.path p).first) = true →
      ∀ p ∈ ps, ∃ v, (w.path p).first = .ok v := by
    intro w ps hps p hp
    have := List.all_eq_true.mp hps p hp
    cases hv : (w.path p).first with
    | ok v => exact ⟨v, rfl⟩
    | error e => rw [hv] at this; cases this
  have h0 : ∀ p ∈ massShown, ∃ v, ((m 0).path p).first = .ok v := key _ _ (by decide +kernel)
  have h1 : ∀ p ∈ massShown.dropLast, ∃ v, ((m 1).path p).first = .ok v := key _ _ (by decide +kernel)
  have hshow : ∀ p ∈ observerParameters, Present (cfg.at "observers") p := key _ _ (by decide +kernel)
  have h2 := h Rat cfg [m 0, m 1] hit (by
      intro w hw p hp hne
      simp only [List.mem_cons, List.not_mem_nil, or_false] at hw
      rcases hw with rfl | rfl
      · exact h0 p hp
      · refine h1 p ?_
        have hp : p ∈ massShown := hp
        have : massShown = massShown.dropLast ++ [["crs", "vdatum"]] := rfl
        rw [this, List.mem_append, List.mem_singleton] at hp
        rcases hp with hp | hp
        · exact hp
        · exact absurd hp hne) (by
      intro w hw
      simp only [List.mem_cons, List.not_mem_nil, or_false] at hw
      rcases hw with rfl | rfl
      · exact Or.inr (h0 _ (by decide))
      · left; rfl) hshow
  obtain ⟨e, he⟩ := C54_absent_parameter Toy.geo Toy.outside Toy.hullLib cfg true _ hit (m 1) (by simp) ["crs", "vdatum"]
    (by decide) rfl
  have h3 : isOkB (configShow cfg) = false := by decide +kernel
  rw [h2] at h3
  cases h3

theorem showAll_ok (w : View S) : ∀ ps : List (List String), (∀ p ∈ ps, ∃ v, (w.path p).first = .ok v) →
    showAll w ps = .ok ()
  | [], _ => rfl
  | p :: ps, h => by
    obtain ⟨v, hv⟩ := h p (by simp)
    simp only [showAll, hv]
    exact showAll_ok w ps (fun q hq => h q (by simp [hq]))

/-- **C54, partial**: if all printed parameters of all bodies are present, printing does not prevent the run (missing:
absent parameters, for which the statement is false). -/
theorem C54_partial (cfg : View S) (ms : List (View S)) (hms : (cfg.at "masses").iter = .ok ms)
    (h : ∀ m ∈ ms, ∀ p ∈ bodyParameters, Present m p) (hobs : ∀ p ∈ observerParameters, Present (cfg.at "observers") p) : configShow cfg = .ok () := by
  have ho : showAll (cfg.at "observers") observersShown = .ok () := showAll_ok _ _ hobs
  have key : ms.forM (fun m => showAll m massShown) = .ok () := by
    clear hms
    induction ms with
    | nil => rfl
    | cons a ms ih =>
      simp only [List.forM_eq_forM, List.forM_cons, bind, Except.bind]
      rw [showAll_ok a massShown (h a (by simp))]
      exact ih (fun m hm => h m (by simp [hm]))
  simp [configShow, hms, key, ho, bind, Except.bind]

end Geec
