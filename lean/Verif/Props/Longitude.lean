import Verif.Spec.Geo
import Mathlib.Tactic.Linarith
/-
C27 – C30: longitudes and heights.
-/
namespace Geec
open Arith

theorem wrapLon_real (x : ℝ) : wrapLon x = if 180 < x then x - 360 else x := by
  simp only [wrapLon, Arith.lt, Arith.ofNat, Arith.sub, decide_eq_true_eq]
  norm_num

/-- **C27.** `wrap180` keeps the number and order of points, latitudes and altitudes. -/
theorem C27_only_longitude {S : Type} [Arith S] (c : Coords S) :
    (wrap180 c).rows.length = c.rows.length ∧ (wrap180 c).rows.map (·.y) = c.rows.map (·.y) ∧
    (wrap180 c).rows.map (·.z) = c.rows.map (·.z) ∧ (wrap180 c).rows.map (·.x) = c.rows.map (fun p => wrapLon p.x) := by
  simp [wrap180, Function.comp_def]

/-- **C27.** In exact arithmetic the new longitude is congruent to the old one modulo 360, is in (-180, 180] exactly
for old values in (-180, 540], is the old one for values up to 180; wrapping twice is wrapping once for values up
to 540. -/
theorem C27_wrap (x : ℝ) :
    (∃ k : ℤ, wrapLon x = x + 360 * k) ∧
    ((-180 < wrapLon x ∧ wrapLon x ≤ 180) ↔ (-180 < x ∧ x ≤ 540)) ∧
    (x ≤ 180 → wrapLon x = x) ∧
    (x ≤ 540 → wrapLon (wrapLon x) = wrapLon x) := by
  simp only [wrapLon_real]
  refine ⟨?_, ?_, ?_, ?_⟩
  · split
    · exact ⟨-1, by push_cast; ring⟩
    · exact ⟨0, by simp⟩
  · split <;> constructor <;> intro h <;> constructor <;> linarith [h.1, h.2]
  · intro h; rw [if_neg (by linarith)]
  · intro h
    by_cases h1 : 180 < x
    · rw [if_pos h1, if_neg (by linarith)]
    · rw [if_neg h1, if_neg h1]

example : wrapLon (275 : ℝ) = -85 := by rw [wrapLon_real]; norm_num

/-- **C27**, limit of the function: it does not normalise all longitudes and is not idempotent in general. -/
theorem C27_not_normalising : wrapLon (-200 : ℝ) = -200 ∧ wrapLon (wrapLon (1000 : ℝ)) ≠ wrapLon 1000 := by
  simp only [wrapLon_real]; norm_num

/-- The full statement of C28: datasets in a metric system are left alone. -/
def C28_statement : Prop := ∀ d : Dataset ℝ, d.crs.name ≠ .ELLPS → d.toLon180 = d

/-- **C28 is false**: a point of a local ENU dataset more than 180 m east of the origin is moved 360 m west. -/
theorem C28_false : ¬ C28_statement := by
  intro h
  have := h ⟨⟨[⟨200, 0, 0⟩], false⟩, ⟨.ENU, none, none, .ELLPS⟩⟩ (by simp)
  simp only [Dataset.toLon180, wrap180, wrapLon_real, Dataset.mk.injEq, Coords.mk.injEq, List.map_cons,
    List.map_nil, List.cons.injEq, V3.mk.injEq] at this
  norm_num at this

/-- **C28**, what happens to ENU data: easting above 180 is decreased by 360, everything else is kept. -/
theorem C28_enu_shift (d : Dataset ℝ) (h : d.crs.name = .ENU) :
    d.toLon180.crs = d.crs ∧
    d.toLon180.coords.rows = d.coords.rows.map (fun p => if 180 < p.x then ⟨p.x - 360, p.y, p.z⟩ else p) := by
  simp only [Dataset.toLon180, h, wrap180, wrapLon_real, true_and]
  congr 1
  funext p
  split <;> rfl

/-- **C28, partial**: Cartesian and ECEF datasets are left alone (any arithmetic); ENU datasets are left alone when no
easting exceeds 180 (missing: the other ENU datasets, for which the statement is false). -/
theorem C28_partial {S : Type} [Arith S] (d : Dataset S)
    (h : d.crs.name = .CART ∨ d.crs.name = .ECEF ∨
      d.crs.name = .ENU ∧ ∀ p ∈ d.coords.rows, (Arith.ofNat 180 <. p.x) = false) : d.toLon180 = d := by
  rcases h with h | h | ⟨h, hp⟩
  · simp [Dataset.toLon180, h]
  · simp [Dataset.toLon180, h]
  · rcases d with ⟨⟨rows, i⟩, crs⟩
    simp only at h hp
    simp only [Dataset.toLon180, h, wrap180, Dataset.mk.injEq, Coords.mk.injEq, and_true]
    have : ∀ p ∈ rows, ({ p with x := wrapLon p.x } : V3 S) = p := by
      intro p hp'; simp [wrapLon, hp p hp']
    rw [List.map_congr_left this, List.map_id']

example : ∃ d : Dataset ℝ, d.crs.name = .ENU ∧ d.coords.rows ≠ [] ∧
    ∀ p ∈ d.coords.rows, (Arith.ofNat 180 <. p.x) = false :=
  ⟨⟨⟨[⟨100, 3000, 4⟩], false⟩, ⟨.ENU, none, none, .ELLPS⟩⟩, rfl, by simp, by
    simp [Arith.ofNat, Arith.lt]; norm_num⟩

theorem latLonErrs_none {S : Type} [Arith S] {g : Geodesy S} {rows : List (V3 S)} :
    latLonErrs g rows = none ↔ ∀ p ∈ rows, g.latLonErr p.y p.x = none := by
  induction rows with
  | nil => simp [latLonErrs]
  | cons p ps ih =>
    simp only [latLonErrs, List.mem_cons, forall_eq_or_imp]
    cases h : g.latLonErr p.y p.x <;> simp [ih]

/-- **C29.** For a geographic dataset (float coordinates, valid latitudes and longitudes) `to_ellipsoid_height`
returns; every altitude gets the geoid height of its own position once, the rest is unchanged, the vertical datum
becomes the ellipsoid, and a second call changes nothing. -/
theorem C29_height (g : Geodesy ℝ) (d : Dataset ℝ) (hn : d.crs.name = .ELLPS) (hf : d.coords.intDtype = false)
    (hl : ∀ p ∈ d.coords.rows, g.latLonErr p.y p.x = none) :
    ∃ d', d.toEllipsoidHeight g = (.ok (), d') ∧
      d'.coords.rows = d.coords.rows.map (fun p => ⟨p.x, p.y, p.z +
        (if d.crs.vdatum = .ELLPS then 0 else g.geoid d.crs.vdatum p.y p.x)⟩) ∧
      d'.crs = { d.crs with vdatum := .ELLPS } ∧
      d'.toEllipsoidHeight g = (.ok (), d') := by
  rcases d with ⟨⟨rows, i⟩, ⟨name, ellps, enu, vd⟩⟩
  simp only at hn hf hl
  subst hn hf
  have h1 := latLonErrs_none.mpr hl
  have hz : ∀ (p : V3 ℝ) (v : VDatum), geoidHeight g v p.y p.x = if v = .ELLPS then 0 else g.geoid v p.y p.x := by
    intro p v; cases v <;> simp [geoidHeight, Arith.zero]
  refine ⟨⟨⟨rows.map (fun p => ⟨p.x, p.y, p.z + (if vd = .ELLPS then 0 else g.geoid vd p.y p.x)⟩), false⟩,
    ⟨.ELLPS, ellps, enu, .ELLPS⟩⟩, ?_, rfl, rfl, ?_⟩
  · simp only [Dataset.toEllipsoidHeight, Dataset.apply, ellipsoidHeight, h1, Bool.false_and, Bool.false_eq_true,
      if_false, hz]
    rfl
  · have h2 : latLonErrs g (rows.map (fun p => (⟨p.x, p.y, p.z +
        (if vd = .ELLPS then 0 else g.geoid vd p.y p.x)⟩ : V3 ℝ))) = none := by
      rw [latLonErrs_none]
      intro p hp
      obtain ⟨q, hq, rfl⟩ := List.mem_map.mp hp
      exact hl q hq
    simp only [Dataset.toEllipsoidHeight, Dataset.apply, ellipsoidHeight, h2, Bool.false_and, Bool.false_eq_true,
      if_false, geoidHeight, Arith.add, Arith.zero, add_zero, List.map_map, Function.comp_def]

/-- a dataset meeting the hypotheses of C29 with a geoid datum -/
example : ∃ d : Dataset ℝ, d.crs.name = .ELLPS ∧ d.crs.vdatum = .EGM96 ∧ d.coords.rows ≠ [] ∧
    ∀ p ∈ d.coords.rows, toyGeo.latLonErr p.y p.x = none :=
  ⟨⟨⟨[⟨10, 45, 100⟩], false⟩, ⟨.ELLPS, none, none, .EGM96⟩⟩, rfl, rfl, by simp, by
    simp [toyGeo]; norm_num [abs_of_pos]⟩

/-- The full statement of C30: in a local ENU dataset the height correction does not depend on reading the offsets (in
metres) as degrees: two points get corrections that differ by no more than any bound on the variation of the geoid
between points less than a kilometre apart.  Here in its simplest consequence: a library whose geoid varies by at most
`1` between positions closer than one degree cannot give corrections that differ by 10 to points 100 m apart. -/
def C30_statement : Prop :=
  ∀ (g : Geodesy ℝ), (∀ lat lon lat' lon', |lat - lat'| ≤ 1 → |lon - lon'| ≤ 1 →
      |g.geoid .EGM96 lat lon - g.geoid .EGM96 lat' lon'| ≤ 1) →
    ∀ (d d' : Dataset ℝ), d.crs.name = .ENU → d.crs.vdatum = .EGM96 →
      d.toEllipsoidHeight g = (.ok (), d') →
      ∀ (i j : Nat) (p q p' q' : V3 ℝ), d.coords.rows[i]? = some p → d.coords.rows[j]? = some q →
        d'.coords.rows[i]? = some p' → d'.coords.rows[j]? = some q' →
        |p.x - q.x| ≤ 100 → |p.y - q.y| ≤ 100 → |(p'.z - p.z) - (q'.z - q.z)| ≤ 1

/-- **C30 is false**: two local points 10 m apart get height corrections that differ like positions 10 degrees apart. -/
theorem C30_false : ¬ C30_statement := by
  intro h
  have h1 := h toyGeo (by intro lat lon lat' lon' _ h2; simpa [toyGeo] using h2)
    ⟨⟨[⟨0, 0, 0⟩, ⟨10, 0, 0⟩], false⟩, ⟨.ENU, none, none, .EGM96⟩⟩
    ⟨⟨[⟨0, 0, 0 + 0⟩, ⟨10, 0, 0 + 10⟩], false⟩, ⟨.ENU, none, none, .ELLPS⟩⟩ rfl rfl (by
      have : latLonErrs toyGeo [⟨0, 0, 0⟩, ⟨10, 0, 0⟩] = none := by
        rw [latLonErrs_none]; intro p hp; simp at hp; rcases hp with rfl | rfl <;> (simp [toyGeo]; try norm_num)
      simp only [Dataset.toEllipsoidHeight, Dataset.apply, ellipsoidHeight, this]
      rfl)
    0 1 _ _ _ _ rfl rfl rfl rfl (by norm_num) (by norm_num)
  norm_num at h1

/-- **C30**, second failure: if the library refuses latitudes above 90 degrees (as `LatLon` does), any local ENU
dataset whose first point is more than 90 m north of the origin makes the conversion raise, even with no geoid
involved. -/
theorem C30_raises {S : Type} [Arith S] (g : Geodesy S) (e : PyErr) (p : V3 S) (ps : List (V3 S)) (i : Bool)
    (he : g.latLonErr p.y p.x = some e) (crs : Crs S) (hn : crs.name = .ENU) :
    (Dataset.toEllipsoidHeight g ⟨⟨p :: ps, i⟩, crs⟩) = (.error e, ⟨⟨p :: ps, i⟩, crs⟩) := by
  simp [Dataset.toEllipsoidHeight, hn, Dataset.apply, ellipsoidHeight, latLonErrs, he]

example : toyGeo.latLonErr 100 0 = some .valueError := by simp [toyGeo]; norm_num [abs_of_pos]

/-- **C30, partial**: with the vertical datum already the ellipsoid and offsets that are acceptable as degrees, ENU
data keep their values (missing: geoid datums, for which the statement is false). -/
theorem C30_partial (g : Geodesy ℝ) (d : Dataset ℝ) (hn : d.crs.name = .ENU) (hv : d.crs.vdatum = .ELLPS)
    (hl : ∀ p ∈ d.coords.rows, g.latLonErr p.y p.x = none) : d.toEllipsoidHeight g = (.ok (), d) := by
  rcases d with ⟨⟨rows, i⟩, ⟨name, ellps, enu, vd⟩⟩
  simp only at hn hv hl
  subst hn hv
  simp only [Dataset.toEllipsoidHeight, Dataset.apply, ellipsoidHeight, latLonErrs_none.mpr hl, geoidHeight, Arith.add,
    Arith.zero, add_zero]
  simp

example : ∀ p ∈ [(⟨10, 45, 100⟩ : V3 ℝ)], toyGeo.latLonErr p.y p.x = none := by
  simp [toyGeo]; norm_num [abs_of_pos]

/-- The full statement of C52: integer coordinates behave like the same coordinates given as floats. -/
def C52_statement : Prop := ∀ (g : Geodesy ℝ) (rows : List (V3 ℝ)) (crs : Crs ℝ),
  (Dataset.toEllipsoidHeight g ⟨⟨rows, true⟩, crs⟩).1 = (Dataset.toEllipsoidHeight g ⟨⟨rows, false⟩, crs⟩).1

/-- **C52 is false**: integer geographic coordinates with a geoid datum raise `TypeError` (in-place addition of floats to
an integer array), for every library that accepts the positions. -/
theorem C52_int_raises {S : Type} [Arith S] (g : Geodesy S) (rows : List (V3 S)) (crs : Crs S)
    (hn : crs.name = .ELLPS ∨ crs.name = .ENU) (hv : crs.vdatum ≠ .ELLPS)
    (hl : ∀ p ∈ rows, g.latLonErr p.y p.x = none) :
    (Dataset.toEllipsoidHeight g ⟨⟨rows, true⟩, crs⟩).1 = .error .typeError := by
  rcases hn with hn | hn <;>
    simp [Dataset.toEllipsoidHeight, hn, Dataset.apply, ellipsoidHeight, latLonErrs_none.mpr hl, hv]

theorem C52_false : ¬ C52_statement := by
  intro h
  have hl : ∀ p ∈ [(⟨10, 45, 100⟩ : V3 ℝ)], toyGeo.latLonErr p.y p.x = none := by
    simp [toyGeo]; norm_num [abs_of_pos]
  have h1 := h toyGeo [⟨10, 45, 100⟩] ⟨.ELLPS, none, none, .EGM96⟩
  rw [C52_int_raises toyGeo _ _ (Or.inl rfl) (by simp) hl] at h1
  obtain ⟨d', h2, _⟩ := C29_height toyGeo ⟨⟨[⟨10, 45, 100⟩], false⟩, ⟨.ELLPS, none, none, .EGM96⟩⟩ rfl rfl hl
  rw [h2] at h1
  cases h1

/-- **C52, partial**: with the ellipsoid as vertical datum, and for metric systems, the integer type makes no difference
to the values (missing: geoid datums, for which the statement is false). -/
theorem C52_partial {S : Type} [Arith S] (g : Geodesy S) (rows : List (V3 S)) (crs : Crs S)
    (h : crs.vdatum = .ELLPS ∨ crs.name = .ECEF ∨ crs.name = .CART) :
    (Dataset.toEllipsoidHeight g ⟨⟨rows, true⟩, crs⟩).1 = (Dataset.toEllipsoidHeight g ⟨⟨rows, false⟩, crs⟩).1 ∧
    (Dataset.toEllipsoidHeight g ⟨⟨rows, true⟩, crs⟩).2.coords.rows =
      (Dataset.toEllipsoidHeight g ⟨⟨rows, false⟩, crs⟩).2.coords.rows := by
  rcases crs with ⟨name, ellps, enu, vd⟩
  simp only at h
  rcases h with rfl | rfl | rfl
  · cases name <;> simp [Dataset.toEllipsoidHeight, Dataset.apply, ellipsoidHeight, crsId] <;>
      cases latLonErrs g rows <;> simp
  · simp [Dataset.toEllipsoidHeight, Dataset.apply, crsId]
  · simp [Dataset.toEllipsoidHeight, Dataset.apply, crsId]

end Geec
