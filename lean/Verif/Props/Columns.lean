import Verif.Props.Longitude
import Verif.Props.Frames
import Verif.Model.Heap
/-
C117: the properties `lon`, `lat`, `alt` of a dataset.
-/
namespace Geec
open Arith
noncomputable section

/-- **C117** The i-th entries of `lon`, `lat`, `alt` are the three coordinates of the i-th point, and there are no other entries. -/
theorem C117_columns {S : Type} [Arith S] (d : Dataset S) (i : Nat) (p : V3 S) :
    (d.coords.rows[i]? = some p ↔ d.lon[i]? = some p.x ∧ d.lat[i]? = some p.y ∧ d.alt[i]? = some p.z) ∧
    (d.coords.rows[i]? = none ↔ d.lon[i]? = none) ∧ (d.lon[i]? = none ↔ d.lat[i]? = none) ∧ (d.lat[i]? = none ↔ d.alt[i]? = none) := by
  simp only [Dataset.lon, Dataset.lat, Dataset.alt, List.getElem?_map]
  cases d.coords.rows[i]? with
  | none => simp
  | some q =>
    refine ⟨⟨?_, ?_⟩, by simp, by simp, by simp⟩
    · intro h; cases h; simp
    · rintro ⟨h1, h2, h3⟩
      cases p; cases q
      simp only [Option.map_some, Option.some.injEq] at h1 h2 h3
      subst h1 h2 h3
      rfl

/-- **C117** `to_lon180` on geographic coordinates: `lat` and `alt` are kept; every longitude is changed by a multiple of 360, into (-180, 180] if it was
in (-180, 540]. -/
theorem C117_lon180 (d : Dataset ℝ) (hn : d.crs.name = .ELLPS) : d.toLon180.lat = d.lat ∧ d.toLon180.alt = d.alt ∧
    ∀ (i : Nat) (x : ℝ), d.lon[i]? = some x → ∃ x', d.toLon180.lon[i]? = some x' ∧ (∃ k : ℤ, x' = x + 360 * k) ∧
      (-180 < x → x ≤ 540 → -180 < x' ∧ x' ≤ 180) := by
  obtain ⟨-, h1, h2, h3⟩ := C27_only_longitude d.coords
  have e : d.toLon180 = { d with coords := wrap180 d.coords } := by unfold Dataset.toLon180; rw [hn]
  rw [e]
  refine ⟨h1, h2, fun i x hx => ⟨wrapLon x, ?_, (C27_wrap x).1, fun a b => (C27_wrap x).2.1.mpr ⟨a, b⟩⟩⟩
  show ((wrap180 d.coords).rows.map (·.x))[i]? = _
  rw [h3]
  simp only [Dataset.lon, List.getElem?_map, Option.map_eq_some_iff] at hx ⊢
  obtain ⟨p, hp, rfl⟩ := hx
  exact ⟨p, hp, rfl⟩

/-- **C117** `to_ellipsoid_height` on geographic coordinates: `lon` and `lat` are kept; every altitude is raised by the geoid height at the longitude and
latitude of the same point. -/
theorem C117_height (g : Geodesy ℝ) (d : Dataset ℝ) (hn : d.crs.name = .ELLPS) (hf : d.coords.intDtype = false)
    (hl : ∀ p ∈ d.coords.rows, g.latLonErr p.y p.x = none) : ∃ d', d.toEllipsoidHeight g = (.ok (), d') ∧ d'.lon = d.lon ∧ d'.lat = d.lat ∧
    ∀ (i : Nat) (x y z : ℝ), d.lon[i]? = some x → d.lat[i]? = some y → d.alt[i]? = some z →
      d'.alt[i]? = some (z + (if d.crs.vdatum = .ELLPS then 0 else g.geoid d.crs.vdatum y x)) := by
  obtain ⟨d', h1, h2, -⟩ := C29_height g d hn hf hl
  refine ⟨d', h1, ?_, ?_, fun i x y z hx hy hz => ?_⟩
  · unfold Dataset.lon; rw [h2, List.map_map]; rfl
  · unfold Dataset.lat; rw [h2, List.map_map]; rfl
  · have hp := ((C117_columns d i ⟨x, y, z⟩).1.mpr ⟨hx, hy, hz⟩)
    unfold Dataset.alt
    rw [h2, List.getElem?_map, List.getElem?_map, hp]
    rfl

/-- **C117** After a `to_wgs84` that returned, `lon`, `lat`, `alt` are geodetic coordinates on WGS84 of the positions that the points denoted before. -/
theorem C117_wgs84 {S : Type} [Arith S] (g : Geodesy S) (hg : g.Lawful) (d d' : Dataset S) (hcons : d.crs.Consistent g) (hc : d.crs.name ≠ .CART)
    (h : d.toWgs84 g = (.ok (), d')) : d'.lon.length = d.coords.rows.length ∧
    ∀ (i : Nat) (p : V3 S) (x y z : S), d.coords.rows[i]? = some p → d'.lon[i]? = some x → d'.lat[i]? = some y → d'.alt[i]? = some z →
      position g d.crs p = some (g.geodetic2ecef (some (wgs84 g)) ⟨x, y, z⟩) := by
  obtain ⟨h1, -, ⟨e, he, hee⟩, -, hlen, hpos, -⟩ := C32_to_wgs84 g hg d d' hcons hc h
  refine ⟨by simpa [Dataset.lon] using hlen, fun i p x y z hp hx hy hz => ?_⟩
  have hq := ((C117_columns d' i ⟨x, y, z⟩).1.mpr ⟨hx, hy, hz⟩)
  have := congrArg (fun l => l[i]?) hpos
  simp only [Dataset.positions, List.getElem?_map, hp, hq, Option.map_some, Option.some.injEq] at this
  rw [← this, position, h1, he, hg.eq_ecef e _ hee]

/-- C117: two points in degrees, one at 350° East -/
example : ∃ d : Dataset ℝ, d.crs.name = .ELLPS ∧ d.lon = [350, 7] ∧ d.lat = [45, 46] ∧ d.alt = [100, 200] ∧ d.toLon180.lon = [-10, 7] ∧
    d.toLon180.lat = [45, 46] ∧ d.toLon180.alt = [100, 200] := by
  refine ⟨⟨⟨[⟨350, 45, 100⟩, ⟨7, 46, 200⟩], false⟩, ⟨.ELLPS, none, none, .ELLPS⟩⟩, rfl, rfl, rfl, rfl, ?_, rfl, rfl⟩
  show [wrapLon (350 : ℝ), wrapLon 7] = _
  have h2 : wrapLon (7 : ℝ) = 7 := (C27_wrap 7).2.2.1 (by norm_num)
  have h1 : wrapLon (350 : ℝ) = -10 := by
    obtain ⟨k, hk⟩ := (C27_wrap 350).1
    obtain ⟨a, b⟩ := (C27_wrap 350).2.1.mpr ⟨by norm_num, by norm_num⟩
    rw [hk] at a b
    have h1 : (-530 : ℝ) < 360 * k := by linarith
    have h2 : 360 * (k : ℝ) ≤ -170 := by linarith
    have h3 : (-530 : ℤ) < 360 * k := by exact_mod_cast h1
    have h4 : 360 * k ≤ -170 := by exact_mod_cast h2
    have : k = -1 := by omega
    rw [hk, this]; norm_num
  rw [h1, h2]

/-- C117: heights above a geoid -/
example : ∃ d', Dataset.toEllipsoidHeight toyGeo ⟨⟨[⟨350, 45, 100⟩, ⟨7, 46, 200⟩], false⟩, ⟨.ELLPS, none, none, .EGM96⟩⟩ = (.ok (), d') ∧
    d'.lon = [350, 7] ∧ d'.lat = [45, 46] ∧ d'.alt[1]? = some 207 := by
  obtain ⟨d', h1, h2, h3, h4⟩ := C117_height toyGeo ⟨⟨[⟨350, 45, 100⟩, ⟨7, 46, 200⟩], false⟩, ⟨.ELLPS, none, none, .EGM96⟩⟩ rfl rfl (by
    intro p hp
    simp only [List.mem_cons, List.not_mem_nil, or_false] at hp
    rcases hp with rfl | rfl <;> simp only [toyGeo] <;> rw [if_neg] <;> norm_num)
  refine ⟨d', h1, h2, h3, (h4 1 7 46 200 rfl rfl rfl).trans ?_⟩
  simp [toyGeo]; norm_num

/-- C117: a geocentric point of the example Earth -/
example : ∃ d', Dataset.toWgs84 toyGeo ⟨⟨[⟨357, 45, 100⟩], false⟩, ⟨.ECEF, none, none, .ELLPS⟩⟩ = (.ok (), d') ∧ d'.lon = [350] ∧
    position toyGeo ⟨.ECEF, none, none, .ELLPS⟩ ⟨357, 45, 100⟩ = some (toyGeo.geodetic2ecef (some (wgs84 toyGeo)) ⟨350, 45, 100⟩) := by
  have hr : ∃ d', Dataset.toWgs84 toyGeo ⟨⟨[⟨357, 45, 100⟩], false⟩, ⟨.ECEF, none, none, .ELLPS⟩⟩ = (.ok (), d') ∧ d'.coords.rows = [⟨357 - 7, 45, 100⟩] :=
    ⟨_, rfl, rfl⟩
  obtain ⟨d', h1, h2⟩ := hr
  obtain ⟨-, k⟩ := C117_wgs84 toyGeo toyGeo_lawful ⟨⟨[⟨357, 45, 100⟩], false⟩, ⟨.ECEF, none, none, .ELLPS⟩⟩ d' (fun h => by simp at h) (by simp) h1
  refine ⟨d', h1, by simp [Dataset.lon, h2]; norm_num, ?_⟩
  exact k 0 _ 350 45 100 rfl (by simp [Dataset.lon, h2]; norm_num) (by simp [Dataset.lat, h2]) (by simp [Dataset.alt, h2])

end
end Geec
