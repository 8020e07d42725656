import Verif.Model.Dataset
import Verif.Model.RealArith
/-
Specification of physical positions, of a well-behaved geodesy library, and of sequences of transformations.
-/
namespace Geec
open Arith
variable {S : Type} [Arith S]

/-- The geocentric (ECEF) position that a point of a dataset denotes; for local ENU coordinates the frame is the one
described by the ENU object (its origin *and its* ellipsoid).  `none`: the dataset is Cartesian, or has no frame. -/
def position (g : Geodesy S) (crs : Crs S) (p : V3 S) : Option (Except PyErr (V3 S)) :=
  match crs.name with
  | .CART => none
  | .ECEF => some (.ok p)
  | .ELLPS => some (g.geodetic2ecef crs.ellps p)
  | .ENU => crs.enu.map (fun e => g.enu2ecef (some e.ellps) e.lat0 e.lon0 e.alt0 p)

/-- all positions of a dataset, in order -/
def Dataset.positions (g : Geodesy S) (d : Dataset S) : List (Option (Except PyErr (V3 S))) :=
  d.coords.rows.map (position g d.crs)

/-- What the geodesy library is assumed to satisfy: conversions without an explicit ellipsoid are on WGS84, equal
ellipsoids give equal conversions, and conversions are mutually inverse where they return. -/
structure Geodesy.Lawful (g : Geodesy S) : Prop where
  eq_refl : ∀ e, g.ellEq e e = true
  eq_ecef : ∀ e e', g.ellEq e e' = true → g.geodetic2ecef (some e) = g.geodetic2ecef (some e')
  eq_enu : ∀ e e', g.ellEq e e' = true → g.enu2ecef (some e) = g.enu2ecef (some e')
  default_ecef : g.geodetic2ecef none = g.geodetic2ecef (some (wgs84 g))
  default_enu : g.enu2ecef none = g.enu2ecef (some (wgs84 g))
  geodetic_inv : ∀ x p, g.ecef2geodetic x = .ok p → g.geodetic2ecef (some (wgs84 g)) p = .ok x
  enu_inv : ∀ lat lon alt x p, g.ecef2enu lat lon alt x = .ok p → g.enu2ecef (some (wgs84 g)) lat lon alt p = .ok x
  geodetic_enu : ∀ lat lon alt p q, g.geodetic2enu lat lon alt p = .ok q →
    ∃ x, g.geodetic2ecef (some (wgs84 g)) p = .ok x ∧ g.ecef2enu lat lon alt x = .ok q

/-- a transformation of a dataset -/
inductive Op (S : Type)
  | lon180
  | height
  | ecef
  | wgs84
  | enu (lon0 lat0 alt0 : S)

/-- perform a transformation -/
def Op.run (g : Geodesy S) (op : Op S) (d : Dataset S) : Except PyErr Unit × Dataset S :=
  match op with
  | .lon180 => (.ok (), d.toLon180)
  | .height => d.toEllipsoidHeight g
  | .ecef => d.toEcef g
  | .wgs84 => d.toWgs84 g
  | .enu lon0 lat0 alt0 => d.toEnu g lon0 lat0 alt0

/-- perform a sequence of transformations; stops at an exception -/
def runOps (g : Geodesy S) : List (Op S) → Dataset S → Except PyErr Unit × Dataset S
  | [], d => (.ok (), d)
  | op :: ops, d => match op.run g d with
    | (.ok (), d') => runOps g ops d'
    | (.error e, d') => (.error e, d')

/-- the consistency enforced when a CRS is constructed -/
def Crs.Consistent (g : Geodesy S) (c : Crs S) : Prop :=
  c.name = .ENU → ∃ e l, c.enu = some e ∧ c.ellps = some l ∧ g.ellEq e.ellps l = true

noncomputable section
/-- A toy geodesy library for examples: "geocentric" positions are obtained by adding the semi-major axis to the first
coordinate, local frames are translated; latitudes beyond 90 are refused by `LatLon`; the geoid height is the
longitude. -/
def toyGeo : Geodesy ℝ where
  models := [("wgs84", "WGS-84", 7, 6), ("airy", "Airy", 5, 4)]
  ellipsoidErr := fun _ _ => none
  ellEq := fun e e' => open Classical in decide (e.a = e'.a ∧ e.b = e'.b)
  geodetic2ecef := fun e p => .ok ⟨p.x + (match e with | none => 7 | some e => e.a), p.y, p.z⟩
  enu2ecef := fun e lat lon h p =>
    .ok ⟨p.x + lon + (match e with | none => 7 | some e => e.a), p.y + lat, p.z + h⟩
  ecef2geodetic := fun p => .ok ⟨p.x - 7, p.y, p.z⟩
  ecef2enu := fun lat lon alt p => .ok ⟨p.x - lon - 7, p.y - lat, p.z - alt⟩
  geodetic2enu := fun lat lon alt p => .ok ⟨p.x - lon, p.y - lat, p.z - alt⟩
  latLonErr := fun lat _ => open Classical in if 90 < |lat| then some .valueError else none
  geoid := fun _ _ lon => lon

theorem toyGeo_wgs84 : wgs84 toyGeo = ⟨"wgs84", "WGS-84", 7, 6⟩ := by
  simp [wgs84, toyGeo, findModel]

theorem toyGeo_lawful : toyGeo.Lawful where
  eq_refl := by intro e; simp [toyGeo]
  eq_ecef := by intro e e' h; simp [toyGeo] at h; simp [toyGeo, h.1]
  eq_enu := by intro e e' h; simp [toyGeo] at h; simp [toyGeo, h.1]
  default_ecef := by rw [toyGeo_wgs84]; simp [toyGeo]
  default_enu := by rw [toyGeo_wgs84]; simp [toyGeo]
  geodetic_inv := by
    intro x p h; rw [toyGeo_wgs84]; simp [toyGeo] at h ⊢; subst h; simp
  enu_inv := by
    intro lat lon alt x p h; rw [toyGeo_wgs84]; simp [toyGeo] at h ⊢; subst h; cases x; simp; ring
  geodetic_enu := by
    intro lat lon alt p q h; rw [toyGeo_wgs84]; simp [toyGeo] at h ⊢; subst h; simp; ring

end
end Geec
