import Verif.Spec.Geo
import Mathlib.Analysis.SpecialFunctions.Trigonometric.Basic
/-
The geodesy library with the closed formulas of pymap3d 3.0.1 (the version of /repo/poetry.lock:1489-1496), over the reals.

/repo contains only the calls of these functions (/repo/geec/crs.py:285, 310, 336, 393, 427); the formulas are written down from the
library's documentation.  `ecef2geodetic` is an iterative/closed approximation in the library; here it is an exact inverse, chosen
among the triples with a latitude between -90 and 90.  Theorems about `Geodesy` in general do not depend on this file.
-/
namespace Geec
noncomputable section

/-- degrees to radians: `radians(x)` in the library functions called at /repo/geec/crs.py:285, 310 -/
def radians (x : ℝ) : ℝ := x * Real.pi / 180

/-- Prime vertical radius of curvature at a latitude (radians): `a**2 / hypot(a*cos(lat), b*sin(lat))`,
in `pm.geodetic2ecef`, called at /repo/geec/crs.py:285. -/
def primeRadius (a b φ : ℝ) : ℝ := a ^ 2 / Real.sqrt ((a * Real.cos φ) ^ 2 + (b * Real.sin φ) ^ 2)

/-- The position with latitude `φ`, longitude `l` (radians) and height `h`: `pm.geodetic2ecef`, called at /repo/geec/crs.py:285. -/
def geodeticPoint (a b φ l h : ℝ) : V3 ℝ :=
  ⟨(primeRadius a b φ + h) * Real.cos φ * Real.cos l, (primeRadius a b φ + h) * Real.cos φ * Real.sin l,
   (primeRadius a b φ * (b / a) ^ 2 + h) * Real.sin φ⟩

/-- `pm.enu2uvw`, part of `pm.enu2ecef` called at /repo/geec/crs.py:310: from east, north, up at (φ, l) to geocentric axes. -/
def enu2uvw (φ l : ℝ) (p : V3 ℝ) : V3 ℝ :=
  let t := Real.cos φ * p.z - Real.sin φ * p.y
  ⟨Real.cos l * t - Real.sin l * p.x, Real.sin l * t + Real.cos l * p.x, Real.sin φ * p.z + Real.cos φ * p.y⟩

/-- `pm.uvw2enu`, part of `pm.ecef2enu` called at /repo/geec/crs.py:393: from geocentric axes to east, north, up at (φ, l). -/
def uvw2enu (φ l : ℝ) (p : V3 ℝ) : V3 ℝ :=
  let t := Real.cos l * p.x + Real.sin l * p.y
  ⟨- Real.sin l * p.x + Real.cos l * p.y, - Real.sin φ * t + Real.cos φ * p.z, Real.cos φ * t + Real.sin φ * p.z⟩

/-- Semi-axes of WGS84 in the model table of the library, used at /repo/geec/crs.py:82. -/
def wgsA : ℝ := 6378137
/-- Semi-axes of WGS84 in the model table of the library, used at /repo/geec/crs.py:82. -/
def wgsB : ℝ := 635675231424518 / 100000000

/-- `pm.geodetic2ecef(lat, lon, alt, ell)` with its check of the latitude; (a, b) are the semi-axes.  Called at /repo/geec/crs.py:285. -/
def geodetic2ecefOn (a b : ℝ) (p : V3 ℝ) : Except PyErr (V3 ℝ) :=
  open Classical in
  if 90 < |p.y| then .error .valueError else .ok (geodeticPoint a b (radians p.y) (radians p.x) p.z)

/-- `pm.enu2ecef(e, n, u, lat0, lon0, h0, ell)`.  Called at /repo/geec/crs.py:310. -/
def enu2ecefOn (a b lat lon h : ℝ) (p : V3 ℝ) : Except PyErr (V3 ℝ) := do
  let o ← geodetic2ecefOn a b ⟨lon, lat, h⟩
  return o.add (enu2uvw (radians lat) (radians lon) p)

/-- `pm.ecef2enu(x, y, z, lat0, lon0, h0)`, on WGS84.  Called at /repo/geec/crs.py:393. -/
def ecef2enuOn (a b lat lon h : ℝ) (x : V3 ℝ) : Except PyErr (V3 ℝ) := do
  let o ← geodetic2ecefOn a b ⟨lon, lat, h⟩
  return uvw2enu (radians lat) (radians lon) (x.sub o)

/-- The library over the reals: WGS84 and further ellipsoid models `more`, exceptions `latLonErr` of `LatLon`, geoid heights
`geoid`.  `==` of ellipsoids compares names
and axes (a dataclass).  `pm.Ellipsoid` refuses axes that are not `0 < b ≤ a` (an assertion, shown as `valueError`).
Used at /repo/geec/crs.py:44-78, 241-243, 267-268, 285, 310, 336, 393, 427. -/
def earth (more : List (String × String × ℝ × ℝ)) (latLonErr : ℝ → ℝ → Option PyErr) (geoid : VDatum → ℝ → ℝ → ℝ) : Geodesy ℝ where
  models := ("wgs84", "WGS-84 (1984)", wgsA, wgsB) :: more
  ellipsoidErr := fun a b => open Classical in if 0 < b ∧ b ≤ a then none else some .valueError
  ellEq := fun e e' => open Classical in decide (e = e')
  geodetic2ecef := fun e p => match e with
    | none => geodetic2ecefOn wgsA wgsB p
    | some e => geodetic2ecefOn e.a e.b p
  enu2ecef := fun e lat lon h p => match e with
    | none => enu2ecefOn wgsA wgsB lat lon h p
    | some e => enu2ecefOn e.a e.b lat lon h p
  ecef2geodetic := fun x => open Classical in
    if h : ∃ p : V3 ℝ, geodetic2ecefOn wgsA wgsB p = .ok x then .ok (Classical.choose h) else .error .valueError
  ecef2enu := fun lat lon h x => ecef2enuOn wgsA wgsB lat lon h x
  geodetic2enu := fun lat lon h p => do
    let x ← geodetic2ecefOn wgsA wgsB p
    ecef2enuOn wgsA wgsB lat lon h x
  latLonErr := latLonErr
  geoid := geoid

end
end Geec
