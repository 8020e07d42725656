import Verif.Model.Cli
import Verif.Spec.Geo
import Verif.Spec.History
import Verif.Spec.Toy
/-
What `geec run` reads and computes, stated independently of the order of its statements; a concrete run.
-/
namespace Geec
open Arith
variable {S : Type} [Arith S]

/-- The quantities of a run: the configured bodies, the bodies after transformation, their polyhedra, the configured
observer and its points as used. -/
structure RunData (S : Type) where
  configured : List (Mass S)
  masses : List (Mass S)
  polys : List (Poly S)
  observer : Observer S
  stations : Dataset S

/-- the quantities belong to a configuration -/
structure RunData.Of (r : RunData S) (g : Geodesy S) (o : Outside S) (lib : HullLib S) (cfg : View S) : Prop where
  configured : getMasses g o cfg = .ok r.configured
  masses : List.Forall₂ (fun m m' => m'.density = m.density ∧ m'.gravityConstant = m.gravityConstant ∧
    runOps g [.lon180, .height, .ecef] m.dataset = (.ok (), m'.dataset)) r.configured r.masses
  polys : List.Forall₂ (fun m p => polyhedronOf lib m.dataset.coords.rows = .ok p) r.masses r.polys
  observer : getObserver g o cfg = .ok r.observer
  stations : r.observer.dataset.toWgs84 g = (.ok (), r.stations)

/-- the objects of a run, none of them used yet -/
def RunData.world (r : RunData S) : World S := ⟨fun k => r.polys.getD k ⟨[], []⟩, fun _ => Mem.fresh⟩

/-- all bodies of a run, as argument of `compute_gravity` -/
def RunData.bodies (r : RunData S) : PyObj := .list ((List.range r.polys.length).map .poly)

/-- the numbers of one line of the table: coordinates, G, the upper triangle of T -/
def lineOf (s : Station S) : List S :=
  [s.coord.x, s.coord.y, s.coord.z, s.G.x, s.G.y, s.G.z,
   s.T.r0.x, s.T.r0.y, s.T.r0.z, s.T.r1.y, s.T.r1.z, s.T.r2.z]

namespace Toy
attribute [local instance] toyArith

/-- a geodesy library for examples: everything is the identity, the geoid is 5 m above the ellipsoid -/
def geo : Geodesy Rat where
  models := [("wgs84", "WGS-84", 7, 6)]
  ellipsoidErr := fun _ _ => none
  ellEq := fun e e' => e.a = e'.a ∧ e.b = e'.b
  geodetic2ecef := fun _ p => .ok p
  enu2ecef := fun _ _ _ _ p => .ok p
  ecef2geodetic := fun p => .ok p
  ecef2enu := fun _ _ _ p => .ok p
  geodetic2enu := fun _ _ _ p => .ok p
  latLonErr := fun _ _ => none
  geoid := fun _ _ _ => 5

def outside : Outside Rat := ⟨fun _ => false, fun _ => .error .fileNotFoundError, fun _ => 0⟩

/-- a hull library that knows tetrahedra (the order of the simplices does not depend on the points) -/
def hullLib : HullLib Rat where
  convexHull := fun pts => .ok { Toy.hull with points := pts }
  inHull := fun _ _ => true

def point (x y z : Rat) : Val Rat := .list [.num false x, .num false y, .num false z]

def crsSection (ref vdatum : String) : Val Rat := .dict [("ref", .str ref), ("name", .null), ("semimajor_axis", .null),
  ("semiminor_axis", .null), ("longitude_origin", .null), ("latitude_origin", .null), ("altitude_origin", .null),
  ("vdatum", .str vdatum)]

def massSection (ref : String) (density dx : Rat) : Val Rat := .dict [("density", .num false density),
  ("gravity_constant", .num false 1),
  ("points", .list [point dx 0 0, point (dx + 1) 0 0, point dx 1 0, point dx 0 1]),
  ("file_path", .null), ("crs", crsSection ref "ellps")]

def observerSection (ref vdatum : String) : Val Rat := .dict [("points", .list [point 3 5 7, point 4 6 9]),
  ("file_path", .null),
  ("grid", .dict [("xstart_xend_xstep", .null), ("ystart_yend_ystep", .null), ("zstart_zend_zstep", .null)]),
  ("crs", crsSection ref vdatum)]

/-- a configuration with two bodies of different densities and two observation points -/
def config (massRef obsRef vdatum : String) : View Rat := View.root [.dict [
  ("masses", .list [massSection massRef 2 0, massSection massRef 5 10]),
  ("observers", observerSection obsRef vdatum)]]

end Toy
end Geec
