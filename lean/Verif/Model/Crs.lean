import Verif.Model.Config
/-
Model of /repo/geec/crs.py.
pymap3d, pygeodesy are external: their point functions are the fields of `Geodesy`.
-/
namespace Geec
open Arith

/-- /repo/geec/crs.py:26-30 -/
inductive CRSName
  | CART | ELLPS | ENU | ECEF
  deriving DecidableEq, Repr

/-- /repo/geec/crs.py:33-37 -/
inductive VDatum
  | ELLPS | EGM84 | EGM96 | EGM08
  deriving DecidableEq, Repr

/-- `CRSEnum.__members__` / `CRSEnum[...]`, /repo/geec/crs.py:26-30 -/
def crsMembers : List (String × CRSName) :=
  [("CART", .CART), ("ELLPS", .ELLPS), ("ENU", .ENU), ("ECEF", .ECEF)]

/-- `VDatumEnum.__members__` / `VDatumEnum[...]`, /repo/geec/crs.py:33-37: the member names, not the values -/
def vdatumMembers : List (String × VDatum) :=
  [("ELLPS", .ELLPS), ("EGM84", .EGM84), ("EGM96", .EGM96), ("EGM08", .EGM08)]

/-- An `Ellipsoid` object.  Models /repo/geec/crs.py:44-78. -/
structure Ell (S : Type) where
  name : String
  model : String
  a : S
  b : S

/-- An `ENU` object.  Models /repo/geec/crs.py:86-94. -/
structure Enu (S : Type) where
  lon0 : S
  lat0 : S
  alt0 : S
  ellps : Ell S

/-- A `CRS` object.  Models /repo/geec/crs.py:97-106. -/
structure Crs (S : Type) where
  name : CRSName
  ellps : Option (Ell S)
  enu : Option (Enu S)
  vdatum : VDatum

/-- The external geodesy libraries.  Points are handled one by one (numpy vectorisation); every function may raise.
`none` for the ellipsoid means that the library is called with `ell=None`; functions called without `ell` use the
library's default.  Used at /repo/geec/crs.py:241-243, 267-268, 285, 310, 336, 393, 427. -/
structure Geodesy (S : Type) where
  /-- `pm.Ellipsoid.models`: key, full name, axes -/
  models : List (String × String × S × S)
  /-- exceptions of the constructor `pm.Ellipsoid(a, b)` -/
  ellipsoidErr : S → S → Option PyErr
  /-- `==` on ellipsoid objects -/
  ellEq : Ell S → Ell S → Bool
  /-- `pm.geodetic2ecef(lat, lon, alt, ell=…)` on (lon, lat, alt) -/
  geodetic2ecef : Option (Ell S) → V3 S → Except PyErr (V3 S)
  /-- `pm.enu2ecef(e, n, u, lat0, lon0, h0, ell=…)` -/
  enu2ecef : Option (Ell S) → (lat0 lon0 h0 : S) → V3 S → Except PyErr (V3 S)
  /-- `pm.ecef2geodetic(x, y, z)`, as (lon, lat, alt) -/
  ecef2geodetic : V3 S → Except PyErr (V3 S)
  /-- `pm.ecef2enu(x, y, z, lat0, lon0, alt0)` -/
  ecef2enu : (lat0 lon0 alt0 : S) → V3 S → Except PyErr (V3 S)
  /-- `pm.geodetic2enu(lat, lon, alt, lat0, lon0, alt0)` on (lon, lat, alt) -/
  geodetic2enu : (lat0 lon0 alt0 : S) → V3 S → Except PyErr (V3 S)
  /-- exceptions of `pgeo.ellipsoidalKarney.LatLon(lat, lon)` -/
  latLonErr : (lat lon : S) → Option PyErr
  /-- the geoid height of the three geoid files at (lat, lon) -/
  geoid : VDatum → (lat lon : S) → S

variable {S : Type} [Arith S]

/-- find a model by key -/
def findModel (k : String) : List (String × String × S × S) → Option (String × S × S)
  | [] => none
  | (k', r) :: rest => if k = k' then some r else findModel k rest

/-- numeric value of an axis; arithmetic on another type raises `TypeError` -/
def Val.asNum : Val S → Except PyErr S
  | .num _ x => .ok x
  | .bool b => .ok (if b then one else zero)
  | _ => .error .typeError

/-- `super().__init__(semimajor_axis=…, …)` -/
def pmEllipsoid (g : Geodesy S) (name model : String) (a b : S) : Except PyErr (Ell S) :=
  match g.ellipsoidErr a b with
  | some e => .error e
  | none => .ok ⟨name, model, a, b⟩

/-- `Ellipsoid.__init__`.  Models /repo/geec/crs.py:47-78.  `name` is a `str` or `None`; a name that is not a key of
the models raises `KeyError`; the axes are any configuration values. -/
def mkEllipsoid (g : Geodesy S) (name : Option String) (a b : Val S) : Except PyErr (Ell S) :=
  let fromName (k : String) : Except PyErr (Ell S) :=
    match findModel k g.models with
    | none => .error .keyError
    | some (model, a, b) => pmEllipsoid g k model a b
  match name with
  | some (k) =>
    if k ≠ "" then fromName k
    else if a.truthy && b.truthy then do pmEllipsoid g "" "" (← a.asNum) (← b.asNum)
    else fromName "wgs84"
  | none =>
    if a.truthy && b.truthy then do pmEllipsoid g "" "" (← a.asNum) (← b.asNum)
    else fromName "wgs84"

/-- `read_ellipsoid_parameters`.  Models /repo/geec/crs.py:124-137.  A falsy name (null, "", 0, …) counts as none. -/
def readEllipsoidParameters (g : Geodesy S) (crs : View S) : Except PyErr (Option String × Val S × Val S) := do
  let name ← (crs.at "name").getAny
  let a ← (crs.at "semimajor_axis").getAny
  let b ← (crs.at "semiminor_axis").getAny
  if name.truthy then
    match name with
    | .str s => if (findModel s g.models).isSome then return (some s, a, b) else .error .configValueError
    | _ => .error .configValueError
  else return (none, a, b)

/-- `read_enu_parameters`.  Models /repo/geec/crs.py:140-146. -/
def readEnuParameters (crs : View S) : Except PyErr (S × S × S) := do
  let lon ← (crs.at "longitude_origin").getNum
  let lat ← (crs.at "latitude_origin").getNum
  let alt ← (crs.at "altitude_origin").getNum
  return (lon, lat, alt)

/-- look-up of a member name -/
def findMember {α : Type} (k : String) : List (String × α) → Option α
  | [] => none
  | (k', r) :: rest => if k = k' then some r else findMember k rest

/-- `read_ref`.  Models /repo/geec/crs.py:149-161.  Simplification: `upper` on ASCII letters only. -/
def readRef (crs : View S) : Except PyErr CRSName := do
  let s ← (crs.at "ref").getOptStr "ellps"
  match findMember s.toUpper crsMembers with
  | some n => return n
  | none => .error .configValueError

/-- `read_vdatum`.  Models /repo/geec/crs.py:164-175. -/
def readVdatum (crs : View S) : Except PyErr VDatum := do
  let s ← (crs.at "vdatum").getOptStr "ellps"
  match findMember s.toUpper vdatumMembers with
  | some n => return n
  | none => .error .configValueError

/-- `CRS(...)` with its consistency check (`__post_init__`).  Models /repo/geec/crs.py:108-120.
`AttributeError` if an ENU system has no ENU parameters. -/
def mkCrs (g : Geodesy S) (name : CRSName) (ellps : Option (Ell S)) (enu : Option (Enu S)) (vdatum : VDatum) :
    Except PyErr (Crs S) :=
  if name = .ENU then
    match enu, ellps with
    | none, _ => .error .attributeError
    | some _, none => .error .attributeError
    | some e, some l => if g.ellEq e.ellps l then .ok ⟨name, ellps, enu, vdatum⟩ else .error .valueError
  else .ok ⟨name, ellps, enu, vdatum⟩

/-- `create_ellipsoid_crs`.  Models /repo/geec/crs.py:189-196. -/
def createEllipsoidCrs (g : Geodesy S) (crs : View S) : Except PyErr (Crs S) := do
  let (name, a, b) ← readEllipsoidParameters g crs
  let vd ← readVdatum crs
  let ell ← mkEllipsoid g name a b
  mkCrs g .ELLPS (some ell) none vd

/-- `create_local_enu_crs`.  Models /repo/geec/crs.py:199-213. -/
def createLocalEnuCrs (g : Geodesy S) (crs : View S) : Except PyErr (Crs S) := do
  let (name, a, b) ← readEllipsoidParameters g crs
  let (lon, lat, alt) ← readEnuParameters crs
  let vd ← readVdatum crs
  let ell ← mkEllipsoid g name a b
  mkCrs g .ENU (some ell) (some ⟨lon, lat, alt, ell⟩) vd

/-- `get_crs`.  Models /repo/geec/crs.py:179-186, 216-228. -/
def getCrs (g : Geodesy S) (crs : View S) : Except PyErr (Crs S) := do
  match ← readRef crs with
  | .CART => mkCrs g .CART none none .ELLPS
  | .ECEF => mkCrs g .ECEF none none .ELLPS
  | .ELLPS => createEllipsoidCrs g crs
  | .ENU => createLocalEnuCrs g crs

/-- The coordinates array: its rows and whether its dtype is an integer type.
Simplification: arrays have exactly three columns. -/
structure Coords (S : Type) where
  rows : List (V3 S)
  intDtype : Bool

/-- `wrap180` on one longitude -/
def wrapLon (x : S) : S := if (Arith.ofNat 180) <. x then x -. Arith.ofNat 360 else x

/-- `wrap180`.  Models /repo/geec/crs.py:232-237. -/
def wrap180 (c : Coords S) : Coords S :=
  { c with rows := c.rows.map (fun p => { p with x := wrapLon p.x }) }

/-- A transformation of points and of the (mutable) CRS object: the CRS is visible when it raises. -/
def CrsFn (S : Type) := Coords S → Crs S → Except PyErr (Coords S) × Crs S

/-- `VDATUMREF[vdatum](positions)` for one position.  Models /repo/geec/crs.py:246-255. -/
def geoidHeight (g : Geodesy S) (v : VDatum) (lat lon : S) : S :=
  match v with
  | .ELLPS => zero
  | v => g.geoid v lat lon

/-- `positions = [LatLon(lt, ln) …]`: the first exception, if any -/
def latLonErrs (g : Geodesy S) : List (V3 S) → Option PyErr
  | [] => none
  | p :: ps => match g.latLonErr p.y p.x with
    | some e => some e
    | none => latLonErrs g ps

/-- `ellipsoid_height`.  Models /repo/geec/crs.py:258-276.  Adding the (float) geoid heights in place to an integer
array raises numpy's `UFuncTypeError`, a `TypeError`; the integer 0 of `ellpsgeoid` is fine. -/
def ellipsoidHeight (g : Geodesy S) : CrsFn S := fun c crs =>
  match latLonErrs g c.rows with
  | some e => (.error e, crs)
  | none =>
    if c.intDtype && crs.vdatum ≠ .ELLPS then (.error .typeError, crs)
    else
      (.ok { c with rows := c.rows.map (fun p => { p with z := p.z +. geoidHeight g crs.vdatum p.y p.x }) },
       { crs with vdatum := .ELLPS })

/-- apply a library function to every row; the result is a float array -/
def mapRows (f : V3 S → Except PyErr (V3 S)) (c : Coords S) : Except PyErr (Coords S) := do
  return ⟨← c.rows.mapM f, false⟩

/-- `ellps_to_ecef`.  Models /repo/geec/crs.py:279-294. -/
def ellpsToEcef (g : Geodesy S) : CrsFn S := fun c crs =>
  match mapRows (g.geodetic2ecef crs.ellps) c with
  | .error e => (.error e, crs)
  | .ok c' => (.ok c', { crs with name := .ECEF, ellps := none, enu := none })

/-- `enu_to_ecef`.  Models /repo/geec/crs.py:297-319. -/
def enuToEcef (g : Geodesy S) : CrsFn S := fun c crs =>
  match crs.enu with
  | none => (.error .attributeError, crs)
  | some e =>
    match mapRows (g.enu2ecef crs.ellps e.lat0 e.lon0 e.alt0) c with
    | .error err => (.error err, crs)
    | .ok c' => (.ok c', { crs with name := .ECEF, ellps := none, enu := none })

/-- `_WGS84_ = Ellipsoid()`, with the axes of the external model table.  Models /repo/geec/crs.py:82.
(If the table had no "wgs84" the module could not be imported.) -/
def wgs84 (g : Geodesy S) : Ell S :=
  match findModel "wgs84" g.models with
  | some (model, a, b) => ⟨"wgs84", model, a, b⟩
  | none => ⟨"wgs84", "", zero, zero⟩

/-- `ecef_to_wgs84`.  Models /repo/geec/crs.py:322-345. -/
def ecefToWgs84 (g : Geodesy S) : CrsFn S := fun c crs =>
  match mapRows g.ecef2geodetic c with
  | .error e => (.error e, crs)
  | .ok c' => (.ok c', { crs with name := .ELLPS, ellps := some (wgs84 g), enu := none })

/-- sequencing `points, crs = f(points, crs)` -/
def CrsFn.then (f h : CrsFn S) : CrsFn S := fun c crs =>
  match f c crs with
  | (.error e, crs') => (.error e, crs')
  | (.ok c', crs') => h c' crs'

/-- `crs.ellps == _WGS84_` -/
def isWgs84 (g : Geodesy S) : Option (Ell S) → Bool
  | none => false
  | some e => g.ellEq e (wgs84 g)

/-- `ellps_to_wgs84`.  Models /repo/geec/crs.py:348-359. -/
def ellpsToWgs84 (g : Geodesy S) : CrsFn S := fun c crs =>
  if crs.enu.isNone && isWgs84 g crs.ellps then (.ok c, crs)
  else (ellpsToEcef g).then (ecefToWgs84 g) c crs

/-- `enu_to_wgs84`.  Models /repo/geec/crs.py:362-373. -/
def enuToWgs84 (g : Geodesy S) : CrsFn S := (enuToEcef g).then (ecefToWgs84 g)

/-- `ecef_to_enu`: `crs.ellps` is left as it is.  Models /repo/geec/crs.py:376-406. -/
def ecefToEnu (g : Geodesy S) (lon0 lat0 alt0 : S) : CrsFn S := fun c crs =>
  match mapRows (g.ecef2enu lat0 lon0 alt0) c with
  | .error e => (.error e, crs)
  | .ok c' => (.ok c', { crs with name := .ENU, enu := some ⟨lon0, lat0, alt0, wgs84 g⟩ })

/-- `wgs84_to_enu`: `crs.ellps` is left as it is.  Models /repo/geec/crs.py:409-440. -/
def wgs84ToEnu (g : Geodesy S) (lon0 lat0 alt0 : S) : CrsFn S := fun c crs =>
  match mapRows (g.geodetic2enu lat0 lon0 alt0) c with
  | .error e => (.error e, crs)
  | .ok c' => (.ok c', { crs with name := .ENU, enu := some ⟨lon0, lat0, alt0, wgs84 g⟩ })

end Geec
