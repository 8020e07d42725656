import Verif.Model.Dataset
import Verif.Model.Hull
import Verif.Model.Station
/-
Model of /repo/geec/cli.py (`run`), config.py (`show`) and api.py (`write_file`).
-/
namespace Geec
open Arith
variable {S : Type} [Arith S]

/-- The external hull computation: `ConvexHull(points)` (may raise) and `_in_hull`. -/
structure HullLib (S : Type) where
  convexHull : List (V3 S) → Except PyErr (Hull S)
  inHull : List (V3 S) → V3 S → Bool

/-- the parameters of one mass that `show` prints (all must be present), /repo/geec/config.py:19-38 -/
def massShown : List (List String) :=
  [["density"], ["gravity_constant"], ["points"], ["file_path"], ["crs", "ref"], ["crs", "name"],
   ["crs", "semimajor_axis"], ["crs", "semiminor_axis"], ["crs", "longitude_origin"], ["crs", "latitude_origin"],
   ["crs", "altitude_origin"], ["crs", "vdatum"]]

/-- the parameters of the observers that `show` prints, /repo/geec/config.py:40-60 -/
def observersShown : List (List String) :=
  [["points"], ["file_path"], ["grid", "xstart_xend_xstep"], ["grid", "ystart_yend_ystep"],
   ["grid", "zstart_zend_zstep"], ["crs", "ref"], ["crs", "name"], ["crs", "semimajor_axis"],
   ["crs", "semiminor_axis"], ["crs", "longitude_origin"], ["crs", "latitude_origin"], ["crs", "altitude_origin"]]

/-- a view through a list of names -/
def View.path (w : View S) (p : List String) : View S := p.foldl View.at w

/-- formatting the views of a list of parameters: raises when one is missing or not reachable -/
def showAll (w : View S) : List (List String) → Except PyErr Unit
  | [] => .ok ()
  | p :: ps => match (w.path p).first with
    | .error e => .error e
    | .ok _ => showAll w ps

/-- `geec.config.show`: it formats every parameter, which raises if one is missing.
Models /repo/geec/config.py:15-60. -/
def configShow (cfg : View S) : Except PyErr Unit := do
  let ms ← (cfg.at "masses").iter
  ms.forM (fun m => showAll m massShown)
  showAll (cfg.at "observers") observersShown

/-- `Polyhedron(coords)` including the external hull.  Models /repo/geec/polyhedron.py:798-816. -/
def polyhedronOf (lib : HullLib S) (coords : List (V3 S)) : Except PyErr (Poly S) := do
  let h ← lib.convexHull coords
  mkPoly h (lib.inHull coords)

/-- `add_gravity(row)`: a new station, all bodies, the first mass's density and constant; the row of results.
Models /repo/geec/cli.py:79-86. -/
def addGravity (ids : List Nat) (density Gc : S) (gradient : Bool) (row : V3 S) (w : World S) :
    Except PyErr (List S) × World S :=
  match computeGravity (.list (ids.map .poly)) density Gc gradient (Station.new row) w with
  | (.error e, _, w') => (.error e, w')
  | (.ok (), s, w') =>
    (.ok [s.G.x, s.G.y, s.G.z, s.T.r0.x, s.T.r0.y, s.T.r0.z, s.T.r1.y, s.T.r1.z, s.T.r2.z], w')

/-- `np.apply_along_axis(add_gravity, axis=1, arr=obs_points)` on the rows, in order. -/
def applyRows (ids : List Nat) (density Gc : S) (gradient : Bool) :
    List (V3 S) → World S → Except PyErr (List (List S)) × World S
  | [], w => (.ok [], w)
  | row :: rows, w =>
    match addGravity ids density Gc gradient row w with
    | (.error e, w') => (.error e, w')
    | (.ok r, w') =>
      match applyRows ids density Gc gradient rows w' with
      | (.error e, w'') => (.error e, w'')
      | (.ok rs, w'') => (.ok (r :: rs), w'')

/-- The table written to the CSV file: two header lines (name, unit) and the rows. -/
structure Table (S : Type) where
  columns : List (String × String)
  rows : List (List S)

/-- names and units of the result columns, /repo/geec/cli.py:89-92 -/
def fieldName : List String := ["Gx", "Gy", "Gz", "txx", "txy", "txz", "tyy", "tyz", "tzz"]
def fieldUnit : List String := ["(mGal)", "(mGal)", "(mGal)", "(E)", "(E)", "(E)", "(E)", "(E)", "(E)"]

/-- `masses[0]`, /repo/geec/cli.py:66-67 -/
def firstMass : List (Mass S) → Except PyErr (Mass S)
  | [] => .error .indexError
  | m :: _ => .ok m

/-- the dataset after a transformation that returns -/
def outcome : Except PyErr Unit × Dataset S → Except PyErr (Dataset S)
  | (.ok (), d) => .ok d
  | (.error e, _) => .error e

/-- The computation of `geec run` from the loaded configuration to the data frame.
Models /repo/geec/cli.py:57-99 in the order of the statements.  `np.apply_along_axis` on no row raises `ValueError`. -/
def runTable (g : Geodesy S) (o : Outside S) (lib : HullLib S) (cfg : View S) (gradient : Bool) :
    Except PyErr (Table S) := do
  configShow cfg
  let masses ← getMasses g o cfg
  let masses ← massesMap (fun d => (.ok (), d.toLon180)) masses
  let masses ← massesMap (Dataset.toEllipsoidHeight g) masses
  let masses ← massesMap (Dataset.toEcef g) masses
  let polys ← masses.mapM (fun m => polyhedronOf lib m.dataset.coords.rows)
  let first ← firstMass masses
  let observer ← getObserver g o cfg
  let obsDs ← outcome (Dataset.toWgs84 g observer.dataset)
  let pts := obsDs.coords.rows
  if pts.isEmpty then Except.error PyErr.valueError
  else
    let w : World S := ⟨fun k => polys.getD k ⟨[], []⟩, fun _ => Mem.fresh⟩
    let rs ← (applyRows (List.range polys.length) first.density first.gravityConstant gradient pts w).1
    return {
      columns := (observer.coordsName ++ fieldName).zip (observer.coordsUnit ++ fieldUnit)
      rows := (pts.zip rs).map (fun pr => [pr.1.x, pr.1.y, pr.1.z] ++ pr.2) }

/-- last index of a character in a list -/
def lastIndex (c : Char) (l : List Char) : Option Nat :=
  (l.reverse.findIdx? (· = c)).map (fun i => l.length - 1 - i)

/-- the stem of a file name: the name without the suffix that pathlib recognises (a dot that is neither first nor
last).  Models `PurePath.suffix`/`with_suffix` of CPython as used at /repo/geec/api.py:45. -/
def stem (name : List Char) : List Char :=
  match lastIndex '.' name with
  | some i => if 0 < i ∧ i < name.length - 1 then name.take i else name
  | none => name

/-- file name given to `to_csv`: `file_path.with_suffix(".csv")`.  Models /repo/geec/api.py:45. -/
def csvName (name : List Char) : List Char := stem name ++ ".csv".toList

/-- A file system: the content of the CSV files by directory and name. -/
abbrev Files (S : Type) := List Char → List Char → Option (Table S)

/-- `write_file(df, output)` for the output path `dir/name` (after `expanduser().resolve()`).
Models /repo/geec/api.py:39-48.  `output` empty writes nothing.  Simplifications: writing succeeds; the text of the CSV
file is represented by its table. -/
def writeFile (t : Table S) (dir name : List Char) (fs : Files S) : Files S :=
  if dir.isEmpty && name.isEmpty then fs
  else fun d n => if d = dir ∧ n = csvName name then some t else fs d n

/-- `geec run output`.  Models /repo/geec/cli.py:31-105. -/
def run (g : Geodesy S) (o : Outside S) (lib : HullLib S) (sources : List (Val S)) (gradient : Bool)
    (dir name : List Char) (fs : Files S) : Except PyErr Unit × Files S :=
  match runTable g o lib (View.root sources) gradient with
  | .error e => (.error e, fs)
  | .ok t => (.ok (), writeFile t dir name fs)

end Geec
