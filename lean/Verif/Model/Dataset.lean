import Verif.Model.Crs
/-
Model of /repo/geec/dataset.py, observer.py and mass.py.
-/
namespace Geec
open Arith
variable {S : Type} [Arith S]

/-- A `Dataset` object.  Models /repo/geec/dataset.py:23-26. -/
structure Dataset (S : Type) where
  coords : Coords S
  crs : Crs S

/-- `Dataset.to_lon180`.  Models /repo/geec/dataset.py:40-53. -/
def Dataset.toLon180 (d : Dataset S) : Dataset S :=
  match d.crs.name with
  | .ENU | .ELLPS => { d with coords := wrap180 d.coords }
  | .ECEF | .CART => d

/-- `self.coords, self.crs = f(self.coords, self.crs)`: the coordinates are assigned only if `f` returns; the CRS
object is shared, so what `f` did to it remains when it raises. -/
def Dataset.apply (f : CrsFn S) (d : Dataset S) : Except PyErr Unit × Dataset S :=
  match f d.coords d.crs with
  | (.error e, crs) => (.error e, { d with crs := crs })
  | (.ok c, crs) => (.ok (), ⟨c, crs⟩)

/-- `lambda x, y: (x, y)` -/
def crsId : CrsFn S := fun c crs => (.ok c, crs)

/-- `Dataset.to_ellipsoid_height`.  Models /repo/geec/dataset.py:55-68. -/
def Dataset.toEllipsoidHeight (g : Geodesy S) (d : Dataset S) : Except PyErr Unit × Dataset S :=
  match d.crs.name with
  | .ENU | .ELLPS => d.apply (ellipsoidHeight g)
  | .ECEF | .CART => d.apply crsId

/-- `Dataset.to_ecef`.  Models /repo/geec/dataset.py:70-83. -/
def Dataset.toEcef (g : Geodesy S) (d : Dataset S) : Except PyErr Unit × Dataset S :=
  match d.crs.name with
  | .ENU => d.apply (enuToEcef g)
  | .ELLPS => d.apply (ellpsToEcef g)
  | .ECEF | .CART => d.apply crsId

/-- `Dataset.to_wgs84`.  Models /repo/geec/dataset.py:85-98. -/
def Dataset.toWgs84 (g : Geodesy S) (d : Dataset S) : Except PyErr Unit × Dataset S :=
  match d.crs.name with
  | .ENU => d.apply (enuToWgs84 g)
  | .ELLPS => d.apply (ellpsToWgs84 g)
  | .ECEF => d.apply (ecefToWgs84 g)
  | .CART => d.apply crsId

/-- `Dataset.to_enu`.  Models /repo/geec/dataset.py:100-117. -/
def Dataset.toEnu (g : Geodesy S) (lon0 lat0 alt0 : S) (d : Dataset S) : Except PyErr Unit × Dataset S :=
  match d.crs.name with
  | .ENU => d.apply crsId
  | .ELLPS => d.apply (wgs84ToEnu g lon0 lat0 alt0)
  | .ECEF => d.apply (ecefToEnu g lon0 lat0 alt0)
  | .CART => d.apply crsId

/-- The rest of the outside world: files, `math.ceil`. -/
structure Outside (S : Type) where
  /-- `Path(p).is_file()` -/
  isFile : String → Bool
  /-- `pd.read_csv(p, sep=",", header=None).values` -/
  readCsv : String → Except PyErr (Coords S)
  /-- `math.ceil` -/
  ceil : S → Int

/-- one point of a `points` list -/
def pointOf (v : Val S) : Except PyErr (V3 S × Bool) :=
  match v with
  | .list [.num i x, .num j y, .num k z] => .ok (⟨x, y, z⟩, i && j && k)
  | _ => .error .valueError

/-- `np.array(coords)`.  Simplification: anything but a list of lists of three numbers is reported as `ValueError`. -/
def arrayOf (v : Val S) : Except PyErr (Coords S) :=
  match v with
  | .list l => do
    let ps ← l.mapM pointOf
    return ⟨ps.map (·.1), ps.all (·.2)⟩
  | _ => .error .valueError

/-- `start, end, step = view.get(list)`: `ValueError` unless there are three items.  Models /repo/geec/dataset.py:136-138. -/
def axis3 (w : View S) : Except PyErr (List (Val S)) := do
  let l ← w.getList
  match l with
  | [a, b, c] => return [a, b, c]
  | _ => .error .valueError

/-- one axis of the grid: start, stop, step and whether all are `int`.  numpy takes a missing start as 0 and a missing step as 1; for anything else that is no number it
catches the `TypeError` of its arithmetic and then fails on the tuple of slices with an `AttributeError`.  Models numpy 1.24 `nd_grid.__getitem__` as used at
/repo/geec/dataset.py:140.  Simplification: booleans, which Python computes with, are not taken for numbers. -/
def axisNums : List (Val S) → Except PyErr (S × S × S × Bool)
  | [.num i a, .num j b, .num k c] => .ok (a, b, c, i && j && k)
  | [.null, .num j b, .num k c] => .ok (zero, b, c, j && k)
  | [.num i a, .num j b, .null] => .ok (a, b, one, i && j)
  | [.null, .num j b, .null] => .ok (zero, b, one, j)
  | _ => .error .attributeError

/-- numpy divides by the steps of all axes before it looks at the numbers of values: `ZeroDivisionError`.  Models numpy 1.24 `nd_grid.__getitem__` as used at /repo/geec/dataset.py:140. -/
def stepOk (step : S) : Except PyErr Unit := if step ==. zero then .error .zeroDivisionError else .ok ()

/-- number of values along one axis of `np.mgrid[start:stop:step]`; a zero step raises `ZeroDivisionError`, a negative
count `ValueError`.  Models numpy 1.24 `nd_grid.__getitem__` as used at /repo/geec/dataset.py:140. -/
def axisCount (ceil : S → Int) (start stop step : S) : Except PyErr Nat :=
  if step ==. zero then .error .zeroDivisionError
  else
    let n := ceil ((stop -. start) /. step)
    if n < 0 then .error .valueError else .ok n.toNat

/-- values along one axis: `k * step + start` -/
def axisValues (start step : S) (n : Nat) : List S :=
  (List.range n).map (fun k => Arith.ofNat k *. step +. start)

/-- `np.transpose(g.reshape(len(g), -1))` for `g = np.mgrid[...]`: all combinations, first axis slowest.
Models /repo/geec/dataset.py:140-141. -/
def gridPoints (xs ys zs : List S) : List (V3 S) :=
  xs.flatMap fun x => ys.flatMap fun y => zs.map fun z => ⟨x, y, z⟩

/-- the grid branch of `_read_coords`.  Models /repo/geec/dataset.py:133-141. -/
def readGrid (o : Outside S) (grid : View S) : Except PyErr (Coords S) := do
  let lx ← axis3 (grid.at "xstart_xend_xstep")
  let ly ← axis3 (grid.at "ystart_yend_ystep")
  let lz ← axis3 (grid.at "zstart_zend_zstep")
  let (xa, xb, xs, xi) ← axisNums lx
  stepOk xs
  let (ya, yb, ys, yi) ← axisNums ly
  stepOk ys
  let (za, zb, zs, zi) ← axisNums lz
  stepOk zs
  let nx ← axisCount o.ceil xa xb xs
  let ny ← axisCount o.ceil ya yb ys
  let nz ← axisCount o.ceil za zb zs
  return ⟨gridPoints (axisValues xa xs nx) (axisValues ya ys ny) (axisValues za zs nz), xi && yi && zi⟩

/-- `_read_coords`.  Models /repo/geec/dataset.py:120-145. -/
def readCoords (o : Outside S) (cfg : View S) : Except PyErr (Coords S) := do
  if ← (cfg.at "points").truthy then
    arrayOf (← (cfg.at "points").first)
  else if ← (cfg.at "file_path").truthy then
    let path ← (cfg.at "file_path").getStr
    if o.isFile path then o.readCsv path else .error .fileNotFoundError
  else if ← (cfg.at "grid").truthy then
    readGrid o (cfg.at "grid")
  else .error .typeError

/-- `get_dataset`.  Models /repo/geec/dataset.py:148-152. -/
def getDataset (g : Geodesy S) (o : Outside S) (cfg : View S) : Except PyErr (Dataset S) := do
  let coords ← readCoords o cfg
  let crs ← getCrs g (cfg.at "crs")
  return ⟨coords, crs⟩

/-- An `Observer` object.  Models /repo/geec/observer.py:32-41. -/
structure Observer (S : Type) where
  dataset : Dataset S
  coordsName : List String
  coordsUnit : List String

/-- `Observer.__post_init__`.  Models /repo/geec/observer.py:16-29, 38-41. -/
def mkObserver (d : Dataset S) : Observer S :=
  match d.crs.name with
  | .CART => ⟨d, ["x_mes", "y_mes", "z_mes"], ["(m)", "(m)", "(m)"]⟩
  | .ELLPS | .ENU | .ECEF =>
    ⟨d, ["lon_mes", "lat_mes", "alt_mes"], ["(degree_east)", "(degree_north)", "(m)"]⟩

/-- `get_observer`.  Models /repo/geec/observer.py:64-68. -/
def getObserver (g : Geodesy S) (o : Outside S) (cfg : View S) : Except PyErr (Observer S) := do
  return mkObserver (← getDataset g o (cfg.at "observers"))

/-- A `Mass` object.  Models /repo/geec/mass.py:16-20. -/
structure Mass (S : Type) where
  density : S
  gravityConstant : S
  dataset : Dataset S

/-- one iteration of `get_masses`, /repo/geec/mass.py:46-51 -/
def getMass (g : Geodesy S) (o : Outside S) (cfg : View S) : Except PyErr (Mass S) := do
  let dataset ← getDataset g o cfg
  let density ← (cfg.at "density").getNum
  let gc ← (cfg.at "gravity_constant").getNum
  return ⟨density, gc, dataset⟩

/-- `get_masses`.  Models /repo/geec/mass.py:43-53. -/
def getMasses (g : Geodesy S) (o : Outside S) (cfg : View S) : Except PyErr (List (Mass S)) := do
  (← (cfg.at "masses").iter).mapM (getMass g o)

/-- one body of the loops `to_lon180`, `to_ellipsoid_height`, `to_ecef` over the masses; only the outcome matters to
the caller because an exception ends `geec run`.  Models /repo/geec/mass.py:56-68. -/
def massesMap (f : Dataset S → Except PyErr Unit × Dataset S) (ms : List (Mass S)) : Except PyErr (List (Mass S)) :=
  ms.mapM fun m => match f m.dataset with
    | (.ok (), d) => .ok { m with dataset := d }
    | (.error e, _) => .error e

end Geec
