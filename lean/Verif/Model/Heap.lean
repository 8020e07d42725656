import Verif.Spec.Geo
/-
Datasets as Python objects: the coordinates are a reference to a numpy array, the CRS is a reference to a mutable `CRS` object, and either
can be shared with another dataset or with the caller.  (Model/Dataset.lean describes what happens to the values of one dataset.)
Models /repo/geec/dataset.py, the methods of mass.py and observer.py, and the transformations of crs.py statement by statement.
-/
namespace Geec
open Arith
variable {S : Type} [Arith S]

/-- Arrays and `CRS` objects by identity; `next` is an identity that no array has yet. -/
structure Heap (S : Type) where
  arr : Nat → Coords S
  crs : Nat → Crs S
  next : Nat

/-- `np.array(...)`: a new array -/
def Heap.alloc (h : Heap S) (c : Coords S) : Nat × Heap S :=
  (h.next, { h with arr := fun i => if i = h.next then c else h.arr i, next := h.next + 1 })

/-- assignment into an existing array -/
def Heap.setArr (h : Heap S) (a : Nat) (c : Coords S) : Heap S := { h with arr := fun i => if i = a then c else h.arr i }

/-- assignment to attributes of a `CRS` object -/
def Heap.setCrs (h : Heap S) (k : Nat) (c : Crs S) : Heap S := { h with crs := fun i => if i = k then c else h.crs i }

/-- A transformation on references: points and CRS in, points out (the CRS that is returned is the object that came in). -/
def HeapFn (S : Type) := Nat → Nat → Heap S → Except PyErr Nat × Heap S

/-- `lambda x: x`, `lambda x, y: (x, y)`.  Models /repo/geec/dataset.py:49-50, 64-65, 79-80, 94, 113. -/
def idH : HeapFn S := fun a _ h => (.ok a, h)

/-- `wrap180`: assigns into the first column and returns the array it was given.  Models /repo/geec/crs.py:232-237. -/
def wrap180H : HeapFn S := fun a _ h => (.ok a, h.setArr a (wrap180 (h.arr a)))

/-- `ellipsoid_height`: adds in place.  Models /repo/geec/crs.py:258-276. -/
def ellipsoidHeightH (g : Geodesy S) : HeapFn S := fun a k h =>
  match latLonErrs g (h.arr a).rows with
  | some e => (.error e, h)
  | none =>
    if (h.arr a).intDtype && (h.crs k).vdatum ≠ .ELLPS then (.error .typeError, h)
    else
      let c : Coords S := { h.arr a with rows := (h.arr a).rows.map (fun p => { p with z := p.z +. geoidHeight g (h.crs k).vdatum p.y p.x }) }
      let h := h.setArr a c
      (.ok a, h.setCrs k { h.crs k with vdatum := .ELLPS })

/-- `points = np.array([...]).T` followed by assignments to the CRS -/
def convertH (f : Crs S → V3 S → Except PyErr (V3 S)) (upd : Crs S → Crs S) : HeapFn S := fun a k h =>
  match mapRows (f (h.crs k)) (h.arr a) with
  | .error e => (.error e, h)
  | .ok c => let r := h.alloc c; (.ok r.1, r.2.setCrs k (upd (r.2.crs k)))

/-- `ellps_to_ecef`.  Models /repo/geec/crs.py:279-294. -/
def ellpsToEcefH (g : Geodesy S) : HeapFn S :=
  convertH (fun crs => g.geodetic2ecef crs.ellps) (fun crs => { crs with name := .ECEF, ellps := none, enu := none })

/-- `enu_to_ecef`.  Models /repo/geec/crs.py:297-319. -/
def enuToEcefH (g : Geodesy S) : HeapFn S := fun a k h =>
  match (h.crs k).enu with
  | none => (.error .attributeError, h)
  | some e => convertH (fun crs => g.enu2ecef crs.ellps e.lat0 e.lon0 e.alt0) (fun crs => { crs with name := .ECEF, ellps := none, enu := none }) a k h

/-- `ecef_to_wgs84`.  Models /repo/geec/crs.py:322-345. -/
def ecefToWgs84H (g : Geodesy S) : HeapFn S :=
  convertH (fun _ => g.ecef2geodetic) (fun crs => { crs with name := .ELLPS, ellps := some (wgs84 g), enu := none })

/-- `points, crs = f(points, crs)` twice -/
def HeapFn.then (f₁ f₂ : HeapFn S) : HeapFn S := fun a k h =>
  match f₁ a k h with
  | (.error e, h') => (.error e, h')
  | (.ok a', h') => f₂ a' k h'

/-- `ellps_to_wgs84`.  Models /repo/geec/crs.py:348-359. -/
def ellpsToWgs84H (g : Geodesy S) : HeapFn S := fun a k h =>
  if (h.crs k).enu.isNone && isWgs84 g (h.crs k).ellps then (.ok a, h)
  else (ellpsToEcefH g).then (ecefToWgs84H g) a k h

/-- `enu_to_wgs84`.  Models /repo/geec/crs.py:362-373. -/
def enuToWgs84H (g : Geodesy S) : HeapFn S := (enuToEcefH g).then (ecefToWgs84H g)

/-- `ecef_to_enu`.  Models /repo/geec/crs.py:376-406. -/
def ecefToEnuH (g : Geodesy S) (lon0 lat0 alt0 : S) : HeapFn S :=
  convertH (fun _ => g.ecef2enu lat0 lon0 alt0) (fun crs => { crs with name := .ENU, enu := some ⟨lon0, lat0, alt0, wgs84 g⟩ })

/-- `wgs84_to_enu`.  Models /repo/geec/crs.py:409-440. -/
def wgs84ToEnuH (g : Geodesy S) (lon0 lat0 alt0 : S) : HeapFn S :=
  convertH (fun _ => g.geodetic2enu lat0 lon0 alt0) (fun crs => { crs with name := .ENU, enu := some ⟨lon0, lat0, alt0, wgs84 g⟩ })

/-- The dictionaries by which the methods of `Dataset` (named by `Op`, as are those of `Mass` and `Observer`) choose a function.
Models /repo/geec/dataset.py:46-51, 61-66, 76-81, 91-96 and 110-115. -/
def Op.fn (g : Geodesy S) : Op S → CRSName → HeapFn S
  | .lon180, .ENU => wrap180H
  | .lon180, .ELLPS => wrap180H
  | .lon180, .ECEF => idH
  | .lon180, .CART => idH
  | .height, .ENU => ellipsoidHeightH g
  | .height, .ELLPS => ellipsoidHeightH g
  | .height, .ECEF => idH
  | .height, .CART => idH
  | .ecef, .ENU => enuToEcefH g
  | .ecef, .ELLPS => ellpsToEcefH g
  | .ecef, .ECEF => idH
  | .ecef, .CART => idH
  | .wgs84, .ENU => enuToWgs84H g
  | .wgs84, .ELLPS => ellpsToWgs84H g
  | .wgs84, .ECEF => ecefToWgs84H g
  | .wgs84, .CART => idH
  | .enu _ _ _, .ENU => idH
  | .enu lon0 lat0 alt0, .ELLPS => wgs84ToEnuH g lon0 lat0 alt0
  | .enu lon0 lat0 alt0, .ECEF => ecefToEnuH g lon0 lat0 alt0
  | .enu _ _ _, .CART => idH

/-- A `Dataset` object: what its attributes `coords` and `crs` refer to.  Models /repo/geec/dataset.py:23-26. -/
structure DsObj where
  arr : Nat
  crs : Nat

/-- Dataset objects by identity (`0 .. size-1`), and the heap. -/
structure DsWorld (S : Type) where
  size : Nat
  obj : Nat → DsObj
  heap : Heap S

/-- A method call on dataset `n`: `self.coords(, self.crs) = TABLE[self.crs.name](self.coords(, self.crs))`.
Models /repo/geec/dataset.py:53, 68, 83, 98, 117. -/
def DsWorld.call (g : Geodesy S) (w : DsWorld S) (n : Nat) (op : Op S) : Except PyErr Unit × DsWorld S :=
  let o := w.obj n
  match op.fn g (w.heap.crs o.crs).name o.arr o.crs w.heap with
  | (.error e, h) => (.error e, { w with heap := h })
  | (.ok a, h) => (.ok (), ⟨w.size, fun m => if m = n then ⟨a, o.crs⟩ else w.obj m, h⟩)

/-- Any program of method calls on any datasets; a caller may catch exceptions and carry on. -/
def DsWorld.runAll (g : Geodesy S) : List (Nat × Op S) → DsWorld S → DsWorld S
  | [], w => w
  | (n, op) :: rest, w => DsWorld.runAll g rest (w.call g n op).2

/-- The functions `to_lon180`, `to_ellipsoid_height`, `to_ecef`, `to_wgs84` and `to_enu` of mass.py: a comprehension that calls the method on the
dataset of each mass; an exception ends it.  Models /repo/geec/mass.py:56-78. -/
def DsWorld.loop (g : Geodesy S) (op : Op S) : List Nat → DsWorld S → Except PyErr Unit × DsWorld S
  | [], w => (.ok (), w)
  | n :: ns, w =>
    match w.call g n op with
    | (.error e, w') => (.error e, w')
    | (.ok (), w') => DsWorld.loop g op ns w'

/-- What a dataset holds: the contents of its array and the attributes of its CRS. -/
def DsWorld.value (w : DsWorld S) (n : Nat) : Dataset S := ⟨w.heap.arr (w.obj n).arr, w.heap.crs (w.obj n).crs⟩

/-- properties `Dataset.lon`, `lat`, `alt`.  Models /repo/geec/dataset.py:28-38. -/
def Dataset.lon (d : Dataset S) : List S := d.coords.rows.map (·.x)
def Dataset.lat (d : Dataset S) : List S := d.coords.rows.map (·.y)
def Dataset.alt (d : Dataset S) : List S := d.coords.rows.map (·.z)

/-- a `Mass` object whose dataset is an object.  Models /repo/geec/mass.py:16-20. -/
structure MassObj (S : Type) where
  density : S
  gravityConstant : S
  dataset : Nat

/-- The methods of `Mass`: they call the method of the dataset.  Models /repo/geec/mass.py:22-40. -/
def MassObj.call (g : Geodesy S) (m : MassObj S) (op : Op S) (w : DsWorld S) : Except PyErr Unit × MassObj S × DsWorld S :=
  let r := w.call g m.dataset op
  (r.1, m, r.2)

/-- an `Observer` object whose dataset is an object.  Models /repo/geec/observer.py:32-36. -/
structure ObserverObj where
  dataset : Nat
  coordsName : List String
  coordsUnit : List String

/-- `Observer(dataset=…)` with `__post_init__`.  Models /repo/geec/observer.py:16-29, 38-41. -/
def newObserver (w : DsWorld S) (n : Nat) : ObserverObj :=
  let o := mkObserver (w.value n)
  ⟨n, o.coordsName, o.coordsUnit⟩

/-- The methods of `Observer`: they call the method of the dataset and nothing else.  Models /repo/geec/observer.py:43-61. -/
def ObserverObj.call (g : Geodesy S) (ob : ObserverObj) (op : Op S) (w : DsWorld S) : Except PyErr Unit × ObserverObj × DsWorld S :=
  let r := w.call g ob.dataset op
  (r.1, ob, r.2)

/-- a sequence of method calls on an observer; exceptions are caught and the caller carries on -/
def ObserverObj.runAll (g : Geodesy S) : List (Op S) → ObserverObj → DsWorld S → ObserverObj × DsWorld S
  | [], ob, w => (ob, w)
  | op :: ops, ob, w => ObserverObj.runAll g ops (ob.call g op w).2.1 (ob.call g op w).2.2

end Geec
