import Verif.Model.Memory
/-
Model of /repo/geec/station.py.
-/
namespace Geec
open Arith
variable {S : Type} [Arith S]

/-- A `Station` object.  Models /repo/geec/station.py:42-44. -/
structure Station (S : Type) where
  coord : V3 S
  G : V3 S
  T : M3 S

/-- `Station.__init__` on an ndarray.  Models /repo/geec/station.py:31-44. -/
def Station.new (coord : V3 S) : Station S := ⟨coord, V3.zeros, M3.zeros⟩

/-- An argument of `compute_gravity`: polyhedra are object references (indices of a store), so the same object
may occur several times. -/
inductive PyObj
  | poly (id : Nat)
  | list (items : List PyObj)
  | tuple (items : List PyObj)
  | other

/-- The store of polyhedron objects: their immutable part and their mutable state. -/
structure World (S : Type) where
  poly : Nat → Poly S
  mem : Nat → Mem S

/-- `poly.get_gravity(...)` on the object `id`. -/
def World.getGravity (w : World S) (id : Nat) (obs : V3 S) (density Gc : S) (gradient : Bool) :
    Except PyErr (V3 S × M3 S) × World S :=
  let r := Geec.getGravity (w.poly id) obs density Gc gradient (w.mem id)
  (r.1, { w with mem := fun k => if k = id then r.2 else w.mem k })

/-- The loop of `compute_gravity`.  Models /repo/geec/station.py:81-84: contributions of the bodies before a
raising one have already been added. -/
def stationLoop (density Gc : S) (gradient : Bool) :
    List Nat → Station S → World S → Except PyErr Unit × Station S × World S
  | [], s, w => (.ok (), s, w)
  | id :: ids, s, w =>
    match w.getGravity id s.coord density Gc gradient with
    | (.error e, w') => (.error e, s, w')
    | (.ok (G, T), w') =>
      stationLoop density Gc gradient ids { s with G := s.G.add G, T := s.T.add T } w'

/-- `isinstance(x, Polyhedron)` for every element: the list of references, if all are polyhedra. -/
def polyIds : List PyObj → Option (List Nat)
  | [] => some []
  | .poly id :: xs => (polyIds xs).map (id :: ·)
  | _ :: _ => none

/-- `Station.compute_gravity`.  Models /repo/geec/station.py:55-84. -/
def computeGravity (arg : PyObj) (density Gc : S) (gradient : Bool) (s : Station S) (w : World S) :
    Except PyErr Unit × Station S × World S :=
  let items := match arg with
    | .list l => l
    | x => [x]
  match polyIds items with
  | none => (.error .typeError, s, w)
  | some ids => stationLoop density Gc gradient ids s w

end Geec
