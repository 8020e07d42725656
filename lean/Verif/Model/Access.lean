import Verif.Model.Methods
import Verif.Model.Station
/-
Accessors of /repo/geec/polyhedron.py:Edge, and what printing an object shows.
-/
namespace Geec
open Arith
variable {S : Type} [Arith S]

/-! ### accessors -/

/-- change edge `j` of face `i` -/
def Poly.setEdge (p : Poly S) (i j : Nat) (f : Edge S → Edge S) : Poly S :=
  { p with faces := p.faces.modify i fun fc => { fc with edges := fc.edges.modify j f } }

/-- The edge `p.faces[i].edges[j]`, if there is one. -/
def Poly.edge? (p : Poly S) (i j : Nat) : Option (Edge S) := (p.faces[i]?).bind fun f => f.edges[j]?

/-- Calls on a polyhedron, its faces and edges, including the accessors of `Edge`: the methods of `Method`, and
`set_twin`, `_set_pqr`, `_set_dpqr` on edge `j` of face `i`.  The argument of `set_twin` is an edge of the same polyhedron, or (`none`) something that
is not an `Edge`; the argument of the others is an array object (a reference), or (`none`) something that is not an array.
Simplifications: edges of other polyhedra, and arrays of other shapes, are not passed.
Models the entry points /repo/geec/polyhedron.py:102-124. -/
inductive Access (S : Type)
  | method (x : Method S)
  | setTwin (i j : Nat) (twin : Option (Nat × Nat))
  | setPqr (i j : Nat) (a : Option Nat)
  | setDpqr (i j : Nat) (a : Option Nat)

/-- `Edge.set_twin`.  Models /repo/geec/polyhedron.py:102-111. -/
def Edge.setTwin (i j : Nat) (twin : Option (Nat × Nat)) (p : Poly S) : Except PyErr Unit × Poly S :=
  match twin with
  | some t => (.ok (), p.setEdge i j fun e => { e with twin := some t })
  | none => (.error .typeError, p)

/-- `Edge._set_pqr`: the edge keeps a reference to the array that it is given.  Models /repo/geec/polyhedron.py:113-118. -/
def Edge.setPqr (i j : Nat) (a : Option Nat) : Act S Unit := fun m =>
  match a with
  | some l => (.ok (), m.setEdge i j { (m.edge i j) with pqr := some l })
  | none => (.error .typeError, m)

/-- `Edge._set_dpqr`.  Models /repo/geec/polyhedron.py:120-124. -/
def Edge.setDpqr (i j : Nat) (a : Option Nat) : Act S Unit := fun m =>
  match a with
  | some l => (.ok (), m.setEdge i j { (m.edge i j) with dpqr := some l })
  | none => (.error .typeError, m)

/-- The property `Edge.pqr`: the array, or `None`.  Models /repo/geec/polyhedron.py:94-96. -/
def Edge.getPqr (i j : Nat) (m : Mem S) : Option (V3 S) := (m.edge i j).pqr.map m.va

/-- The property `Edge.dpqr`.  Models /repo/geec/polyhedron.py:98-100. -/
def Edge.getDpqr (i j : Nat) (m : Mem S) : Option (M3 S) := (m.edge i j).dpqr.map m.ma

/-- One call.  `p.faces[i].edges[j]` raises `IndexError` if there is no such edge; an argument of `set_twin` that is no edge of `p` counts as not an
edge.  Models /repo/geec/polyhedron.py:102-124. -/
def Access.run (x : Access S) (st : Poly S × Mem S) : Answer S × Poly S × Mem S :=
  match x with
  | .method x => let r := x.run st.1 st.2; (r.1, st.1, r.2)
  | .setTwin i j twin =>
    match st.1.edge? i j with
    | none => (.error .indexError, st)
    | some _ =>
      let r := Edge.setTwin i j (twin.bind fun t => (st.1.edge? t.1 t.2).map fun _ => t) st.1
      (r.1.map fun _ => none, r.2, st.2)
  | .setPqr i j a =>
    match st.1.edge? i j with
    | none => (.error .indexError, st)
    | some _ => let r := Edge.setPqr i j a st.2; (r.1.map fun _ => none, st.1, r.2)
  | .setDpqr i j a =>
    match st.1.edge? i j with
    | none => (.error .indexError, st)
    | some _ => let r := Edge.setDpqr i j a st.2; (r.1.map fun _ => none, st.1, r.2)

/-- Any sequence of calls, each of which may raise; the caller carries on. -/
def runAccesses : List (Access S) → Poly S × Mem S → Poly S × Mem S
  | [], st => st
  | x :: xs, st => runAccesses xs (x.run st).2

/-! ### printing -/

/-- What rich shows of a value: numbers and arrays, tuples and lists, and objects with a class name and named fields. -/
inductive Shown (S : Type)
  | number (x : S)
  | array (v : V3 S)
  | arrays (vs : List (V3 S))
  | indices (l : List Nat)
  | tuple (l : List (V3 S))
  | list (l : List (Shown S))
  | object (cls : String) (fields : List (String × Shown S))

/-- What `print` or `repr` of an object does: rich writes the description to the console, and the text returned is empty.
Models /repo/geec/polyhedron.py:88-91, 307-310, 826-829 and /repo/geec/station.py:50-53. -/
structure Printed (S : Type) where
  console : Shown S
  text : String

/-- `Edge.__rich_repr__`: neither the caches nor the twin are shown.  Models /repo/geec/polyhedron.py:80-86. -/
def Edge.shown (e : Edge S) : Shown S :=
  .object "Edge" [("start", .array e.start), ("end", .array e.fin), ("vector", .array e.vector), ("length", .number e.length),
    ("points", .tuple [e.start, e.fin])]

/-- `Face.__rich_repr__`.  Models /repo/geec/polyhedron.py:299-305. -/
def Face.shown (f : Face S) : Shown S :=
  .object "Face" [("points", .arrays f.points), ("simplex", .indices f.simplex), ("un", .array f.un), ("neighbors", .indices f.neighbors),
    ("edges", .list (f.edges.map Edge.shown))]

/-- `Polyhedron.__rich_repr__`.  Models /repo/geec/polyhedron.py:821-824. -/
def Poly.shown (p : Poly S) : Shown S :=
  .object "Polyhedron" [("faces", .list (p.faces.map Face.shown)), ("points", .arrays p.points)]

/-- `Station.__rich_repr__`: the tensor is not shown.  Models /repo/geec/station.py:46-48. -/
def Station.shown (s : Station S) : Shown S := .object "Station" [("coord", .array s.coord), ("G", .array s.G)]

/-- `Polyhedron.__repr__` in a state of the object.  Models /repo/geec/polyhedron.py:826-829 (`Edge`: 88-91, `Face`: 307-310). -/
def Poly.repr (st : Poly S × Mem S) : Printed S × (Poly S × Mem S) := (⟨st.1.shown, ""⟩, st)

/-- `Station.__repr__`.  Models /repo/geec/station.py:50-53. -/
def Station.repr (s : Station S) : Printed S × Station S := (⟨s.shown, ""⟩, s)

/-- The objects of a class that a description contains, in the order shown. -/
def Shown.objects (cls : String) : Shown S → List (List (String × Shown S))
  | .object c fs => (if c = cls then [fs] else []) ++ (fs.attach.map fun f => objects cls f.1.2).flatten
  | .list l => (l.attach.map fun x => objects cls x.1).flatten
  | _ => []
termination_by s => sizeOf s
decreasing_by
  all_goals simp_wf
  · have := List.sizeOf_lt_of_mem f.2
    have : sizeOf f.1.2 < sizeOf f.1 := by rcases f with ⟨⟨a, b⟩, h⟩; simp; omega
    omega
  · have := List.sizeOf_lt_of_mem x.2
    omega

end Geec
