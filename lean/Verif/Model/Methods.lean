import Verif.Model.Hull
/-
The other public methods of the objects that make up a polyhedron, as a user can call them between gravity queries.
-/
namespace Geec
open Arith
variable {S : Type} [Arith S]

/-- A call of a public method on a polyhedron `p`, on one of its faces `p.faces[i]`, or on one of its edges
`p.faces[i].edges[j]`: `Polyhedron.get_gravity`, `Polyhedron.reset`, `Face.get_gravity`, `Face.reset`, `Edge.reset`.
Models the entry points /repo/geec/polyhedron.py:75-78, 288-297, 690-784, 973-978 and 980-1007. -/
inductive Method (S : Type)
  | gravity (obs : V3 S) (density Gc : S) (gradient : Bool)
  | reset
  | faceGravity (i : Nat) (obs : V3 S) (density Gc : S) (gradient : Bool)
  | faceReset (i : Nat)
  | edgeReset (i j : Nat)

/-- What a method returns: nothing, or a field with its tensor. -/
abbrev Answer (S : Type) := Except PyErr (Option (V3 S × M3 S))

/-- One call.  A face or an edge that does not exist raises `IndexError`.
`reset` ignores its argument `coord`.  Models /repo/geec/polyhedron.py:75-78, 288-297, 690-784, 973-978, 980-1007. -/
def Method.run (p : Poly S) : Method S → Mem S → Answer S × Mem S
  | .gravity obs ρ Gc gr, m => let r := getGravity p obs ρ Gc gr m; (r.1.map some, r.2)
  | .reset, m => (.ok none, polyReset 0 p.faces m)
  | .faceGravity i obs ρ Gc gr, m =>
    match p.faces[i]? with
    | none => (.error .indexError, m)
    | some f => let r := Geec.faceGravity i f obs ρ Gc gr m; (r.1.map some, r.2)
  | .faceReset i, m =>
    match p.faces[i]? with
    | none => (.error .indexError, m)
    | some f => (.ok none, Geec.faceReset i f m)
  | .edgeReset i j, m =>
    match (p.faces[i]?).bind (fun f => f.edges[j]?) with
    | none => (.error .indexError, m)
    | some _ => (.ok none, Geec.edgeReset i j m)

/-- Any sequence of calls, each of which may raise; the caller carries on. -/
def runMethods (p : Poly S) : List (Method S) → Mem S → Mem S
  | [], m => m
  | x :: xs, m => runMethods p xs (x.run p m).2

end Geec
