import Verif.Model.Hull
import Verif.Model.Station
/-
Histories of calls on one Polyhedron object.
-/
namespace Geec
open Arith
variable {S : Type} [Arith S]

/-- arguments of one `get_gravity` call -/
structure Call (S : Type) where
  obs : V3 S
  density : S
  Gc : S
  gradient : Bool

/-- one call on an object whose mutable state is `m` -/
def Call.run (p : Poly S) (m : Mem S) (c : Call S) : Except PyErr (V3 S × M3 S) × Mem S :=
  getGravity p c.obs c.density c.Gc c.gradient m

/-- the answer of a call on an object that has just been constructed -/
def Call.onNew (p : Poly S) (c : Call S) : Except PyErr (V3 S × M3 S) := (c.run p Mem.fresh).1

/-- successive calls on one object: the answers and the final state -/
def runCalls (p : Poly S) : List (Call S) → Mem S → List (Except PyErr (V3 S × M3 S)) × Mem S
  | [], m => ([], m)
  | c :: cs, m =>
    let r := c.run p m
    let rs := runCalls p cs r.2
    (r.1 :: rs.1, rs.2)

/-- the call returned a value -/
def returned {α : Type} : Except PyErr α → Prop
  | .ok _ => True
  | .error _ => False

/-- Outcome of a call that must give the same answer as another one when the latter returns. -/
def Refines {α : Type} (a b : Except PyErr α) : Prop := ∀ x, b = .ok x → a = .ok x

end Geec
