import Verif.Spec.History
import Mathlib.Algebra.Order.Ring.Rat
/-
A small computable arithmetic and a tetrahedron, used only to exhibit concrete cases in `example`s
(theorems about "any arithmetic" are not about this one in particular).
-/
namespace Geec

/-- exact rationals with the 1-norm; `log`, `acos`, `sqrt` are arbitrary functions here -/
@[reducible] def toyArith : Arith Rat where
  zero := 0
  one := 1
  two := 2
  negOne := -1
  pi := 3
  eps := 1 / 1000
  k1e5 := 100000
  k1e4 := 10000
  ofNat := fun n => (n : Rat)
  add := (· + ·)
  sub := (· - ·)
  mul := (· * ·)
  div := (· / ·)
  neg := fun a => -a
  abs := fun a => if a < 0 then -a else a
  sqrt := fun a => a
  log := fun a => a - 1
  acos := fun a => 1 - a
  lt := fun a b => decide (a < b)
  eq := fun a b => decide (a = b)
  dot := fun u v => u.x * v.x + u.y * v.y + u.z * v.z
  mdot := fun u v => u.x * v.x + u.y * v.y + u.z * v.z
  norm := fun v => (if v.x < 0 then -v.x else v.x) + (if v.y < 0 then -v.y else v.y) + (if v.z < 0 then -v.z else v.z)
  mnorm := fun v => (if v.x < 0 then -v.x else v.x) + (if v.y < 0 then -v.y else v.y) + (if v.z < 0 then -v.z else v.z)

namespace Toy
attribute [local instance] toyArith

/-- the unit right-angled tetrahedron, as a hull library could return it (with inconsistent orientations) -/
def hull : Hull Rat where
  points := [⟨0, 0, 0⟩, ⟨1, 0, 0⟩, ⟨0, 1, 0⟩, ⟨0, 0, 1⟩]
  vertices := [0, 1, 2, 3]
  simplices := [(0, 1, 2), (0, 1, 3), (0, 2, 3), (1, 2, 3)]
  neighbors := [[3, 2, 1], [3, 2, 0], [3, 1, 0], [2, 1, 0]]

def poly : Poly Rat := ((mkPoly hull (fun _ => true)).toOption).getD ⟨[], []⟩

def calls : List (Call Rat) :=
  [⟨⟨3, 5, 7⟩, 2, 1, true⟩, ⟨⟨-2, 1, 4⟩, 1, 1, false⟩]

end Toy
end Geec
