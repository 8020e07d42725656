import Verif.Model.RealArith
/-
Real arithmetic in which what has no value stays without one: an operation outside of its domain, and every operation on
its result, gives `none`, and comparisons with `none` are false.  This is how NaN behaves (IEEE 754), so it serves as an
example of the arithmetics of C105 and C106.
-/
namespace Geec
open Classical
noncomputable section

/-- the dot product, where all entries have values -/
def odot (a b : V3 (Option ℝ)) : Option ℝ :=
  match a, b with
  | ⟨some x, some y, some z⟩, ⟨some u, some v, some w⟩ => some (x * u + y * v + z * w)
  | _, _ => none

/-- the length, where all entries have values -/
def olen (a : V3 (Option ℝ)) : Option ℝ := (odot a a).map Real.sqrt

/-- real arithmetic with NaN -/
@[instance_reducible] def nanArith : Arith (Option ℝ) where
  zero := some 0
  one := some 1
  two := some 2
  negOne := some (-1)
  pi := some Real.pi
  eps := some repsilon
  k1e5 := some 100000
  k1e4 := some 10000
  ofNat := fun n => some (n : ℝ)
  add := fun a b => a.bind fun x => b.map fun y => x + y
  sub := fun a b => a.bind fun x => b.map fun y => x - y
  mul := fun a b => a.bind fun x => b.map fun y => x * y
  div := fun a b => a.bind fun x => b.bind fun y => if y = 0 then none else some (x / y)
  neg := fun a => a.map fun x => -x
  abs := fun a => a.map fun x => |x|
  sqrt := fun a => a.bind fun x => if x < 0 then none else some (Real.sqrt x)
  log := fun a => a.bind fun x => if x ≤ 0 then none else some (Real.log x)
  acos := fun a => a.bind fun x => if x < -1 ∨ 1 < x then none else some (Real.arccos x)
  lt := fun a b => decide (∃ x y, a = some x ∧ b = some y ∧ x < y)
  eq := fun a b => decide (∃ x, a = some x ∧ b = some x)
  dot := odot
  mdot := odot
  norm := olen
  mnorm := olen

end
end Geec
