import Verif.Model.Hull
import Verif.Model.Station
import Mathlib.Analysis.SpecialFunctions.Trigonometric.Inverse
import Mathlib.Analysis.SpecialFunctions.Log.Basic
import Mathlib.Analysis.Real.Sqrt
/-
Exact real arithmetic as an instance of `Arith`.
Simplification: no rounding, no NaN, no infinities.  `x / 0 = 0` and `log 0 = 0` are Lean conventions; property
theorems about `ℝ` exclude the inputs where the code would divide by zero.
-/
namespace Geec
open Classical

noncomputable section

/-- `np.dot` in exact arithmetic -/
def rdot (a b : V3 ℝ) : ℝ := a.x * b.x + a.y * b.y + a.z * b.z

/-- machine epsilon of IEEE doubles, `2 ** -52` (/repo/geec/utils.py:18) -/
def repsilon : ℝ := 2⁻¹ ^ 52

instance realArith : Arith ℝ where
  zero := 0
  one := 1
  two := 2
  negOne := -1
  pi := Real.pi
  eps := repsilon
  k1e5 := 100000
  k1e4 := 10000
  ofNat := fun n => (n : ℝ)
  add := (· + ·)
  sub := (· - ·)
  mul := (· * ·)
  div := (· / ·)
  neg := fun a => -a
  abs := fun a => |a|
  sqrt := Real.sqrt
  log := Real.log
  acos := Real.arccos
  lt := fun a b => decide (a < b)
  eq := fun a b => decide (a = b)
  dot := rdot
  mdot := rdot
  norm := fun v => Real.sqrt (rdot v v)
  mnorm := fun v => Real.sqrt (rdot v v)

end
end Geec
