/-
Arithmetic interface, vectors and Python exceptions used by the whole model.
-/
namespace Geec

/-- The Python exceptions the modelled code can raise (only the class is modelled, not the message). -/
inductive PyErr
  | zeroDivisionError | valueError | typeError | nameError | runtimeError | notImplementedError
  | keyError | indexError | attributeError | fileNotFoundError | osError
  | configValueError | configTypeError | configNotFoundError
  deriving DecidableEq, Repr

/-- A length-3 `np.ndarray` (a point, a vector, a row of a tensor). -/
structure V3 (S : Type) where
  x : S
  y : S
  z : S
  deriving DecidableEq, Repr

/-- A 3x3 `np.ndarray`, by rows. -/
structure M3 (S : Type) where
  r0 : V3 S
  r1 : V3 S
  r2 : V3 S
  deriving DecidableEq, Repr

/--
The scalar arithmetic used by the code, as *uninterpreted* operations.

Theorems stated for an arbitrary `Arith S` hold whatever the operations do, in particular for IEEE
doubles with any rounding or BLAS summation order; `np.dot` of two vectors, the matrix product
`np.dot(un, points.T)` and `np.linalg.norm` are separate operations because numpy may round them
differently.  The instance for `ℝ` (exact arithmetic) is in `Verif/Model/RealArith.lean`, the instance
for Lean's `Float` (only used to run the model) in `Verif/Validation.lean`.
-/
class Arith (S : Type) where
  /-- literals `0`, `1`, `2`, `-1` -/
  zero : S
  one : S
  two : S
  negOne : S
  /-- `np.pi` -/
  pi : S
  /-- `np.finfo(float).eps`, /repo/geec/utils.py:18 -/
  eps : S
  /-- literals `1e5` and `1e4`, /repo/geec/polyhedron.py:722, 746 -/
  k1e5 : S
  k1e4 : S
  ofNat : Nat → S
  add : S → S → S
  sub : S → S → S
  mul : S → S → S
  /-- numpy (non raising) division -/
  div : S → S → S
  neg : S → S
  abs : S → S
  sqrt : S → S
  log : S → S
  acos : S → S
  /-- `a < b`, `a == b` as evaluated by Python -/
  lt : S → S → Bool
  eq : S → S → Bool
  /-- `np.dot(u, v)` of two length-3 arrays -/
  dot : V3 S → V3 S → S
  /-- one entry of `np.dot(u, P.T)` -/
  mdot : V3 S → V3 S → S
  /-- `np.linalg.norm(v)` -/
  norm : V3 S → S
  /-- one entry of `np.linalg.norm(rows, axis=1)` -/
  mnorm : V3 S → S

namespace Arith
scoped infixl:65 " +. " => Arith.add
scoped infixl:65 " -. " => Arith.sub
scoped infixl:70 " *. " => Arith.mul
scoped infixl:70 " /. " => Arith.div
scoped infix:50 " <. " => Arith.lt
scoped infix:50 " ==. " => Arith.eq
end Arith

open Arith

variable {S : Type} [Arith S]

/-- Scalar division inside a numba `nopython` function (error model "python"): raises on zero. -/
def numbaDiv (a b : S) : Except PyErr S :=
  if b ==. zero then .error .zeroDivisionError else .ok (a /. b)

/-- `math.acos` (CPython): raises `ValueError` outside `[-1, 1]`. -/
def pyAcos (b : S) : Except PyErr S :=
  if (one <. b) || (b <. negOne) then .error .valueError else .ok (acos b)

/-- `math.sqrt` (CPython): raises `ValueError` on negative numbers. -/
def pySqrt (b : S) : Except PyErr S :=
  if b <. zero then .error .valueError else .ok (sqrt b)

/-- `np.sign`; the last branch is `nan` for floats. -/
def npSign (a : S) : S :=
  if zero <. a then one else if a <. zero then negOne else if a ==. zero then zero else a

namespace V3

/-- `np.zeros(3)` -/
def zeros : V3 S := ⟨zero, zero, zero⟩
/-- elementwise `a + b` -/
def add (a b : V3 S) : V3 S := ⟨a.x +. b.x, a.y +. b.y, a.z +. b.z⟩
/-- elementwise `a - b` -/
def sub (a b : V3 S) : V3 S := ⟨a.x -. b.x, a.y -. b.y, a.z -. b.z⟩
/-- elementwise `-a` -/
def neg (a : V3 S) : V3 S := ⟨Arith.neg a.x, Arith.neg a.y, Arith.neg a.z⟩
/-- `s * a` -/
def smul (s : S) (a : V3 S) : V3 S := ⟨s *. a.x, s *. a.y, s *. a.z⟩
/-- `a / s` -/
def sdiv (a : V3 S) (s : S) : V3 S := ⟨a.x /. s, a.y /. s, a.z /. s⟩

end V3

namespace M3

/-- `np.zeros((3, 3))` -/
def zeros : M3 S := ⟨V3.zeros, V3.zeros, V3.zeros⟩
/-- elementwise `A + B` -/
def add (a b : M3 S) : M3 S := ⟨a.r0.add b.r0, a.r1.add b.r1, a.r2.add b.r2⟩
/-- elementwise `-A` -/
def neg (a : M3 S) : M3 S := ⟨a.r0.neg, a.r1.neg, a.r2.neg⟩
/-- transpose -/
def transpose (a : M3 S) : M3 S :=
  ⟨⟨a.r0.x, a.r1.x, a.r2.x⟩, ⟨a.r0.y, a.r1.y, a.r2.y⟩, ⟨a.r0.z, a.r1.z, a.r2.z⟩⟩

end M3

end Geec
