import Verif.Model.Hull
import Verif.Model.Station
/-
Tests (not proofs): the model run on Lean's `Float` against the numbers of the repository's own test-suite
(/repo/tests/conftest.py, tests/test_station.py, tests/test_polyhedron.py).
They check that the model was transcribed faithfully; no theorem depends on this file.
-/
namespace Geec
open Arith

instance floatArith : Arith Float where
  zero := 0
  one := 1
  two := 2
  negOne := -1
  pi := 3.141592653589793
  eps := 2.220446049250313e-16
  k1e5 := 1e5
  k1e4 := 1e4
  ofNat := fun n => Float.ofNat n
  add := (· + ·)
  sub := (· - ·)
  mul := (· * ·)
  div := (· / ·)
  neg := fun a => -a
  abs := Float.abs
  sqrt := Float.sqrt
  log := Float.log
  acos := Float.acos
  lt := fun a b => a < b
  eq := fun a b => a == b
  dot := fun a b => a.x * b.x + a.y * b.y + a.z * b.z
  mdot := fun a b => a.x * b.x + a.y * b.y + a.z * b.z
  norm := fun v => Float.sqrt (v.x * v.x + v.y * v.y + v.z * v.z)
  mnorm := fun v => Float.sqrt (v.x * v.x + v.y * v.y + v.z * v.z)

namespace Validation

/-- /repo/tests/conftest.py:19-28 -/
def cubePts : List (V3 Float) :=
  [⟨-0.5, -0.5, 0.0⟩, ⟨0.5, -0.5, 0.0⟩, ⟨0.5, 0.5, 0.0⟩, ⟨-0.5, 0.5, 0.0⟩,
   ⟨-0.5, -0.5, -1.0⟩, ⟨0.5, -0.5, -1.0⟩, ⟨0.5, 0.5, -1.0⟩, ⟨-0.5, 0.5, -1.0⟩]

/-- triangles of the hull, with some of the vertex orders reversed with respect to
/repo/tests/conftest.py:495-508 so that the orientation code has something to do -/
def cubeSimplices : List (Nat × Nat × Nat) :=
  [(3,2,1), (3,0,1), (5,0,1), (5,0,4), (7,0,3), (7,0,4), (6,2,1), (6,5,1), (6,3,2), (6,3,7), (6,5,4), (6,4,7)]

/-- /repo/tests/conftest.py:495-508 -/
def expectedSimplices : List (List Nat) :=
  [[3,1,2], [3,0,1], [5,1,0], [5,0,4], [7,0,3], [7,4,0], [6,2,1], [6,1,5], [6,3,2], [6,7,3], [6,5,4], [6,4,7]]

/-- two triangles are neighbours when they share two vertices -/
def shared (a b : Nat × Nat × Nat) : Nat :=
  ([a.1, a.2.1, a.2.2].filter (fun q => q = b.1 || q = b.2.1 || q = b.2.2)).length

def cubeNeighbors : List (List Nat) :=
  cubeSimplices.map fun s =>
    (List.range 12).filter fun k => shared s (cubeSimplices.getD k (0,0,0)) = 2

def cubeHull : Hull Float := ⟨cubePts, List.range 8, cubeSimplices, cubeNeighbors⟩

def cube : Except PyErr (Poly Float) := mkPoly cubeHull (fun _ => true)

def close (a b : Float) : Bool := (a - b).abs ≤ 1e-10
def vclose (a b : V3 Float) : Bool := close a.x b.x && close a.y b.y && close a.z b.z
def mclose (a b : M3 Float) : Bool := vclose a.r0 b.r0 && vclose a.r1 b.r1 && vclose a.r2 b.r2

def okAnd {α : Type} (x : Except PyErr α) (f : α → Bool) : Bool :=
  match x with
  | .ok a => f a
  | .error _ => false

/-- test_polyhedron.py: orientation of the faces -/
def testSimplices : Bool := okAnd cube fun p => p.faces.map (·.simplex) == expectedSimplices
#guard testSimplices

def obs : V3 Float := ⟨-1.05, -1.05, 0⟩

/-- expected gravity, /repo/tests/conftest.py:43-45 -/
def expG : V3 Float := ⟨0.00183463065681974, 0.0018346306568197504, -0.0008638357043917455⟩
/-- expected tensor, /repo/tests/conftest.py:588-592 -/
def expT : M3 Float :=
  ⟨⟨6.156854084533704, 24.0259904258888, -11.0688001100732⟩,
   ⟨24.0259904258888, 6.156854084533683, -11.068800110073198⟩,
   ⟨-11.0688001100732, -11.068800110073198, -12.313708169067468⟩⟩

/-- test_station.py: `test_gravity` and `test_gradient` -/
def testGravity : Bool := okAnd cube fun p =>
  okAnd (getGravity p obs 1000 6.67408e-11 true Mem.fresh).1 fun r => vclose r.1 expG && mclose r.2 expT
#guard testGravity

/-- two rows of `test_gravity_listobs` after other queries on the same object -/
def testHistory : Bool := okAnd cube fun p =>
  let m0 := Mem.fresh
  let (_, m1) := getGravity p obs 1000 6.67408e-11 true m0
  let (_, m2) := getGravity p ⟨0.3, 7, 0⟩ 1000 6.67408e-11 false m1
  let (r, _) := getGravity p ⟨-1.05, -0.35, 0⟩ 1000 6.67408e-11 false m2
  okAnd r fun r => vclose r.1 ⟨0.003951204725618204, 0.0012532924509543325, -0.0018090104337738755⟩
#guard testHistory

/-- a station at a vertex raises -/
def testVertex : Bool := okAnd cube fun p =>
  match (getGravity p ⟨0.5, 0.5, 0⟩ 1000 6.67408e-11 false Mem.fresh).1 with
  | .error .zeroDivisionError => true
  | _ => false
#guard testVertex

/-- ... and the next query on the same object is then wrong (property C02) -/
def testDirty : Bool := okAnd cube fun p =>
  let (_, m1) := getGravity p ⟨0.5, 0.5, 0⟩ 1000 6.67408e-11 false Mem.fresh
  okAnd (getGravity p obs 1000 6.67408e-11 false m1).1 fun r => !vclose r.1 expG
#guard testDirty

end Validation
end Geec
