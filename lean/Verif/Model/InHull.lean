import Verif.Model.RealArith
import Mathlib.Algebra.BigOperators.Group.Finset.Basic
import Mathlib.Data.Fin.VecNotation
/-
Model of `Polyhedron._in_hull` (a linear program) and of the traces of `Polyhedron.plot`.
-/
namespace Geec
open Arith

/-- The constraints of `linprog(c, A_eq=A, b_eq=b)` with the default bounds `(0, None)`: `x >= 0` and `A x = b`.  With `c = 0` there is nothing to minimise,
so a solver succeeds if and only if they can be met. -/
def LpFeasible {m n : Nat} (A : Fin m → Fin n → ℝ) (b : Fin m → ℝ) : Prop :=
  ∃ w : Fin n → ℝ, (∀ i, 0 ≤ w i) ∧ ∀ k, ∑ i, A k i * w i = b k

/-- `A = np.r_[points.T, np.ones((1, n_points))]`.  Models /repo/geec/polyhedron.py:908. -/
def inHullA (points : List (V3 ℝ)) : Fin 4 → Fin points.length → ℝ :=
  ![fun i => points[i].x, fun i => points[i].y, fun i => points[i].z, fun _ => 1]

/-- `b = np.r_[x, np.ones(1)]`.  Models /repo/geec/polyhedron.py:909. -/
def inHullB (x : V3 ℝ) : Fin 4 → ℝ := ![x.x, x.y, x.z, 1]

/-- `_in_hull(points, ·)` with a solver that is right about feasibility.  Models /repo/geec/polyhedron.py:900-911. -/
def ExactInHull (points : List (V3 ℝ)) (inHull : V3 ℝ → Bool) : Prop :=
  ∀ x, inHull x = true ↔ LpFeasible (inHullA points) (inHullB x)

variable {S : Type} [Arith S]

/-- one `Scatter3d` trace: the lists of x, y and z -/
abbrev Trace (S : Type) := List S × List S × List S

/-- the trace of an edge, /repo/geec/polyhedron.py:1018-1023 -/
def Edge.trace (e : Edge S) : Trace S := ([e.start.x, e.fin.x], [e.start.y, e.fin.y], [e.start.z, e.fin.z])

/-- the traces of `Polyhedron.plot`.  Models /repo/geec/polyhedron.py:1009-1026. -/
def plotTraces (p : Poly S) : List (Trace S) := (p.faces.flatMap (fun f => f.edges)).map Edge.trace

end Geec
