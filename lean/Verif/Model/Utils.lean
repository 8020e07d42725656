import Verif.Model.Arith
/-
Model of /repo/geec/utils.py.
-/
namespace Geec
open Arith
variable {S : Type} [Arith S]

/-- The last branch but one of `cross_product` on two length-3 vectors.
Models /repo/geec/utils.py:30-38. -/
def cross (a b : V3 S) : V3 S :=
  ⟨a.y *. b.z -. a.z *. b.y, a.z *. b.x -. a.x *. b.z, a.x *. b.y -. a.y *. b.x⟩

/-- `minus_identity = np.diag(np.full(3, -1))`.  Models /repo/geec/utils.py:17. -/
def minusIdentity : M3 S :=
  ⟨⟨negOne, zero, zero⟩, ⟨zero, negOne, zero⟩, ⟨zero, zero, negOne⟩⟩

/-- A numpy array of rank at most 3, enough for the arguments and results of `cross_product`:
rank 1 (list of numbers) or a stack of arrays. -/
inductive NdArr (S : Type)
  | vec (xs : List S)
  | stack (rows : List (NdArr S))

/-- Rank-1 case of `cross_product` (V1.ndim = V2.ndim = 1).  Models /repo/geec/utils.py:30-42. -/
def crossVec (v1 v2 : List S) : Except PyErr (NdArr S) :=
  match v1, v2 with
  | [a1, a2, a3], [b1, b2, b3] =>
    .ok (.vec [a2 *. b3 -. a3 *. b2, a3 *. b1 -. a1 *. b3, a1 *. b2 -. a2 *. b1])
  | _, _ => .error .typeError

/-- Arguments of `cross_product`: rank 1, rank 2, or another rank. -/
inductive CrossArg (S : Type)
  | r1 (v : List S)
  | r2 (rows : List (List S))

/-- `cross_product(V1, V2)` with rank-1 `V1`.  Models /repo/geec/utils.py:28-42. -/
def crossRow (v1 : List S) : CrossArg S → Except PyErr (NdArr S)
  | .r1 v2 => crossVec v1 v2
  | .r2 rows => do return .stack (← rows.mapM (crossVec v1))

/-- `cross_product(V1, V2)`, dispatching on the ranks as the code does: rank-2 `V1` first.
Models /repo/geec/utils.py:21-42.  Simplification: ranks other than 1 and 2 are not represented. -/
def crossProduct (a1 a2 : CrossArg S) : Except PyErr (NdArr S) :=
  match a1 with
  | .r2 rows => do return .stack (← rows.mapM (fun v => crossRow v a2))
  | .r1 v1 => crossRow v1 a2

end Geec
