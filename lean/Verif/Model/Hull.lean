import Verif.Model.Memory
/-
Model of the construction of a Polyhedron, /repo/geec/polyhedron.py:343-368 and 831-926.
`scipy.spatial.ConvexHull` and `scipy.optimize.linprog` are external: their results are parameters.
-/
namespace Geec
open Arith
variable {S : Type} [Arith S]

/-- Result of `ConvexHull(points)` in dimension 3: the points, the indices of the hull vertices, the triangles
and for each triangle the indices of its neighbours.  Used at /repo/geec/polyhedron.py:833-841. -/
structure Hull (S : Type) where
  points : List (V3 S)
  vertices : List Nat
  simplices : List (Nat × Nat × Nat)
  neighbors : List (List Nat)

/-- `np.array_equal` on two points.  Used at /repo/geec/polyhedron.py:920. -/
def veq (a b : V3 S) : Bool := (a.x ==. b.x) && (a.y ==. b.y) && (a.z ==. b.z)

/-- `np.mean(points[idx], axis=0)`.  Models /repo/geec/polyhedron.py:834. -/
def meanPoint (pts : List (V3 S)) (idx : List Nat) : V3 S :=
  (idx.foldl (fun acc i => acc.add (at3 pts i)) V3.zeros).sdiv (Arith.ofNat idx.length)

/-- `all(p in s for p in pair)`.  Models /repo/geec/polyhedron.py:367. -/
def containsPair (s : Nat × Nat × Nat) (p : Nat × Nat) : Bool :=
  let mem (q : Nat) : Bool := q = s.1 || q = s.2.1 || q = s.2.2
  mem p.1 && mem p.2

/-- `Face._get_twinface`: index of the first neighbour whose simplex contains both indices;
`IndexError` if there is none.  Models /repo/geec/polyhedron.py:365-368. -/
def getTwinface (neighbors : List Nat) (nsimplices : List (Nat × Nat × Nat)) (pair : Nat × Nat) :
    Except PyErr Nat :=
  match ((neighbors.zip nsimplices).filter (fun ns => containsPair ns.2 pair)).head? with
  | some (n, _) => .ok n
  | none => .error .indexError

/-- One `Edge(...)` (without twin).  Models /repo/geec/polyhedron.py:63-70. -/
def mkEdge (p q : V3 S) (pair : Nat × Nat) (twinface : Nat) : Edge S where
  start := p
  fin := q
  simplex := pair
  vector := q.sub p
  length := norm (q.sub p)
  twinface := twinface
  twin := none

/-- `Face._get_edges` for the vertex cycle `s`: consecutive pairs of `[s0, s1, s2, s0]`.
Models /repo/geec/polyhedron.py:343-353. -/
def getEdges (pts : List (V3 S)) (s : Nat × Nat × Nat) (neighbors : List Nat)
    (nsimplices : List (Nat × Nat × Nat)) : Except PyErr (List (Edge S)) :=
  [(s.1, s.2.1), (s.2.1, s.2.2), (s.2.2, s.1)].mapM fun pr => do
    let tf ← getTwinface neighbors nsimplices pr
    return mkEdge (at3 pts pr.1) (at3 pts pr.2) pr tf

/-- `s[1::] = list(reversed(s[1::]))`.  Models /repo/geec/polyhedron.py:881. -/
def reverseTail (s : Nat × Nat × Nat) : Nat × Nat × Nat := (s.1, s.2.2, s.2.1)

/-- Orientation of one simplex: the unit outward vector and the (possibly reversed) vertex order.
Models /repo/geec/polyhedron.py:840-881.  `inHull` is the result of `_in_hull` (linprog).  The body of the search
loop reads the undefined name `points` (line 857), so entering the loop raises `NameError`. -/
def orient (pts : List (V3 S)) (inHull : V3 S → Bool) (centroid : V3 S) (s : Nat × Nat × Nat) :
    Except PyErr (V3 S × (Nat × Nat × Nat)) :=
  let A := at3 pts s.1
  let B := at3 pts s.2.1
  let C := at3 pts s.2.2
  let cr := cross (B.sub A) (C.sub A)
  let d := dot cr (centroid.sub A)
  if (d ==. zero) && !inHull centroid then .error .nameError
  else
    let nrm := norm cr
    if zero <. d then .ok (cr.neg.sdiv nrm, reverseTail s)
    else .ok (cr.sdiv nrm, s)

/-- The loop over the simplices, from index `k`; `sims` is `hull.simplices`, modified in place (line 881 writes
through a view).  Models /repo/geec/polyhedron.py:839-894. -/
def buildFaces (pts : List (V3 S)) (inHull : V3 S → Bool) (centroid : V3 S) :
    Nat → List (List Nat) → List (Nat × Nat × Nat) → Except PyErr (List (Face S))
  | _, [], _ => .ok []
  | k, nb :: nbs, sims => do
    let (un, s) ← orient pts inHull centroid (sims.getD k (0, 0, 0))
    let sims := sims.set k s
    let edges ← getEdges pts s nb (nb.map (fun n => sims.getD n (0, 0, 0)))
    let f : Face S :=
      { points := [at3 pts s.1, at3 pts s.2.1, at3 pts s.2.2]
        simplex := [s.1, s.2.1, s.2.2]
        un := un
        neighbors := nb
        edges := edges }
    let rest ← buildFaces pts inHull centroid (k + 1) nbs sims
    return f :: rest

/-- The twin found for edge `e` in the edge list of its twin face: the first edge with exchanged end points.
Models /repo/geec/polyhedron.py:918-926. -/
def findTwin (edges : List (Edge S)) (e : Edge S) : Option Nat :=
  edges.findIdx? (fun t => veq e.start t.fin && veq e.fin t.start)

/-- The `_twin` references of all edges, by (face index, edge index). -/
structure TwinMap where
  get : Nat → Nat → Option (Nat × Nat)

/-- One step of `_get_edge_twin`, for edge `j` of face `i`.  Models /repo/geec/polyhedron.py:917-926.
Simplification: `faces[edge._twinface]` out of range (impossible: neighbours are face indices) is ignored
instead of raising `IndexError`. -/
def twinStep (faces : List (Face S)) (tw : TwinMap) (i j : Nat) (e : Edge S) : TwinMap :=
  match tw.get i j with
  | some _ => tw
  | none =>
    match faces[e.twinface]? with
    | none => tw
    | some ft =>
      match findTwin ft.edges e with
      | none => tw
      | some j' => ⟨fun a b =>
        if a = e.twinface ∧ b = j' then some (i, j)
        else if a = i ∧ b = j then some (e.twinface, j')
        else tw.get a b⟩

/-- inner loop over the edges of face `i`, /repo/geec/polyhedron.py:916 -/
def twinEdges (faces : List (Face S)) (i : Nat) : Nat → List (Edge S) → TwinMap → TwinMap
  | _, [], tw => tw
  | j, e :: es, tw => twinEdges faces i (j + 1) es (twinStep faces tw i j e)

/-- outer loop over the faces, /repo/geec/polyhedron.py:915 -/
def twinFaces (faces : List (Face S)) : Nat → List (Face S) → TwinMap → TwinMap
  | _, [], tw => tw
  | i, f :: fs, tw => twinFaces faces (i + 1) fs (twinEdges faces i 0 f.edges tw)

/-- `Polyhedron._get_edge_twin`.  Models /repo/geec/polyhedron.py:913-926. -/
def getEdgeTwin (faces : List (Face S)) : List (Face S) :=
  let tw := twinFaces faces 0 faces ⟨fun _ _ => none⟩
  faces.mapIdx fun i f => { f with edges := f.edges.mapIdx fun j e => { e with twin := tw.get i j } }

/-- `Polyhedron.__init__` on the hull of its points.  Models /repo/geec/polyhedron.py:798-816, 831-898.
`zip(simplices, neighbors, strict=True)` raises `ValueError` on different lengths. -/
def mkPoly (h : Hull S) (inHull : V3 S → Bool) : Except PyErr (Poly S) :=
  if h.simplices.length ≠ h.neighbors.length then .error .valueError
  else do
    let centroid := meanPoint h.points h.vertices
    let faces ← buildFaces h.points inHull centroid 0 h.neighbors h.simplices
    return { points := h.points, faces := getEdgeTwin faces }

end Geec
