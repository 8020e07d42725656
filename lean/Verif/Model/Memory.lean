import Verif.Model.Geometry
/-
Mutable part of /repo/geec/polyhedron.py: caches of edges and faces, numpy array objects on a heap,
and the methods that read and write them.

`Face._add_pqr` stores in the face *the same array object* as in the edge (line 334) and then updates it in
place with `+=` (line 332), so the cached value of the first edge of a face changes too.  To represent this,
arrays live on a heap and the attributes `_pqr`, `_dpqr` hold references.
-/
namespace Geec
open Arith
variable {S : Type} [Arith S]

/-- Mutable attributes of an `Edge`.  Models /repo/geec/polyhedron.py:72-73 (references to arrays). -/
structure EdgeC where
  pqr : Option Nat
  dpqr : Option Nat

/-- Mutable attributes of a `Face`.  Models /repo/geec/polyhedron.py:279-286 and 736, 780. -/
structure FaceC (S : Type) where
  dp1 : Option S
  sign : Option S
  omega : Option S
  domega : Option (V3 S)
  pqr : Option Nat
  dpqr : Option Nat
  g : Option (V3 S)
  tensor : Option (M3 S)

/-- All mutable state of one polyhedron: the array objects (`va`, `ma`; `vn`, `mn` allocated so far) and the
attributes of its edges and faces. -/
structure Mem (S : Type) where
  va : Nat → V3 S
  vn : Nat
  ma : Nat → M3 S
  mn : Nat
  edge : Nat → Nat → EdgeC
  face : Nat → FaceC S

/-- A method: it may raise, and the state reached when it returns or raises is visible. -/
def Act (S : Type) (α : Type) := Mem S → Except PyErr α × Mem S

namespace Act
def pure {α : Type} (a : α) : Act S α := fun m => (.ok a, m)
def bind {α β : Type} (x : Act S α) (f : α → Act S β) : Act S β := fun m =>
  match x m with
  | (.ok a, m') => f a m'
  | (.error e, m') => (.error e, m')
instance : Monad (Act S) where
  pure := Act.pure
  bind := Act.bind
def raise {α : Type} (e : PyErr) : Act S α := fun m => (.error e, m)
def lift {α : Type} (x : Except PyErr α) : Act S α := fun m => (x, m)
def modify (f : Mem S → Mem S) : Act S Unit := fun m => (.ok (), f m)
def get {α : Type} (f : Mem S → α) : Act S α := fun m => (.ok (f m), m)
end Act

namespace Mem
def setEdge (m : Mem S) (i j : Nat) (c : EdgeC) : Mem S :=
  { m with edge := fun i' j' => if i' = i ∧ j' = j then c else m.edge i' j' }
def setFace (m : Mem S) (i : Nat) (c : FaceC S) : Mem S :=
  { m with face := fun i' => if i' = i then c else m.face i' }
def setV (m : Mem S) (l : Nat) (v : V3 S) : Mem S :=
  { m with va := fun l' => if l' = l then v else m.va l' }
def setM (m : Mem S) (l : Nat) (v : M3 S) : Mem S :=
  { m with ma := fun l' => if l' = l then v else m.ma l' }

/-- `edge._pqr = <new array v>` -/
def newEdgePqr (m : Mem S) (i j : Nat) (v : V3 S) : Mem S :=
  let l := m.vn
  { (m.setV l v).setEdge i j { (m.edge i j) with pqr := some l } with vn := l + 1 }

/-- `edge._dpqr = <new array or None>` -/
def newEdgeDpqr (m : Mem S) (i j : Nat) (v : Option (M3 S)) : Mem S :=
  match v with
  | none => m.setEdge i j { (m.edge i j) with dpqr := none }
  | some v =>
    let l := m.mn
    { (m.setM l v).setEdge i j { (m.edge i j) with dpqr := some l } with mn := l + 1 }
end Mem

/-- `Edge._set_twin_pqr` for edge `j` of face `i`.  Models /repo/geec/polyhedron.py:127-139. -/
def setTwinPqr (i j : Nat) (twin : Option (Nat × Nat)) : Act S Unit := fun m =>
  match twin with
  | none => (.error .typeError, m)
  | some (i', j') =>
    let m1 := match (m.edge i j).pqr with
      | some l => m.newEdgePqr i' j' (m.va l).neg
      | none => m
    let m2 := match (m1.edge i j).dpqr with
      | some l => m1.newEdgeDpqr i' j' (some (m1.ma l).neg)
      | none => m1
    (.ok (), m2)

/-- `Edge._get_ccw_line_integrals` for edge `j` of face `i`.  Models /repo/geec/polyhedron.py:195-235. -/
def edgeCompute (i j : Nat) (e : Edge S) (obs : V3 S) (gradient : Bool) : Act S Unit := fun m =>
  match (m.edge i j).pqr with
  | some _ => (.ok (), m)
  | none =>
    match edgeIntegral e obs gradient with
    | .error err => (.error err, m)
    | .ok (pqr, dpqr) => setTwinPqr i j e.twin ((m.newEdgePqr i j pqr).newEdgeDpqr i j dpqr)

/-- `self._add_pqr(edge.pqr)`.  Models /repo/geec/polyhedron.py:329-334: in-place `+=` on the face's array,
or aliasing of the edge's array.  `array += None` raises `TypeError`. -/
def addPqr (i j : Nat) : Act S Unit := fun m =>
  match (m.face i).pqr, (m.edge i j).pqr with
  | some l, some l' => (.ok (), m.setV l ((m.va l).add (m.va l')))
  | some _, none => (.error .typeError, m)
  | none, r => (.ok (), m.setFace i { (m.face i) with pqr := r })

/-- `self._add_dpqr(edge.dpqr)`.  Models /repo/geec/polyhedron.py:336-341. -/
def addDpqr (i j : Nat) : Act S Unit := fun m =>
  match (m.face i).dpqr, (m.edge i j).dpqr with
  | some l, some l' => (.ok (), m.setM l ((m.ma l).add (m.ma l')))
  | some _, none => (.error .typeError, m)
  | none, r => (.ok (), m.setFace i { (m.face i) with dpqr := r })

/-- Loop of `Face._get_ccw_line_integrals` over the edges, starting at edge index `j`.
Models /repo/geec/polyhedron.py:679-688. -/
def faceEdges (i : Nat) (obs : V3 S) (gradient : Bool) : Nat → List (Edge S) → Act S Unit
  | _, [] => Act.pure ()
  | j, e :: es => do
    edgeCompute i j e obs gradient
    addPqr i j
    addDpqr i j
    faceEdges i obs gradient (j + 1) es

/-- `Face._get_dot_point1`.  Models /repo/geec/polyhedron.py:370-382. -/
def getDotPoint1 (i : Nat) (f : Face S) (obs : V3 S) : Act S Unit :=
  Act.modify fun m => m.setFace i { (m.face i) with dp1 := some (dot f.un ((at3 f.points 0).sub obs)) }

/-- `Face._get_sign`.  Models /repo/geec/polyhedron.py:384-396. -/
def getSign (i : Nat) : Act S Unit := fun m =>
  match (m.face i).dp1 with
  | some d => (.ok (), m.setFace i { (m.face i) with sign := some (npSign d) })
  | none => (.error .notImplementedError, m)

/-- `Face._get_omega`.  Models /repo/geec/polyhedron.py:399-460 (`_omega = 0`, `_domega = zeros(3)` are assigned
before the computation, hence remain if it raises). -/
def getOmega (i : Nat) (f : Face S) (obs : V3 S) (gradient : Bool) : Act S Unit := fun m =>
  match (m.face i).dp1, (m.face i).sign with
  | none, _ => (.error .notImplementedError, m)
  | some _, none => (.error .notImplementedError, m)
  | some d, some s =>
    let m1 := m.setFace i { (m.face i) with omega := some zero, domega := some V3.zeros }
    if eps <. abs d then
      match omegaKernel f.points f.un obs s gradient with
      | .error e => (.error e, m1)
      | .ok (w, dw) => (.ok (), m1.setFace i { (m1.face i) with omega := some w, domega := some dw })
    else (.ok (), m1)

/-- Last part of `Face.get_gravity`: read the attributes, compute the field, store and return it.
Models /repo/geec/polyhedron.py:709-784. -/
def faceFinish (i : Nat) (f : Face S) (density Gc : S) (gradient : Bool) : Act S (V3 S × M3 S) := fun m =>
  let c := m.face i
  match c.dp1, c.omega, c.domega, c.pqr with
  | some dp1, some w, some dw, some l =>
    match gradient, c.dpqr with
    | true, none => (.error .notImplementedError, m)
    | true, some l' =>
      let r := faceField f.un dp1 w dw (m.va l) (m.ma l') density Gc true
      (.ok r, m.setFace i { c with g := some r.1, tensor := some r.2 })
    | false, _ =>
      let r := faceField f.un dp1 w dw (m.va l) M3.zeros density Gc false
      (.ok r, m.setFace i { c with g := some r.1, tensor := some r.2 })
  | _, _, _, _ => (.error .notImplementedError, m)

/-- `Face.get_gravity`.  Models /repo/geec/polyhedron.py:690-784. -/
def faceGravity (i : Nat) (f : Face S) (obs : V3 S) (density Gc : S) (gradient : Bool) :
    Act S (V3 S × M3 S) := do
  getDotPoint1 i f obs
  getSign i
  getOmega i f obs gradient
  faceEdges i obs gradient 0 f.edges
  faceFinish i f density Gc gradient

/-- Loop of `Polyhedron.get_gravity` over the faces, from face index `i` with accumulators `G`, `T`.
Models /repo/geec/polyhedron.py:998-1001. -/
def polyFaces (obs : V3 S) (density Gc : S) (gradient : Bool) :
    Nat → List (Face S) → V3 S → M3 S → Act S (V3 S × M3 S)
  | _, [], G, T => Act.pure (G, T)
  | i, f :: fs, G, T => do
    let (g, t) ← faceGravity i f obs density Gc gradient
    polyFaces obs density Gc gradient (i + 1) fs (G.add g) (T.add t)

/-- `Edge.reset`.  Models /repo/geec/polyhedron.py:75-78. -/
def edgeReset (i j : Nat) (m : Mem S) : Mem S := m.setEdge i j ⟨none, none⟩

/-- Loop over the edges in `Face.reset`.  Models /repo/geec/polyhedron.py:296-297. -/
def edgesReset (i : Nat) : Nat → List (Edge S) → Mem S → Mem S
  | _, [], m => m
  | j, _ :: es, m => edgesReset i (j + 1) es (edgeReset i j m)

/-- `Face.reset` (`_g` and `_tensor` are not reset).  Models /repo/geec/polyhedron.py:288-297. -/
def faceReset (i : Nat) (f : Face S) (m : Mem S) : Mem S :=
  edgesReset i 0 f.edges
    (m.setFace i { (m.face i) with
      dp1 := none, sign := none, omega := none, domega := none, pqr := none, dpqr := none })

/-- `Polyhedron.reset`.  Models /repo/geec/polyhedron.py:973-978. -/
def polyReset : Nat → List (Face S) → Mem S → Mem S
  | _, [], m => m
  | i, f :: fs, m => polyReset (i + 1) fs (faceReset i f m)

/-- `Polyhedron.get_gravity`.  Models /repo/geec/polyhedron.py:980-1007: the caches are reset only when no
face raised. -/
def getGravity (p : Poly S) (obs : V3 S) (density Gc : S) (gradient : Bool) : Act S (V3 S × M3 S) := do
  let r ← polyFaces obs density Gc gradient 0 p.faces V3.zeros M3.zeros
  Act.modify (polyReset 0 p.faces)
  return r

/-- State of the caches right after `Polyhedron.__init__`.
Models /repo/geec/polyhedron.py:72-73, 279-286. -/
def Mem.fresh : Mem S where
  va := fun _ => V3.zeros
  vn := 0
  ma := fun _ => M3.zeros
  mn := 0
  edge := fun _ _ => ⟨none, none⟩
  face := fun _ => ⟨none, none, none, none, none, none, none, none⟩

end Geec
