import Verif.Model.Utils
/-
Immutable part of the objects of /repo/geec/polyhedron.py and the pure numeric kernels
(everything that does not touch the caches).
-/
namespace Geec
open Arith
variable {S : Type} [Arith S]

/-- Immutable attributes of an `Edge`.  Models /repo/geec/polyhedron.py:63-70.
`twin` is the reference to another edge object, as (index of face, index of edge in that face). -/
structure Edge (S : Type) where
  start : V3 S
  fin : V3 S
  simplex : Nat × Nat
  vector : V3 S
  length : S
  twinface : Nat
  twin : Option (Nat × Nat)

/-- Immutable attributes of a `Face`.  Models /repo/geec/polyhedron.py:268-276. -/
structure Face (S : Type) where
  points : List (V3 S)
  simplex : List Nat
  un : V3 S
  neighbors : List Nat
  edges : List (Edge S)

/-- Immutable attributes of a `Polyhedron`.  Models /repo/geec/polyhedron.py:806-816. -/
structure Poly (S : Type) where
  points : List (V3 S)
  faces : List (Face S)

/-- `Edge._line_integral_along_edge`.  Models /repo/geec/polyhedron.py:141-193.
Scalar divisions raise on zero (numba), array divisions and `log`, `sqrt` do not. -/
def lineIntegralAlongEdge (cj : S) (Lj : V3 S) (lj : S) (Rj : V3 S) (rj b2 bj : S) (gradient : Bool) :
    Except PyErr (V3 S × Option (M3 S)) := do
  let Ll := Lj.sdiv lj
  if eps <. abs cj then
    let l2 := lj *. lj
    let r2 := rj *. rj
    let sq := sqrt (l2 +. bj +. r2)
    let t ← numbaDiv (sq +. lj +. b2) cj
    let integral := log t
    let pqr := Ll.smul integral
    if gradient then
      let Rr := Rj.sdiv rj
      let u := t *. cj
      let v := cj
      let DU := (((Lj.add Rj).sdiv sq).add Ll).neg
      let DV := (Rr.add Ll).neg
      let DT := ((DU.smul v).sub (DV.smul u)).sdiv (v *. v)
      let w := DT.sdiv t
      return (pqr, some ⟨Ll.smul w.x, Ll.smul w.y, Ll.smul w.z⟩)
    else
      return (pqr, none)
  else
    let t ← numbaDiv (abs (lj -. rj)) rj
    let integral := log t
    let pqr := Ll.smul integral
    if gradient then
      let Rr := Rj.sdiv rj
      let u := abs (lj -. rj)
      let v := rj
      let q ← numbaDiv (lj -. rj) u
      let DU := Rr.smul q
      let DV := Rr.neg
      let DT := ((DU.smul v).sub (DV.smul u)).sdiv (v *. v)
      let w := DT.sdiv t
      return (pqr, some ⟨Ll.smul w.x, Ll.smul w.y, Ll.smul w.z⟩)
    else
      return (pqr, none)

/-- The computation of `Edge._get_ccw_line_integrals` when nothing is cached, without the assignments.
Models /repo/geec/polyhedron.py:203-233.
`np.dot(R1, R2) / (r1 * r2) == 1` is numpy arithmetic and does not raise when a norm is zero. -/
def edgeIntegral (e : Edge S) (obs : V3 S) (gradient : Bool) :
    Except PyErr (V3 S × Option (M3 S)) := do
  let R1 := e.start.sub obs
  let R2 := e.fin.sub obs
  let r1 := norm R1
  let r2 := norm R2
  let swap := (r2 <. r1) && ((dot R1 R2 /. (r1 *. r2)) ==. one)
  let chsgn : S := if swap then negOne else one
  let R := if swap then R2 else R1
  let r := if swap then r2 else r1
  let lj := e.length
  let bj0 := two *. dot R e.vector
  let b20 := bj0 /. lj /. two
  let flip := abs (r +. b20) <. eps
  let Lj := if flip then e.vector.neg else e.vector
  let bj := if flip then Arith.neg bj0 else bj0
  let b2 := if flip then bj /. lj /. two else b20
  let cj := r +. b2
  let (pqr, dpqr) ← lineIntegralAlongEdge cj Lj lj R r b2 bj gradient
  return (pqr.smul chsgn, dpqr)

/-- indexing a list of points / vectors (always in range in the code) -/
def at3 (l : List (V3 S)) (i : Nat) : V3 S := l.getD i V3.zeros

/-- `Face._get_A1A2`.  Models /repo/geec/polyhedron.py:462-471. -/
def getA1A2 (i : Nat) (inout : S) (npoints : Nat) (unitv : List (V3 S)) : V3 S × V3 S :=
  let A1 := (at3 unitv i).neg
  let A2 := at3 unitv ((i + 1) % npoints)
  if zero <. inout then (A2, A1) else (A1, A2)

/-- `Face._get_perp`.  Models /repo/geec/polyhedron.py:473-489. -/
def getPerp (i : Nat) (inout : S) (npoints : Nat) (points : List (V3 S)) (A1 : V3 S) : S :=
  if inout ==. zero then one
  else
    let p3 := if zero <. inout then at3 points i else at3 points ((i + 2) % npoints)
    dot p3 A1

/-- `Face._get_angle`.  Models /repo/geec/polyhedron.py:496-505. -/
def getAngle (inout b perp : S) : Except PyErr S :=
  if inout ==. zero then .ok zero
  else do
    let angle ← pyAcos b
    if perp <. zero then return (two *. pi -. angle) else return angle

/-- matrix times vector, `np.dot(M, v)` -/
def matVec (m : M3 S) (v : V3 S) : V3 S := ⟨mdot m.r0 v, mdot m.r1 v, mdot m.r2 v⟩

/-- `(dV * v - V * dv[:, np.newaxis]) / (v * v)`, lines 548-549 -/
def dUnit (dV : M3 S) (v : S) (V dv : V3 S) : M3 S :=
  let row (r : V3 S) (d : S) : V3 S := ((r.smul v).sub (V.smul d)).sdiv (v *. v)
  ⟨row dV.r0 dv.x, row dV.r1 dv.y, row dV.r2 dv.z⟩

/-- `cross_product(p, minus_identity)` for one point: the rows are `p x (-e_j)`.
Models /repo/geec/polyhedron.py:424 (with utils.py:28-29). -/
def crossDp (p : V3 S) : M3 S :=
  ⟨cross p minusIdentity.r0, cross p minusIdentity.r1, cross p minusIdentity.r2⟩

/-- `Face._get_dangle`.  Models /repo/geec/polyhedron.py:507-559.
`crossdp`, `cr`, `nm`, `unitv` are indexed like the Python arrays. -/
def getDangle (i : Nat) (inout b perp : S) (A1 A2 : V3 S) (npoints : Nat)
    (crossdp : Nat → M3 S) (cr : List (V3 S)) (nm : Nat → S) (unitv : List (V3 S)) :
    Except PyErr (V3 S) := do
  let j := (i + 1) % npoints
  let k := (i + 2) % npoints
  let cdp1 := (crossdp i).neg
  let cdp2 := crossdp j
  let cdp3 := (crossdp k).neg
  let V1 := (at3 cr i).neg
  let V2 := at3 cr j
  let v1 := nm i
  let v2 := nm j
  let uV1 := (at3 unitv i).neg
  let uV2 := at3 unitv j
  let swap := zero <. inout
  let (cdp1, cdp3) := if swap then (cdp3, cdp1) else (cdp1, cdp3)
  let (V1, V2) := if swap then (V2, V1) else (V1, V2)
  let (v1, v2) := if swap then (v2, v1) else (v1, v2)
  let (uV1, uV2) := if swap then (uV2, uV1) else (uV1, uV2)
  let dV1 := cdp1.add cdp2
  let dV2 := cdp3.add cdp2
  let dv1 := matVec dV1 uV1
  let dv2 := matVec dV2 uV2
  let DA1 := dUnit dV1 v1 V1 dv1
  let DA2 := dUnit dV2 v2 V2 dv2
  let DB := (matVec DA1 A2).add (matVec DA2 A1)
  let denom ← pySqrt (one -. b *. b)
  if denom ==. zero then return V3.zeros
  else
    let d := DB.neg.sdiv denom
    if perp <. zero then return d.neg else return d

/-- The part of `Face._get_omega` executed when `abs(dp1) > epsilon`: returns `(omega, domega)`.
Models /repo/geec/polyhedron.py:412-460 (`b` is `_get_b`, /repo/geec/polyhedron.py:491-494).  Without `gradient` Python leaves the *scalar* `-sign*0` in
`_domega`; it is never read then, and is represented by a vector with equal components. -/
def omegaKernel (pts : List (V3 S)) (un obs : V3 S) (sign : S) (gradient : Bool) :
    Except PyErr (S × V3 S) := do
  let n := pts.length
  let points := pts.map (fun p => p.sub obs)
  let dots := fun i => mdot un (at3 points i)
  let cr := (List.range n).map (fun i => cross (at3 points i) (at3 points ((i + 1) % n)))
  let nm := fun i => mnorm (at3 cr i)
  let unitv := (List.range n).map (fun i => (at3 cr i).sdiv (nm i))
  let (w, dw) ← (List.range n).foldlM (init := (zero, V3.zeros)) (fun (w, dw) i => do
    let inout := dots i
    let (A1, A2) := getA1A2 i inout n unitv
    let perp := getPerp i inout n points A1
    let b := dot A1 A2
    let angle ← getAngle inout b perp
    if gradient then
      let dangle ← getDangle i inout b perp A1 A2 n (fun k => crossDp (at3 points k)) cr nm unitv
      return (w +. angle, V3.add dw dangle)
    else
      return (w +. angle, dw))
  let w := w -. Arith.ofNat (n - 2) *. pi
  return (Arith.neg sign *. w, dw.smul (Arith.neg sign))

/-- The final formulas of `Face.get_gravity`.  Models /repo/geec/polyhedron.py:722-782
(the zero tensor added by broadcasting when `gradient` is false is the 3x3 zero matrix). -/
def faceField (un : V3 S) (dp1 omega : S) (domega pqr : V3 S) (dpqr : M3 S)
    (density Gc : S) (gradient : Bool) : V3 S × M3 S :=
  let factor := Arith.neg density *. Gc *. k1e5
  let L := un.x
  let M := un.y
  let N := un.z
  let P := pqr.x
  let Q := pqr.y
  let R := pqr.z
  let gx_ := L *. omega +. N *. Q -. M *. R
  let gy_ := M *. omega +. L *. R -. N *. P
  let gz_ := N *. omega +. M *. P -. L *. Q
  let g : V3 S := ⟨dp1 *. factor *. gx_, dp1 *. factor *. gy_, dp1 *. factor *. gz_⟩
  if gradient then
    let qx := dpqr.r0.y
    let rx := dpqr.r0.z
    let py := dpqr.r1.x
    let qy := dpqr.r1.y
    let ry := dpqr.r1.z
    let pz := dpqr.r2.x
    let qz := dpqr.r2.y
    let rz := dpqr.r2.z
    let dux := Arith.neg un.x
    let duy := Arith.neg un.y
    let duz := Arith.neg un.z
    let factor := factor *. k1e4
    let txx := factor *. (dp1 *. (L *. domega.x +. N *. qx -. M *. rx) +. dux *. gx_)
    let txy := factor *. (dp1 *. (L *. domega.y +. N *. qy -. M *. ry) +. duy *. gx_)
    let txz := factor *. (dp1 *. (L *. domega.z +. N *. qz -. M *. rz) +. duz *. gx_)
    let tyy := factor *. (dp1 *. (M *. domega.y +. L *. ry -. N *. py) +. duy *. gy_)
    let tyz := factor *. (dp1 *. (M *. domega.z +. L *. rz -. N *. pz) +. duz *. gy_)
    let tzz := factor *. (dp1 *. (N *. domega.z +. M *. pz -. L *. qz) +. duz *. gz_)
    (g, ⟨⟨txx, txy, txz⟩, ⟨txy, tyy, tyz⟩, ⟨txz, tyz, tzz⟩⟩)
  else (g, M3.zeros)

end Geec
