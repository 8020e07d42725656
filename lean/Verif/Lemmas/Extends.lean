import Verif.Lemmas.PreciseHull
import Verif.Props.Newton
/-
Arithmetics that agree with the real numbers where the operations are defined, and the parts of the computation in them.
-/
namespace Geec
open Arith
variable {S : Type}

/-- apply a function to the entries -/
def V3.map {S S' : Type} (f : S → S') (v : V3 S) : V3 S' := ⟨f v.x, f v.y, f v.z⟩
def M3.map {S S' : Type} (f : S → S') (t : M3 S) : M3 S' := ⟨t.r0.map f, t.r1.map f, t.r2.map f⟩
def Edge.map {S S' : Type} (f : S → S') (e : Edge S) : Edge S' := ⟨e.start.map f, e.fin.map f, e.simplex, e.vector.map f, f e.length, e.twinface, e.twin⟩
def Face.map {S S' : Type} (f : S → S') (c : Face S) : Face S' := ⟨c.points.map (V3.map f), c.simplex, c.un.map f, c.neighbors, c.edges.map (Edge.map f)⟩
def Poly.map {S S' : Type} (f : S → S') (p : Poly S) : Poly S' := ⟨p.points.map (V3.map f), p.faces.map (Face.map f)⟩
def Hull.map {S S' : Type} (f : S → S') (h : Hull S) : Hull S' := ⟨h.points.map (V3.map f), h.vertices, h.simplices, h.neighbors⟩
def Call.map {S S' : Type} (f : S → S') (c : Call S) : Call S' := ⟨c.obs.map f, f c.density, f c.Gc, c.gradient⟩
/-- an answer of `get_gravity`, entry by entry -/
def answerMap {S S' : Type} (f : S → S') (a : V3 S × M3 S) : V3 S' × M3 S' := (a.1.map f, a.2.map f)

/-- The operations of `S` on the images of real numbers give the images of the real results, wherever these are defined.
Nothing is said about division by zero, roots and logarithms of numbers outside of the domains, and about elements that are
not images. -/
structure Extends [Arith S] (ι : ℝ → S) : Prop where
  zero : zero = ι 0
  one : one = ι 1
  two : two = ι 2
  negOne : negOne = ι (-1)
  pi : pi = ι Real.pi
  eps : eps = ι repsilon
  k1e5 : k1e5 = ι 100000
  k1e4 : k1e4 = ι 10000
  ofNat : ∀ n : ℕ, Arith.ofNat n = ι n
  add : ∀ a b, ι a +. ι b = ι (a + b)
  sub : ∀ a b, ι a -. ι b = ι (a - b)
  mul : ∀ a b, ι a *. ι b = ι (a * b)
  div : ∀ a b, b ≠ 0 → ι a /. ι b = ι (a / b)
  neg : ∀ a, Arith.neg (ι a) = ι (-a)
  abs : ∀ a, Arith.abs (ι a) = ι |a|
  sqrt : ∀ a, 0 ≤ a → Arith.sqrt (ι a) = ι (Real.sqrt a)
  log : ∀ a, 0 < a → Arith.log (ι a) = ι (Real.log a)
  acos : ∀ a, -1 ≤ a → a ≤ 1 → Arith.acos (ι a) = ι (Real.arccos a)
  lt : ∀ a b, (ι a <. ι b) = true ↔ a < b
  eq : ∀ a b, (ι a ==. ι b) = true ↔ a = b
  dot : ∀ a b : V3 ℝ, Arith.dot (a.map ι) (b.map ι) = ι (a.x * b.x + a.y * b.y + a.z * b.z)
  mdot : ∀ a b : V3 ℝ, Arith.mdot (a.map ι) (b.map ι) = ι (a.x * b.x + a.y * b.y + a.z * b.z)
  norm : ∀ a : V3 ℝ, Arith.norm (a.map ι) = ι (Real.sqrt (a.x * a.x + a.y * a.y + a.z * a.z))
  mnorm : ∀ a : V3 ℝ, Arith.mnorm (a.map ι) = ι (Real.sqrt (a.x * a.x + a.y * a.y + a.z * a.z))

noncomputable section
namespace Extends
variable [Arith S] {ι : ℝ → S}

/-! the same with the operations of `realArith` on the right -/

theorem zero' (E : Extends ι) : (Arith.zero : S) = ι Arith.zero := E.zero
theorem one' (E : Extends ι) : (Arith.one : S) = ι Arith.one := E.one
theorem two' (E : Extends ι) : (Arith.two : S) = ι Arith.two := E.two
theorem negOne' (E : Extends ι) : (Arith.negOne : S) = ι Arith.negOne := E.negOne
theorem pi' (E : Extends ι) : (Arith.pi : S) = ι Arith.pi := E.pi
theorem eps' (E : Extends ι) : (Arith.eps : S) = ι Arith.eps := E.eps
theorem k1e5' (E : Extends ι) : (Arith.k1e5 : S) = ι Arith.k1e5 := E.k1e5
theorem k1e4' (E : Extends ι) : (Arith.k1e4 : S) = ι Arith.k1e4 := E.k1e4
theorem ofNat' (E : Extends ι) (n : ℕ) : (Arith.ofNat n : S) = ι (Arith.ofNat n) := E.ofNat n
theorem add' (E : Extends ι) (a b : ℝ) : ι a +. ι b = ι (a +. b) := E.add a b
theorem sub' (E : Extends ι) (a b : ℝ) : ι a -. ι b = ι (a -. b) := E.sub a b
theorem mul' (E : Extends ι) (a b : ℝ) : ι a *. ι b = ι (a *. b) := E.mul a b
theorem div' (E : Extends ι) (a : ℝ) {b : ℝ} (h : b ≠ 0) : ι a /. ι b = ι (a /. b) := E.div a b h
theorem neg' (E : Extends ι) (a : ℝ) : Arith.neg (ι a) = ι (Arith.neg a) := E.neg a
theorem abs' (E : Extends ι) (a : ℝ) : Arith.abs (ι a) = ι (Arith.abs a) := E.abs a
theorem sqrt' (E : Extends ι) {a : ℝ} (h : 0 ≤ a) : Arith.sqrt (ι a) = ι (Arith.sqrt a) := E.sqrt a h
theorem log' (E : Extends ι) {a : ℝ} (h : 0 < a) : Arith.log (ι a) = ι (Arith.log a) := E.log a h
theorem acos' (E : Extends ι) {a : ℝ} (h1 : -1 ≤ a) (h2 : a ≤ 1) : Arith.acos (ι a) = ι (Arith.acos a) := E.acos a h1 h2
theorem lt' (E : Extends ι) (a b : ℝ) : (ι a <. ι b) = (a <. b) := by
  rw [Bool.eq_iff_iff, E.lt]
  exact (decide_eq_true_iff).symm
theorem eq' (E : Extends ι) (a b : ℝ) : (ι a ==. ι b) = (a ==. b) := by
  rw [Bool.eq_iff_iff, E.eq]
  exact (decide_eq_true_iff).symm
theorem dot' (E : Extends ι) (a b : V3 ℝ) : Arith.dot (a.map ι) (b.map ι) = ι (Arith.dot a b) := E.dot a b
theorem mdot' (E : Extends ι) (a b : V3 ℝ) : Arith.mdot (a.map ι) (b.map ι) = ι (Arith.mdot a b) := E.mdot a b
theorem norm' (E : Extends ι) (a : V3 ℝ) : Arith.norm (a.map ι) = ι (Arith.norm a) := E.norm a
theorem mnorm' (E : Extends ι) (a : V3 ℝ) : Arith.mnorm (a.map ι) = ι (Arith.mnorm a) := E.mnorm a

theorem vzeros (E : Extends ι) : (V3.zeros : V3 S) = V3.map ι V3.zeros := by simp only [V3.zeros, V3.map, E.zero']
theorem vadd (E : Extends ι) (a b : V3 ℝ) : (a.map ι).add (b.map ι) = (a.add b).map ι := by simp only [V3.add, V3.map, E.add']
theorem vsub (E : Extends ι) (a b : V3 ℝ) : (a.map ι).sub (b.map ι) = (a.sub b).map ι := by simp only [V3.sub, V3.map, E.sub']
theorem vneg (E : Extends ι) (a : V3 ℝ) : (a.map ι).neg = a.neg.map ι := by simp only [V3.neg, V3.map, E.neg']
theorem vsmul (E : Extends ι) (s : ℝ) (a : V3 ℝ) : (a.map ι).smul (ι s) = (a.smul s).map ι := by simp only [V3.smul, V3.map, E.mul']
theorem vsdiv (E : Extends ι) {s : ℝ} (h : s ≠ 0) (a : V3 ℝ) : (a.map ι).sdiv (ι s) = (a.sdiv s).map ι := by
  simp only [V3.sdiv, V3.map, E.div' _ h]
theorem mzeros (E : Extends ι) : (M3.zeros : M3 S) = M3.map ι M3.zeros := by simp only [M3.zeros, M3.map, E.vzeros]
theorem madd (E : Extends ι) (a b : M3 ℝ) : (a.map ι).add (b.map ι) = (a.add b).map ι := by simp only [M3.add, M3.map, E.vadd]
theorem mneg (E : Extends ι) (a : M3 ℝ) : (a.map ι).neg = a.neg.map ι := by simp only [M3.neg, M3.map, E.vneg]
theorem cross (E : Extends ι) (a b : V3 ℝ) : Geec.cross (a.map ι) (b.map ι) = (Geec.cross a b).map ι := by
  simp only [Geec.cross, V3.map, E.mul', E.sub']
theorem matVec (E : Extends ι) (m : M3 ℝ) (v : V3 ℝ) : Geec.matVec (m.map ι) (v.map ι) = (Geec.matVec m v).map ι := by
  simp only [Geec.matVec, M3.map, E.mdot']; rfl
theorem at3 (E : Extends ι) (l : List (V3 ℝ)) (i : Nat) : Geec.at3 (l.map (V3.map ι)) i = (Geec.at3 l i).map ι := by
  unfold Geec.at3
  rw [E.vzeros, List.getD_eq_getElem?_getD, List.getD_eq_getElem?_getD, List.getElem?_map, Option.getD_map]
theorem veq (E : Extends ι) (a b : V3 ℝ) : Geec.veq (a.map ι) (b.map ι) = Geec.veq a b := by
  simp only [Geec.veq, V3.map, E.eq']
theorem npSign (E : Extends ι) (a : ℝ) : Geec.npSign (ι a) = ι (Geec.npSign a) := by
  unfold Geec.npSign
  rw [E.zero', E.one', E.negOne', E.lt', E.lt', E.eq']
  split
  · rfl
  · split
    · rfl
    · split <;> rfl
theorem numbaDiv (E : Extends ι) (a b : ℝ) : Geec.numbaDiv (ι a) (ι b) = (Geec.numbaDiv a b).map ι := by
  unfold Geec.numbaDiv
  rw [E.zero', E.eq']
  split
  · rfl
  · next h => rw [E.div' a (fun hb => h ((r_eq b 0).mpr hb))]; rfl
theorem pyAcos (E : Extends ι) (b : ℝ) : Geec.pyAcos (ι b) = (Geec.pyAcos b).map ι := by
  unfold Geec.pyAcos
  rw [E.one', E.negOne', E.lt', E.lt']
  split
  · rfl
  · next h =>
    simp only [Bool.or_eq_true, not_or, r_lt] at h
    rw [E.acos' (not_lt.mp h.2) (not_lt.mp h.1)]
    rfl
theorem pySqrt (E : Extends ι) (b : ℝ) : Geec.pySqrt (ι b) = (Geec.pySqrt b).map ι := by
  unfold Geec.pySqrt
  rw [E.zero', E.lt']
  split
  · rfl
  · next h =>
    rw [r_lt] at h
    rw [E.sqrt' (not_lt.mp h)]
    rfl

/-- the last formulas of `Face.get_gravity` -/
theorem faceField (E : Extends ι) (un : V3 ℝ) (d w : ℝ) (dw pqr : V3 ℝ) (dpqr : M3 ℝ) (ρ Gc : ℝ) (gr : Bool) :
    Geec.faceField (un.map ι) (ι d) (ι w) (dw.map ι) (pqr.map ι) (dpqr.map ι) (ι ρ) (ι Gc) gr =
      answerMap ι (Geec.faceField un d w dw pqr dpqr ρ Gc gr) := by
  unfold Geec.faceField answerMap
  cases gr <;> simp only [V3.map, M3.map, E.k1e5', E.k1e4', E.mul', E.neg', E.add', E.sub', E.mzeros, Bool.false_eq_true, if_false, if_true]

/-! the construction -/

theorem meanPoint (E : Extends ι) (pts : List (V3 ℝ)) {idx : List Nat} (h : idx ≠ []) :
    Geec.meanPoint (pts.map (V3.map ι)) idx = (Geec.meanPoint pts idx).map ι := by
  have key : ∀ (l : List Nat) (acc : V3 ℝ), l.foldl (fun acc i => acc.add (Geec.at3 (pts.map (V3.map ι)) i)) (acc.map ι) =
      (l.foldl (fun acc i => acc.add (Geec.at3 pts i)) acc).map ι := by
    intro l
    induction l with
    | nil => intro acc; rfl
    | cons i l ih =>
      intro acc
      rw [List.foldl_cons, List.foldl_cons, ← ih, E.at3, E.vadd]
  unfold Geec.meanPoint
  rw [E.vzeros, E.ofNat', key, E.vsdiv]
  show (idx.length : ℝ) ≠ 0
  exact_mod_cast (List.length_pos_of_ne_nil h).ne'

theorem orient (E : Extends ι) {pts : List (V3 ℝ)} {c : V3 ℝ} {s : Nat × Nat × Nat}
    (hn : Arith.norm (Geec.cross ((Geec.at3 pts s.2.1).sub (Geec.at3 pts s.1)) ((Geec.at3 pts s.2.2).sub (Geec.at3 pts s.1))) ≠ 0)
    (hd : Arith.dot (Geec.cross ((Geec.at3 pts s.2.1).sub (Geec.at3 pts s.1)) ((Geec.at3 pts s.2.2).sub (Geec.at3 pts s.1))) (c.sub (Geec.at3 pts s.1)) ≠ 0)
    (inHull : V3 ℝ → Bool) (inHull' : V3 S → Bool) :
    Geec.orient (pts.map (V3.map ι)) inHull' (c.map ι) s = (Geec.orient pts inHull c s).map fun r => (r.1.map ι, r.2) := by
  have h0 : ∀ x : ℝ, x ≠ 0 → (x ==. Arith.zero) = false := fun x hx => by
    rw [← Bool.not_eq_true, r_eq]; exact hx
  simp only [Geec.orient, E.at3, E.vsub, E.cross, E.dot', E.zero', E.eq', E.lt', E.norm', E.vneg, h0 _ hd, Bool.false_and, Bool.false_eq_true, if_false,
    E.vsdiv hn]
  split <;> rfl

omit [Arith S] in
theorem mapM_image {α β γ : Type} {g : β → γ} {f : α → Except PyErr β} {f' : α → Except PyErr γ} {l : List α} (hf : ∀ a, f' a = (f a).map g) :
    l.mapM f' = (l.mapM f).map (List.map g) := by
  induction l with
  | nil => rfl
  | cons a l ih =>
    rw [List.mapM_cons, List.mapM_cons, ih, hf a]
    rcases f a with x | x
    · rfl
    · rcases l.mapM f with y | y <;> rfl

theorem getEdges (E : Extends ι) (pts : List (V3 ℝ)) (s : Nat × Nat × Nat) (nb : List Nat) (ns : List (Nat × Nat × Nat)) :
    Geec.getEdges (pts.map (V3.map ι)) s nb ns = (Geec.getEdges pts s nb ns).map (List.map (Edge.map ι)) := by
  unfold Geec.getEdges
  refine mapM_image fun pr => ?_
  rcases getTwinface nb ns pr with x | tf
  · rfl
  · simp only [Bind.bind, Except.bind, Pure.pure, Except.pure, Except.map, Geec.mkEdge, E.at3, E.vsub, E.norm', Edge.map]

variable {h : Hull ℝ}

theorem buildFaces (E : Extends ι) (hh : h.IsHull) (inHull : V3 ℝ → Bool) (inHull' : V3 S → Bool) (nbs : List (List Nat)) :
    ∀ k (sims : List (Nat × Nat × Nat)), (∀ j, k ≤ j → sims[j]? = h.simplices[j]?) → k + nbs.length ≤ h.simplices.length →
    Geec.buildFaces (h.points.map (V3.map ι)) inHull' ((Geec.meanPoint h.points h.vertices).map ι) k nbs sims =
      (Geec.buildFaces h.points inHull (Geec.meanPoint h.points h.vertices) k nbs sims).map (List.map (Face.map ι)) := by
  induction nbs with
  | nil => intro k sims _ _; rfl
  | cons nb nbs ih =>
    intro k sims hsame hl
    simp only [List.length_cons] at hl
    have hk : k < h.simplices.length := by omega
    have hgk : sims[k]? = some h.simplices[k] := by rw [hsame k (le_refl k)]; exact List.getElem?_eq_getElem hk
    have hget : sims.getD k (0, 0, 0) = h.simplices[k] := Hull.getD_of_some hgk
    have hsk := List.getElem_mem hk
    have hn : vlen (h.normal h.simplices[k]) ≠ 0 := (vlen_pos (hh.normal_ne hsk)).ne'
    have hd' : ∀ s : Nat × Nat × Nat, rdot (h.normal s) ((Geec.meanPoint h.points h.vertices).sub (h.pt s.1)) =
        rdot (h.normal s) (Geec.meanPoint h.points h.vertices) - rdot (h.normal s) (h.pt s.1) := fun s => rdot_sub _ _ _
    have hd : rdot (h.normal h.simplices[k]) ((Geec.meanPoint h.points h.vertices).sub (h.pt h.simplices[k].1)) ≠ 0 := by
      rw [hd']
      rcases hh.outward hsk with ho | ho
      · have hlt := hh.centroid_lt ho
        linarith
      · have hlt := hh.centroid_lt ho
        rw [Hull.normal_reverse, neg_rdot, neg_rdot] at hlt
        simp only [reverseTail] at hlt
        intro h0
        linarith
    unfold Geec.buildFaces
    rw [hget, E.orient hn hd inHull inHull']
    rcases Geec.orient h.points inHull (Geec.meanPoint h.points h.vertices) h.simplices[k] with x | ⟨un, s⟩
    · rfl
    · simp only [Bind.bind, Except.bind, Pure.pure, Except.pure, Except.map]
      rw [E.getEdges]
      rcases Geec.getEdges h.points s nb _ with x | es
      · rfl
      · simp only [Except.map]
        rw [ih (k + 1) (sims.set k s) (fun j hj => by rw [List.getElem?_set_ne (by omega)]; exact hsame j (by omega)) (by omega)]
        rcases Geec.buildFaces h.points inHull (Geec.meanPoint h.points h.vertices) (k + 1) nbs (sims.set k s) with x | fs
        · rfl
        · simp only [Except.map, E.at3, List.map_cons, Face.map, List.map_nil]

theorem findTwin (E : Extends ι) (es : List (Edge ℝ)) (e : Edge ℝ) : Geec.findTwin (es.map (Edge.map ι)) (e.map ι) = Geec.findTwin es e := by
  unfold Geec.findTwin
  rw [List.findIdx?_map]
  congr 1
  funext t
  simp only [Function.comp, Edge.map, E.veq]

theorem twinStep (E : Extends ι) (fs : List (Face ℝ)) (tw : TwinMap) (i j : Nat) (e : Edge ℝ) :
    Geec.twinStep (fs.map (Face.map ι)) tw i j (e.map ι) = Geec.twinStep fs tw i j e := by
  unfold Geec.twinStep
  rcases tw.get i j with _ | t
  · have : (e.map ι).twinface = e.twinface := rfl
    simp only [this, List.getElem?_map]
    rcases fs[e.twinface]? with _ | ft
    · rfl
    · simp only [Option.map_some, Face.map, E.findTwin]
  · rfl

theorem twinEdges (E : Extends ι) (fs : List (Face ℝ)) (i : Nat) (es : List (Edge ℝ)) : ∀ j tw,
    Geec.twinEdges (fs.map (Face.map ι)) i j (es.map (Edge.map ι)) tw = Geec.twinEdges fs i j es tw := by
  induction es with
  | nil => intro j tw; rfl
  | cons e es ih => intro j tw; simp only [List.map_cons, Geec.twinEdges, E.twinStep, ih]

theorem twinFaces (E : Extends ι) (fs gs : List (Face ℝ)) : ∀ i tw,
    Geec.twinFaces (fs.map (Face.map ι)) i (gs.map (Face.map ι)) tw = Geec.twinFaces fs i gs tw := by
  induction gs with
  | nil => intro i tw; rfl
  | cons f gs ih =>
    intro i tw
    have : (f.map ι).edges = f.edges.map (Edge.map ι) := rfl
    simp only [List.map_cons, Geec.twinFaces, this, E.twinEdges, ih]

theorem getEdgeTwin (E : Extends ι) (fs : List (Face ℝ)) : Geec.getEdgeTwin (fs.map (Face.map ι)) = (Geec.getEdgeTwin fs).map (Face.map ι) := by
  unfold Geec.getEdgeTwin
  simp only [E.twinFaces]
  apply List.ext_getElem?
  intro i
  simp only [List.getElem?_mapIdx, List.getElem?_map, Option.map_map]
  rcases fs[i]? with _ | f
  · rfl
  · simp only [Option.map_some, Function.comp]
    congr 1
    simp only [Face.map, Face.mk.injEq, true_and]
    apply List.ext_getElem?
    intro j
    simp only [List.getElem?_mapIdx, List.getElem?_map, Option.map_map]
    rcases f.edges[j]? with _ | e
    · rfl
    · rfl

/-- the polyhedron built in the other arithmetic is the image of the polyhedron of real numbers -/
theorem mkPoly (E : Extends ι) (hh : h.IsHull) (inHull : V3 ℝ → Bool) (inHull' : V3 S → Bool) :
    Geec.mkPoly (h.map ι) inHull' = (Geec.mkPoly h inHull).map (Poly.map ι) := by
  have hn : ¬ h.simplices.length ≠ h.neighbors.length := by rw [hh.rows]; simp
  unfold Geec.mkPoly
  rw [if_neg hn, if_neg (show ¬ (h.map ι).simplices.length ≠ (h.map ι).neighbors.length from hn)]
  simp only [Bind.bind, Except.bind, Hull.map, E.meanPoint _ (vertices_ne hh)]
  rw [E.buildFaces hh inHull inHull' h.neighbors 0 h.simplices (fun _ _ => rfl) (by rw [hh.rows]; omega)]
  rcases Geec.buildFaces h.points inHull (Geec.meanPoint h.points h.vertices) 0 h.neighbors h.simplices with x | fs
  · rfl
  · simp only [Except.map, Pure.pure, Except.pure, E.getEdgeTwin]
    rfl

/-! the integral over an edge -/

/-- the denominators and the arguments of the functions, for the lengths `l`, `r` and the projection `b` of `r` on the edge -/
theorem edge_domain {l r b : ℝ} (hl : 0 < l) (hr : 0 < r) (hb : |b| ≤ r) (hc : r + b ≠ 0) :
    0 ≤ l * l + 2 * (b * l) + r * r ∧ 0 < Real.sqrt (l * l + 2 * (b * l) + r * r) ∧ 0 < (Real.sqrt (l * l + 2 * (b * l) + r * r) + l + b) / (r + b) := by
  obtain ⟨h1, h2⟩ := abs_le.mp hb
  have hc' : 0 < r + b := lt_of_le_of_ne (by linarith) (Ne.symm hc)
  have hs : l * l + 2 * (b * l) + r * r = (l + b) ^ 2 + (r - b) * (r + b) := by ring
  have h3 : 0 ≤ (r - b) * (r + b) := mul_nonneg (by linarith) hc'.le
  have hpos : 0 < l * l + 2 * (b * l) + r * r := by
    rw [hs]
    rcases h2.lt_or_eq with h | h
    · have := mul_pos (by linarith : 0 < r - b) hc'
      nlinarith [sq_nonneg (l + b)]
    · have : 0 < (l + b) ^ 2 := by rw [h]; positivity
      linarith
  refine ⟨hpos.le, Real.sqrt_pos.mpr hpos, div_pos ?_ hc'⟩
  rcases h2.lt_or_eq with h | h
  · have : |l + b| < Real.sqrt (l * l + 2 * (b * l) + r * r) := by
      rw [← Real.sqrt_sq_eq_abs]
      refine Real.sqrt_lt_sqrt (sq_nonneg _) ?_
      rw [hs]
      have := mul_pos (by linarith : 0 < r - b) hc'
      linarith
    have h4 := neg_abs_le (l + b)
    linarith
  · have := Real.sqrt_nonneg (l * l + 2 * (b * l) + r * r)
    linarith

/-- the value of an edge, entry by entry -/
def pairMap {S S' : Type} (f : S → S') (v : V3 S × Option (M3 S)) : V3 S' × Option (M3 S') := (v.1.map f, v.2.map (M3.map f))

theorem lineIntegral (E : Extends ι) {L R : V3 ℝ} {l r b : ℝ} (hl : 0 < l) (hr : 0 < r) (hb : |b| ≤ r) {gr : Bool}
    (hlr : ¬ repsilon < |r + b| → l = r → gr = true) {bj : ℝ} (hbj : bj = 2 * (b * l)) :
    lineIntegralAlongEdge (ι (r + b)) (L.map ι) (ι l) (R.map ι) (ι r) (ι b) (ι bj) gr =
      (lineIntegralAlongEdge (r + b) L l R r b bj gr).map (pairMap ι) := by
  unfold lineIntegralAlongEdge
  have hlt : ((Arith.eps : ℝ) <. Arith.abs (r + b)) = decide (repsilon < |r + b|) := rfl
  simp only [E.eps', E.abs', E.lt', E.mul', E.add', E.sub', E.vsdiv hl.ne', E.numbaDiv, E.vadd]
  rw [hlt]
  by_cases hc : repsilon < |r + b|
  · have hc0 : r + b ≠ 0 := by
      intro h0
      rw [h0, abs_zero] at hc
      exact absurd hc (not_lt.mpr (by unfold repsilon; positivity))
    obtain ⟨d1, d2, d3⟩ := edge_domain hl hr hb hc0
    rw [← hbj] at d1 d2 d3
    have hsq : Arith.sqrt (ι (l *. l +. bj +. r *. r)) = ι (Arith.sqrt (l *. l +. bj +. r *. r)) := E.sqrt' d1
    have hdiv : Geec.numbaDiv (Arith.sqrt (l *. l +. bj +. r *. r) +. l +. b) (r + b) = .ok ((Arith.sqrt (l *. l +. bj +. r *. r) +. l +. b) /. (r + b)) := by
      unfold Geec.numbaDiv
      rw [if_neg]
      rw [r_eq]
      exact hc0
    have hcc : (r + b) *. (r + b) ≠ 0 := mul_ne_zero hc0 hc0
    have hs0 : Arith.sqrt (l *. l +. bj +. r *. r) ≠ 0 := d2.ne'
    have ht : 0 < (Arith.sqrt (l *. l +. bj +. r *. r) +. l +. b) /. (r + b) := d3
    simp only [decide_eq_true hc, if_true, hsq, E.add', E.numbaDiv, hdiv, Except.map, bind, Except.bind, E.log' ht, E.vsmul, E.vsdiv hr.ne', E.mul', E.vsdiv hs0,
      E.vadd, E.vneg, E.vsub, E.vsdiv hcc, E.vsdiv ht.ne']
    cases gr
    · rfl
    · simp only [if_true, pure, Except.pure, pairMap, Option.map_some, M3.map]
      simp only [← E.vsmul]
      rfl
  · have hdiv : Geec.numbaDiv (Arith.abs (l -. r)) r = .ok ((Arith.abs (l -. r)) /. r) := by
      unfold Geec.numbaDiv
      rw [if_neg]
      rw [r_eq]
      exact hr.ne'
    simp only [decide_eq_false hc, Bool.false_eq_true, if_false, hdiv, Except.map, bind, Except.bind, E.vsdiv hr.ne', E.vneg]
    by_cases hlr' : l = r
    · rw [hlr hc hlr']
      have hz : Geec.numbaDiv (l -. r) (Arith.abs (l -. r)) = .error .zeroDivisionError := by
        unfold Geec.numbaDiv
        rw [if_pos]
        rw [r_eq]
        show |l - r| = 0
        rw [hlr', sub_self, abs_zero]
      simp only [if_true, hz]
    · have hne : |l - r| ≠ 0 := abs_ne_zero.mpr (sub_ne_zero.mpr hlr')
      have ht : 0 < Arith.abs (l -. r) /. r := div_pos (abs_pos.mpr (sub_ne_zero.mpr hlr')) hr
      have hz : Geec.numbaDiv (l -. r) (Arith.abs (l -. r)) = .ok ((l -. r) /. Arith.abs (l -. r)) := by
        unfold Geec.numbaDiv
        rw [if_neg]
        rw [r_eq]
        exact hne
      have hrr : r *. r ≠ 0 := mul_ne_zero hr.ne' hr.ne'
      simp only [hz, E.log' ht, E.vsmul, E.vsub, E.vsdiv hrr, E.vsdiv ht.ne']
      cases gr
      · rfl
      · simp only [if_true, pure, Except.pure, pairMap, Option.map_some, M3.map]
        simp only [← E.vsmul]
        rfl

/-- The exceptional place of an edge for queries without gradient: a station as far from an end as the edge is long, and closer than
the threshold, or with the quantity compared with the threshold equal to it; there the code takes the logarithm of zero. -/
def TameEdge (s a b : V3 ℝ) : Prop := vlen (b.sub a) = vlen (a.sub s) →
  repsilon < vlen (a.sub s) ∧ vlen (a.sub s) + rdot (a.sub s) (b.sub a) / vlen (b.sub a) ≠ repsilon

/-- the second half of the integral over an edge -/
def edgeTail {S : Type} [Arith S] (e : Edge S) (R : V3 S) (r chsgn : S) (gradient : Bool) : Except PyErr (V3 S × Option (M3 S)) := do
  let lj := e.length
  let bj0 := Arith.two *. Arith.dot R e.vector
  let b20 := bj0 /. lj /. Arith.two
  let flip := Arith.abs (r +. b20) <. Arith.eps
  let Lj := if flip then e.vector.neg else e.vector
  let bj := if flip then Arith.neg bj0 else bj0
  let b2 := if flip then bj /. lj /. Arith.two else b20
  let cj := r +. b2
  let (pqr, dpqr) ← lineIntegralAlongEdge cj Lj lj R r b2 bj gradient
  return (pqr.smul chsgn, dpqr)

theorem edgeIntegral_tail {S : Type} [Arith S] (e : Edge S) (obs : V3 S) (gr : Bool) : Geec.edgeIntegral e obs gr =
    if ((Arith.norm (e.fin.sub obs) <. Arith.norm (e.start.sub obs)) && ((Arith.dot (e.start.sub obs) (e.fin.sub obs) /.
      (Arith.norm (e.start.sub obs) *. Arith.norm (e.fin.sub obs))) ==. Arith.one)) = true
    then edgeTail e (e.fin.sub obs) (Arith.norm (e.fin.sub obs)) Arith.negOne gr
    else edgeTail e (e.start.sub obs) (Arith.norm (e.start.sub obs)) Arith.one gr := by
  unfold Geec.edgeIntegral edgeTail
  split
  · next h => simp only [h, if_true]
  · next h => simp only [Bool.not_eq_true] at h; simp only [h, Bool.false_eq_true, if_false]

theorem repsilon_pos : 0 < repsilon := by unfold repsilon; positivity

theorem edgeTail_image (E : Extends ι) {e : Edge ℝ} (hlen : e.length = vlen e.vector) (hl : 0 < e.length) {R : V3 ℝ} (hr : 0 < vlen R) (c : ℝ) {gr : Bool}
    (ht : gr = false → e.length = vlen R → repsilon < vlen R ∧ vlen R + rdot R e.vector / e.length ≠ repsilon) :
    edgeTail (e.map ι) (R.map ι) (ι (vlen R)) (ι c) gr = (edgeTail e R (vlen R) c gr).map (pairMap ι) := by
  have h2 : (Arith.two : ℝ) ≠ 0 := two_ne_zero
  have hb0 : ∀ x : ℝ, (Arith.two *. x) /. e.length /. Arith.two = x / e.length := by
    intro x
    show 2 * x / e.length / 2 = x / e.length
    ring
  have hneg : ∀ x : ℝ, (Arith.neg (Arith.two *. x)) /. e.length /. Arith.two = -(x / e.length) := by
    intro x
    show -(2 * x) / e.length / 2 = -(x / e.length)
    ring
  have hd : (Arith.dot R e.vector : ℝ) = rdot R e.vector := rfl
  have hcs : |rdot R e.vector / e.length| ≤ vlen R := by
    rw [abs_div, abs_of_pos hl, div_le_iff₀ hl, hlen]
    exact abs_rdot_le _ _
  have hadd : ∀ x y : ℝ, x +. y = x + y := fun _ _ => rfl
  unfold edgeTail
  simp only [Edge.map, E.two', E.dot', E.mul', E.div' _ hl.ne', E.div' _ h2, E.add', E.abs', E.eps', E.lt', E.neg', E.vneg, hb0, hd, hadd]
  by_cases hf : |vlen R + rdot R e.vector / e.length| < repsilon
  · have hfl : ((Arith.abs (vlen R + rdot R e.vector / e.length) : ℝ) <. Arith.eps) = true := decide_eq_true hf
    simp only [hfl, if_true, E.div' _ hl.ne', E.div' _ h2, hneg, E.add', hadd]
    rw [E.lineIntegral (L := e.vector.neg) (R := R) hl hr (b := -(rdot R e.vector / e.length)) (by rw [abs_neg]; exact hcs) (gr := gr) (by
      intro hc hlr
      by_contra hg
      obtain ⟨k, -⟩ := ht (by simpa using hg) hlr
      have h3 := (abs_lt.mp hf).2
      have h4 := le_of_abs_le (not_lt.mp hc)
      linarith) (bj := Arith.neg (Arith.two *. rdot R e.vector)) (by
      show -(2 * rdot R e.vector) = 2 * (-(rdot R e.vector / e.length) * e.length)
      field_simp)]
    rcases lineIntegralAlongEdge (vlen R + -(rdot R e.vector / e.length)) e.vector.neg e.length R (vlen R) (-(rdot R e.vector / e.length))
      (Arith.neg (Arith.two *. rdot R e.vector)) gr with x | ⟨p, d⟩
    · rfl
    · simp only [Except.map, bind, Except.bind, pure, Except.pure, pairMap, E.vsmul]
  · have hfl : ((Arith.abs (vlen R + rdot R e.vector / e.length) : ℝ) <. Arith.eps) = false := decide_eq_false hf
    simp only [hfl, Bool.false_eq_true, if_false, E.add', hadd]
    rw [E.lineIntegral (L := e.vector) (R := R) hl hr (b := rdot R e.vector / e.length) hcs (gr := gr) (by
      intro hc hlr
      by_contra hg
      obtain ⟨-, k⟩ := ht (by simpa using hg) hlr
      have h3 : |vlen R + rdot R e.vector / e.length| = repsilon := le_antisymm (not_lt.mp hc) (not_lt.mp hf)
      rw [abs_of_nonneg (by have := (abs_le.mp hcs).1; linarith)] at h3
      exact k h3) (bj := Arith.two *. rdot R e.vector) (by
      show 2 * rdot R e.vector = 2 * (rdot R e.vector / e.length * e.length)
      field_simp)]
    rcases lineIntegralAlongEdge (vlen R + rdot R e.vector / e.length) e.vector e.length R (vlen R) (rdot R e.vector / e.length)
      (Arith.two *. rdot R e.vector) gr with x | ⟨p, d⟩
    · rfl
    · simp only [Except.map, bind, Except.bind, pure, Except.pure, pairMap, E.vsmul]

theorem edgeIntegral (E : Extends ι) {e : Edge ℝ} (hv : e.vector = e.fin.sub e.start) (hlen : e.length = vlen e.vector) {s : V3 ℝ}
    (h1 : e.start ≠ s) (h2 : e.fin ≠ s) (h12 : e.start ≠ e.fin) {gr : Bool} (ht : gr = false → TameEdge s e.start e.fin ∧ (vlen (e.fin.sub e.start) = vlen (e.fin.sub s) → repsilon < vlen (e.fin.sub s))) :
    Geec.edgeIntegral (e.map ι) (s.map ι) gr = (Geec.edgeIntegral e s gr).map (pairMap ι) := by
  have sub0 : ∀ {a b : V3 ℝ}, a.sub b = V3.zeros → a = b := by
    intro a b h
    obtain ⟨hx, hy, hz⟩ := V3.mk.inj (show (⟨a.x - b.x, a.y - b.y, a.z - b.z⟩ : V3 ℝ) = ⟨0, 0, 0⟩ from h)
    exact V3.ext' (sub_eq_zero.mp hx) (sub_eq_zero.mp hy) (sub_eq_zero.mp hz)
  have r1 : 0 < vlen (e.start.sub s) := vlen_pos (fun h => h1 (sub0 h))
  have r2 : 0 < vlen (e.fin.sub s) := vlen_pos (fun h => h2 (sub0 h))
  have hl : 0 < e.length := by rw [hlen, hv]; exact vlen_pos (fun h => h12 (sub0 h).symm)
  have hn : ∀ a : V3 ℝ, (Arith.norm a : ℝ) = vlen a := fun _ => rfl
  have hr : (Arith.norm (e.start.sub s) *. Arith.norm (e.fin.sub s) : ℝ) ≠ 0 := mul_ne_zero r1.ne' r2.ne'
  rw [edgeIntegral_tail, edgeIntegral_tail]
  have hs : (e.map ι).start = e.start.map ι := rfl
  have hf : (e.map ι).fin = e.fin.map ι := rfl
  simp only [hs, hf, E.vsub, E.norm', E.lt', E.dot', E.mul', E.div' _ hr, E.one', E.eq', E.negOne']
  split
  · next hsw =>
    simp only [Bool.and_eq_true, r_lt, r_eq] at hsw
    obtain ⟨hlt, hcos⟩ := hsw
    refine E.edgeTail_image hlen hl r2 _ fun hg hlr => ?_
    have hlt : vlen (e.fin.sub s) < vlen (e.start.sub s) := hlt
    have hcos : rdot (e.start.sub s) (e.fin.sub s) = vlen (e.start.sub s) * vlen (e.fin.sub s) := by
      have : rdot (e.start.sub s) (e.fin.sub s) / (vlen (e.start.sub s) * vlen (e.fin.sub s)) = 1 := hcos
      exact (div_eq_one_iff_eq (mul_pos r1 r2).ne').mp this
    have hvv : e.vector = (e.fin.sub s).sub (e.start.sub s) := by
      rw [hv]; exact V3.ext' (by simp) (by simp) (by simp)
    have hdot : rdot (e.fin.sub s) e.vector = vlen (e.fin.sub s) * vlen (e.fin.sub s) - vlen (e.start.sub s) * vlen (e.fin.sub s) := by
      rw [hvv, rdot_sub, ← vlen_sq, rdot_comm (e.fin.sub s) (e.start.sub s), hcos]
    have hll : e.length = vlen (e.start.sub s) - vlen (e.fin.sub s) := by
      have : e.length * e.length = (vlen (e.start.sub s) - vlen (e.fin.sub s)) * (vlen (e.start.sub s) - vlen (e.fin.sub s)) := by
        have hq : ∀ a b : V3 ℝ, rdot (b.sub a) (b.sub a) = rdot b b - 2 * rdot a b + rdot a a := by
          intro a b
          simp only [rdot, V3.sub, r_sub]
          ring
        rw [hlen, vlen_sq, hvv, hq, hcos, ← vlen_sq, ← vlen_sq]
        ring
      nlinarith
    have k := (ht hg).2 (by rw [← hlr, hlen, hv])
    refine ⟨k, ?_⟩
    rw [hdot, hll]
    have : vlen (e.fin.sub s) + (vlen (e.fin.sub s) * vlen (e.fin.sub s) - vlen (e.start.sub s) * vlen (e.fin.sub s)) / (vlen (e.start.sub s) - vlen (e.fin.sub s)) = 0 := by
      have : vlen (e.start.sub s) - vlen (e.fin.sub s) ≠ 0 := by linarith
      field_simp
      ring
    rw [this]
    exact repsilon_pos.ne
  · refine E.edgeTail_image hlen hl r1 _ fun hg hlr => ?_
    have := (ht hg).1 (by rw [← hlr, hlen, hv])
    rw [hlen, hv]
    exact this

/-! the solid angle -/

omit [Arith S] in
theorem foldlM_image {α β γ : Type} {g : β → γ} {f : β → α → Except PyErr β} {f' : γ → α → Except PyErr γ} {l : List α}
    (hf : ∀ a ∈ l, ∀ b, f' (g b) a = (f b a).map g) : ∀ b, l.foldlM f' (g b) = (l.foldlM f b).map g := by
  induction l with
  | nil => intro b; rfl
  | cons a l ih =>
    intro b
    rw [List.foldlM_cons, List.foldlM_cons, hf a (by simp)]
    rcases f b a with x | x
    · rfl
    · exact ih (fun a ha => hf a (by simp [ha])) x

omit [Arith S] in
theorem foldlM_bind_image {α β γ δ ε : Type} {g : β → γ} {g2 : δ → ε} {f : β → α → Except PyErr β} {f' : γ → α → Except PyErr γ} {l : List α}
    {k : β → Except PyErr δ} {k' : γ → Except PyErr ε} (hf : ∀ a ∈ l, ∀ b, f' (g b) a = (f b a).map g)
    (hk : ∀ b, k' (g b) = (k b).map g2) (b : β) : (l.foldlM f' (g b) >>= k') = (l.foldlM f b >>= k).map g2 := by
  rw [foldlM_image hf]
  rcases l.foldlM f b with x | x
  · rfl
  · exact hk x

theorem getA1A2 (E : Extends ι) (i : Nat) (inout : ℝ) (n : Nat) (u : List (V3 ℝ)) :
    Geec.getA1A2 i (ι inout) n (u.map (V3.map ι)) = ((Geec.getA1A2 i inout n u).1.map ι, (Geec.getA1A2 i inout n u).2.map ι) := by
  unfold Geec.getA1A2
  simp only [E.at3, E.vneg, E.zero', E.lt']
  split <;> rfl

theorem getPerp (E : Extends ι) (i : Nat) (inout : ℝ) (n : Nat) (pts : List (V3 ℝ)) (a : V3 ℝ) :
    Geec.getPerp i (ι inout) n (pts.map (V3.map ι)) (a.map ι) = ι (Geec.getPerp i inout n pts a) := by
  unfold Geec.getPerp
  simp only [E.at3, E.zero', E.eq', E.lt', E.one']
  split
  · rfl
  · split <;> exact E.dot' _ _

theorem getAngle (E : Extends ι) (inout b perp : ℝ) : Geec.getAngle (ι inout) (ι b) (ι perp) = (Geec.getAngle inout b perp).map ι := by
  unfold Geec.getAngle
  simp only [E.zero', E.eq', E.lt', E.two', E.pi', E.pyAcos]
  split
  · rfl
  · rcases Geec.pyAcos b with x | x
    · rfl
    · simp only [Except.map, bind, Except.bind, E.mul', E.sub', pure, Except.pure]
      split <;> rfl

theorem dUnit (E : Extends ι) (dV : M3 ℝ) {v : ℝ} (hv : v ≠ 0) (V dv : V3 ℝ) :
    Geec.dUnit (dV.map ι) (ι v) (V.map ι) (dv.map ι) = (Geec.dUnit dV v V dv).map ι := by
  have hvv : v *. v ≠ 0 := mul_ne_zero hv hv
  unfold Geec.dUnit
  have e1 : ∀ d : V3 ℝ, (d.map ι).x = ι d.x ∧ (d.map ι).y = ι d.y ∧ (d.map ι).z = ι d.z := fun _ => ⟨rfl, rfl, rfl⟩
  simp only [M3.map, e1, E.vsmul, E.vsub, E.mul', E.vsdiv hvv]

theorem crossDp (E : Extends ι) (p : V3 ℝ) : Geec.crossDp (p.map ι) = (Geec.crossDp p).map ι := by
  have e : (minusIdentity : M3 S) = M3.map ι minusIdentity := by simp only [minusIdentity, M3.map, V3.map, E.zero', E.negOne']
  unfold Geec.crossDp
  rw [e]
  simp only [M3.map, E.cross]

theorem getDangle (E : Extends ι) {i : Nat} {inout b perp : ℝ} {A1 A2 : V3 ℝ} {n : Nat} {cdp : Nat → M3 ℝ} {cr : List (V3 ℝ)} {nm : Nat → ℝ} {u : List (V3 ℝ)}
    (h1 : nm i ≠ 0) (h2 : nm ((i + 1) % n) ≠ 0) :
    Geec.getDangle i (ι inout) (ι b) (ι perp) (A1.map ι) (A2.map ι) n (fun k => (cdp k).map ι) (cr.map (V3.map ι)) (fun k => ι (nm k)) (u.map (V3.map ι)) =
      (Geec.getDangle i inout b perp A1 A2 n cdp cr nm u).map (V3.map ι) := by
  unfold Geec.getDangle
  have e3 : (1 : ℝ) = Arith.one := rfl
  simp only [E.zero', E.one', E.lt', E.at3, E.vneg, E.mneg, E.mul', E.sub', E.pySqrt]
  cases hsw : ((Arith.zero : ℝ) <. inout)
  all_goals
    simp only [Bool.false_eq_true, if_false, if_true, E.madd, E.matVec, E.dUnit _ h1, E.dUnit _ h2, E.vadd, E.vneg]
    rcases Geec.pySqrt (Arith.one -. b *. b) with x | d
    · rfl
    · simp only [Except.map, bind, Except.bind, E.eq', pure, Except.pure]
      by_cases hd : d = 0
      · have : (d ==. (Arith.zero : ℝ)) = true := (r_eq _ _).mpr hd
        simp only [this, if_true, E.vzeros]
      · have : (d ==. (Arith.zero : ℝ)) = false := by rw [← Bool.not_eq_true, r_eq]; exact hd
        simp only [this, Bool.false_eq_true, if_false, E.vsdiv hd, E.vneg]
        split <;> rfl

theorem omegaKernel (E : Extends ι) {pts : List (V3 ℝ)} {un obs : V3 ℝ} (sign : ℝ) (gr : Bool)
    (hn : ∀ i < pts.length, Arith.mnorm (Geec.cross ((Geec.at3 pts i).sub obs) ((Geec.at3 pts ((i + 1) % pts.length)).sub obs)) ≠ 0) :
    Geec.omegaKernel (pts.map (V3.map ι)) (un.map ι) (obs.map ι) (ι sign) gr = (Geec.omegaKernel pts un obs sign gr).map fun r => (ι r.1, r.2.map ι) := by
  have hat : ∀ i < pts.length, Geec.at3 (pts.map fun p => p.sub obs) i = (Geec.at3 pts i).sub obs := by
    intro i hi
    unfold Geec.at3
    rw [List.getD_eq_getElem?_getD, List.getD_eq_getElem?_getD, List.getElem?_map, List.getElem?_eq_getElem hi]
    rfl
  have hp : (pts.map (V3.map ι)).map (fun p => p.sub (obs.map ι)) = (pts.map fun p => p.sub obs).map (V3.map ι) := by
    rw [List.map_map, List.map_map]
    congr 1
    funext p
    exact E.vsub p obs
  have hcr : (List.range pts.length).map (fun i => Geec.cross (Geec.at3 ((pts.map fun p => p.sub obs).map (V3.map ι)) i)
        (Geec.at3 ((pts.map fun p => p.sub obs).map (V3.map ι)) ((i + 1) % pts.length))) =
      ((List.range pts.length).map fun i => Geec.cross (Geec.at3 (pts.map fun p => p.sub obs) i)
        (Geec.at3 (pts.map fun p => p.sub obs) ((i + 1) % pts.length))).map (V3.map ι) := by
    generalize pts.map (fun p => p.sub obs) = q
    rw [List.map_map]
    refine List.map_congr_left fun i _ => ?_
    simp only [E.at3, Function.comp]
    exact E.cross _ _
  have hnm : ∀ i < pts.length, Arith.mnorm (Geec.at3 ((List.range pts.length).map fun i => Geec.cross (Geec.at3 (pts.map fun p => p.sub obs) i)
        (Geec.at3 (pts.map fun p => p.sub obs) ((i + 1) % pts.length))) i) ≠ 0 := by
    intro i hi
    have hl : i < ((List.range pts.length).map fun i => Geec.cross (Geec.at3 (pts.map fun p => p.sub obs) i)
        (Geec.at3 (pts.map fun p => p.sub obs) ((i + 1) % pts.length))).length := by simpa using hi
    rw [Geec.at3, List.getD_eq_getElem?_getD, List.getElem?_eq_getElem hl, Option.getD_some, List.getElem_map, List.getElem_range,
      hat i hi, hat _ (Nat.mod_lt _ (by omega))]
    exact hn i hi
  unfold Geec.omegaKernel
  simp only [hp, List.length_map]
  rw [hcr]
  generalize hcr' : ((List.range pts.length).map fun i => Geec.cross (Geec.at3 (pts.map fun p => p.sub obs) i)
        (Geec.at3 (pts.map fun p => p.sub obs) ((i + 1) % pts.length))) = cr at hnm ⊢
  have hu : (List.range pts.length).map (fun i => (Geec.at3 (cr.map (V3.map ι)) i).sdiv (Arith.mnorm (Geec.at3 (cr.map (V3.map ι)) i))) =
      ((List.range pts.length).map fun i => (Geec.at3 cr i).sdiv (Arith.mnorm (Geec.at3 cr i))).map (V3.map ι) := by
    rw [List.map_map]
    refine List.map_congr_left fun i hi => ?_
    simp only [E.at3, Function.comp, E.mnorm']
    exact E.vsdiv (hnm i (List.mem_range.mp hi)) _
  rw [hu]
  generalize ((List.range pts.length).map fun i => (Geec.at3 cr i).sdiv (Arith.mnorm (Geec.at3 cr i))) = u
  have hz : ((Arith.zero : S), (V3.zeros : V3 S)) = (fun r : ℝ × V3 ℝ => (ι r.1, r.2.map ι)) (Arith.zero, V3.zeros) := by
    simp only [E.zero', E.vzeros]
  rw [hz]
  refine foldlM_bind_image (g := fun r : ℝ × V3 ℝ => (ι r.1, r.2.map ι)) ?_ ?_ _
  · rintro i hi ⟨w, dw⟩
    have hi := List.mem_range.mp hi
    have h1 := hnm i hi
    have h2 := hnm ((i + 1) % pts.length) (Nat.mod_lt _ (by omega))
    simp only [E.at3, E.mdot', E.getA1A2, E.getPerp, E.dot', E.getAngle, E.mnorm', E.crossDp]
    rcases Geec.getAngle _ _ _ with x | a
    · rfl
    · simp only [Except.map, bind, Except.bind, pure, Except.pure, E.add']
      cases gr
      · rfl
      · simp only [if_true]
        rw [E.getDangle h1 h2]
        rcases Geec.getDangle _ _ _ _ _ _ _ _ _ _ _ with x | d
        · rfl
        · simp only [Except.map, E.vadd]
  · rintro ⟨w, dw⟩
    simp only [Except.map, pure, Except.pure, E.neg', E.mul', E.sub', E.ofNat', E.pi', E.vsmul]

end Extends
end
end Geec
