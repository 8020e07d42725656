import Verif.Lemmas.Reset
/-
Closed form of `get_gravity` on an object with empty caches: what the caching, the sharing between twin edges and the
in-place updates of aliased arrays compute.
-/
namespace Geec
open Arith
variable {S : Type} [Arith S]
set_option linter.unusedSectionVars false

/-- edge `j` of face `i` -/
def Poly.edgeAt (p : Poly S) (i j : Nat) : Option (Edge S) := (p.faces[i]?).bind (fun f => f.edges[j]?)

/-- every edge has a twin in another face, and the twin of the twin is the edge -/
def Poly.WellTwinned (p : Poly S) : Prop :=
  ∀ i j e, p.edgeAt i j = some e → ∃ i' j' e', e.twin = some (i', j') ∧ p.edgeAt i' j' = some e' ∧
    e'.twin = some (i, j) ∧ i' ≠ i

/-- the value given to the twin -/
def pairNeg (v : V3 S × Option (M3 S)) : V3 S × Option (M3 S) := (v.1.neg, v.2.map M3.neg)

/-- The value an edge of face `i` contributes: its own integral, or the negated integral of its twin when the face of
the twin has a smaller index. -/
def edgeValue (p : Poly S) (obs : V3 S) (gr : Bool) (i : Nat) (e : Edge S) : Except PyErr (V3 S × Option (M3 S)) :=
  match e.twin with
  | none => .error .typeError
  | some (i', j') =>
    if i' < i then
      match p.edgeAt i' j' with
      | some e' => (edgeIntegral e' obs gr).map pairNeg
      | none => .error .typeError
    else edgeIntegral e obs gr

/-- sum of the values of the edges of a face, from left to right -/
def sumPqr : List (V3 S × Option (M3 S)) → V3 S → V3 S
  | [], a => a
  | v :: vs, a => sumPqr vs (a.add v.1)

def sumDpqr : List (V3 S × Option (M3 S)) → M3 S → M3 S
  | [], a => a
  | v :: vs, a => sumDpqr vs (a.add (v.2.getD M3.zeros))

/-- values of the edges of face `i`, in order, or the first exception -/
def edgesValue (p : Poly S) (obs : V3 S) (gr : Bool) (i : Nat) :
    List (Edge S) → Except PyErr (List (V3 S × Option (M3 S)))
  | [] => .ok []
  | e :: es =>
    match edgeValue p obs gr i e with
    | .error x => .error x
    | .ok v => match edgesValue p obs gr i es with
      | .error x => .error x
      | .ok vs => .ok (v :: vs)

/-- `dp1` of a face -/
def Face.height (f : Face S) (obs : V3 S) : S := dot f.un ((at3 f.points 0).sub obs)

/-- `(omega, domega)` of a face -/
def omegaValue (f : Face S) (obs : V3 S) (gr : Bool) : Except PyErr (S × V3 S) :=
  if eps <. abs (f.height obs) then omegaKernel f.points f.un obs (npSign (f.height obs)) gr
  else .ok (zero, V3.zeros)

/-- the field of a face from the values of its edges -/
def fieldOfEdges (f : Face S) (obs : V3 S) (w : S × V3 S) (ρ Gc : S) (gr : Bool) :
    List (V3 S × Option (M3 S)) → Except PyErr (V3 S × M3 S)
  | [] => .error .notImplementedError
  | v :: vs => .ok (faceField f.un (f.height obs) w.1 w.2 (sumPqr vs v.1) (sumDpqr vs (v.2.getD M3.zeros)) ρ Gc gr)

/-- the field of face `i` -/
def faceValue (p : Poly S) (obs : V3 S) (ρ Gc : S) (gr : Bool) (i : Nat) (f : Face S) : Except PyErr (V3 S × M3 S) :=
  match omegaValue f obs gr with
  | .error x => .error x
  | .ok w => match edgesValue p obs gr i f.edges with
    | .error x => .error x
    | .ok vs => fieldOfEdges f obs w ρ Gc gr vs

/-- sum over the faces from face `i` on -/
def facesValue (p : Poly S) (obs : V3 S) (ρ Gc : S) (gr : Bool) :
    Nat → List (Face S) → V3 S → M3 S → Except PyErr (V3 S × M3 S)
  | _, [], G, T => .ok (G, T)
  | i, f :: fs, G, T =>
    match faceValue p obs ρ Gc gr i f with
    | .error x => .error x
    | .ok (g, t) => facesValue p obs ρ Gc gr (i + 1) fs (G.add g) (T.add t)

theorem lineIntegral_opt {cj : S} {Lj : V3 S} {lj : S} {Rj : V3 S} {rj b2 bj : S} {gr : Bool} {r : V3 S × Option (M3 S)}
    (h : lineIntegralAlongEdge cj Lj lj Rj rj b2 bj gr = .ok r) : r.2.isSome = gr := by
  unfold lineIntegralAlongEdge at h
  cases gr <;> simp only [bind, Except.bind, pure, Except.pure, Bool.false_eq_true, if_false, if_true] at h
  · split at h <;> split at h <;> cases h <;> rfl
  · split at h
    · split at h
      · cases h
      · cases h; rfl
    · split at h
      · cases h
      · split at h
        · cases h
        · cases h; rfl

theorem edgeIntegral_opt {e : Edge S} {obs : V3 S} {gr : Bool} {r : V3 S × Option (M3 S)}
    (h : edgeIntegral e obs gr = .ok r) : r.2.isSome = gr := by
  unfold edgeIntegral at h
  simp only [bind, Except.bind, pure, Except.pure] at h
  split at h
  · cases h
  · next h' => cases h; exact (lineIntegral_opt h' :)

/-- edge `(k, l)` has the value `v` in its cache -/
structure Cached (m : Mem S) (k l : Nat) (v : V3 S × Option (M3 S)) : Prop where
  pqr : ∃ a, (m.edge k l).pqr = some a ∧ a < m.vn ∧ m.va a = v.1
  dpqr : (v.2 = none ∧ (m.edge k l).dpqr = none) ∨
    ∃ D b, v.2 = some D ∧ (m.edge k l).dpqr = some b ∧ b < m.mn ∧ m.ma b = D

/-- Invariant between two edges: `D` are the edges already processed, `fl`, `fm` the arrays of the current face. -/
structure Inv (p : Poly S) (obs : V3 S) (gr : Bool) (D : Nat → Nat → Prop) (fl fm : Option Nat) (m : Mem S) : Prop where
  done : ∀ k l e k' l' e', p.edgeAt k l = some e → ¬ D k l → e.twin = some (k', l') → p.edgeAt k' l' = some e' →
    D k' l' → ∃ v, edgeIntegral e' obs gr = .ok v ∧ Cached m k l (pairNeg v)
  todo : ∀ k l e k' l', p.edgeAt k l = some e → ¬ D k l → e.twin = some (k', l') → ¬ D k' l' →
    m.edge k l = ⟨none, none⟩
  injv : ∀ k l e k2 l2 e2 a, p.edgeAt k l = some e → p.edgeAt k2 l2 = some e2 → ¬ D k l → ¬ D k2 l2 →
    (m.edge k l).pqr = some a → (m.edge k2 l2).pqr = some a → k = k2 ∧ l = l2
  injm : ∀ k l e k2 l2 e2 a, p.edgeAt k l = some e → p.edgeAt k2 l2 = some e2 → ¬ D k l → ¬ D k2 l2 →
    (m.edge k l).dpqr = some a → (m.edge k2 l2).dpqr = some a → k = k2 ∧ l = l2
  sepv : ∀ k l e a, p.edgeAt k l = some e → ¬ D k l → (m.edge k l).pqr = some a → fl ≠ some a
  sepm : ∀ k l e a, p.edgeAt k l = some e → ¬ D k l → (m.edge k l).dpqr = some a → fm ≠ some a
  bv : ∀ k l e a, p.edgeAt k l = some e → ¬ D k l → (m.edge k l).pqr = some a → a < m.vn
  bm : ∀ k l e a, p.edgeAt k l = some e → ¬ D k l → (m.edge k l).dpqr = some a → a < m.mn
  bfl : ∀ a, fl = some a → a < m.vn
  bfm : ∀ a, fm = some a → a < m.mn

/-- one more processed edge -/
def Add (D : Nat → Nat → Prop) (i j : Nat) : Nat → Nat → Prop := fun k l => D k l ∨ (k = i ∧ l = j)

/-- What `edgeCompute` guarantees on edge `(i, j)`. -/
structure EdgeDone (p : Poly S) (obs : V3 S) (gr : Bool) (D : Nat → Nat → Prop) (fl fm : Option Nat) (i j : Nat)
    (v : V3 S × Option (M3 S)) (m m1 : Mem S) : Prop where
  inv : Inv p obs gr (Add D i j) fl fm m1
  inv' : Inv p obs gr (Add D i j) (m1.edge i j).pqr (m1.edge i j).dpqr m1
  cached : Cached m1 i j v
  face : m1.face = m.face
  va : ∀ a, a < m.vn → m1.va a = m.va a
  ma : ∀ a, a < m.mn → m1.ma a = m.ma a
  fl : ∀ a, (m1.edge i j).pqr = some a → fl ≠ some a
  fm : ∀ a, (m1.edge i j).dpqr = some a → fm ≠ some a

variable {p : Poly S} {obs : V3 S} {gr : Bool} {D : Nat → Nat → Prop} {fl fm : Option Nat}

theorem add_not {i j k l : Nat} (h : ¬ Add D i j k l) : ¬ D k l ∧ ¬ (k = i ∧ l = j) := by
  simpa [Add, not_or] using h

theorem Poly.WellTwinned.back (hw : p.WellTwinned) {i j i' j' k l : Nat} {e f : Edge S} (he : p.edgeAt i j = some e)
    (ht : e.twin = some (i', j')) (hf : p.edgeAt k l = some f) (hft : f.twin = some (i, j)) : k = i' ∧ l = j' := by
  obtain ⟨a, b, e1, h1, h2, h3, -⟩ := hw k l f hf
  rw [hft] at h1
  cases h1
  rw [he] at h2
  cases h2
  rw [ht] at h3
  cases h3
  exact ⟨rfl, rfl⟩

theorem edgeCompute_cached (hw : p.WellTwinned) {m : Mem S} (hi : Inv p obs gr D fl fm m) {i j i' j' : Nat}
    {e e' : Edge S} (he : p.edgeAt i j = some e) (hD : ¬ D i j) (ht : e.twin = some (i', j'))
    (he' : p.edgeAt i' j' = some e') (hD' : D i' j') :
    ∃ v, edgeIntegral e' obs gr = .ok v ∧ edgeCompute i j e obs gr m = (.ok (), m) ∧
      EdgeDone p obs gr D fl fm i j (pairNeg v) m m := by
  obtain ⟨v, hv, hc⟩ := hi.done i j e i' j' e' he hD ht he' hD'
  refine ⟨v, hv, ?_, ?_⟩
  · obtain ⟨a, ha, -⟩ := hc.pqr
    simp only [edgeCompute, ha]
  · have key : ∀ fl fm, (∀ k l e a, p.edgeAt k l = some e → ¬ Add D i j k l → (m.edge k l).pqr = some a → fl ≠ some a) →
        (∀ k l e a, p.edgeAt k l = some e → ¬ Add D i j k l → (m.edge k l).dpqr = some a → fm ≠ some a) →
        (∀ a, fl = some a → a < m.vn) → (∀ a, fm = some a → a < m.mn) → Inv p obs gr (Add D i j) fl fm m := by
      intro fl fm h1' h2' h3' h4'
      refine ⟨?_, fun k l e k' l' h1 h2 h3 h4 => hi.todo k l e k' l' h1 (add_not h2).1 h3 (add_not h4).1,
        fun k l e k2 l2 e2 a h1 h2 h3 h4 => hi.injv k l e k2 l2 e2 a h1 h2 (add_not h3).1 (add_not h4).1,
        fun k l e k2 l2 e2 a h1 h2 h3 h4 => hi.injm k l e k2 l2 e2 a h1 h2 (add_not h3).1 (add_not h4).1,
        h1', h2', fun k l e a h1 h2 => hi.bv k l e a h1 (add_not h2).1,
        fun k l e a h1 h2 => hi.bm k l e a h1 (add_not h2).1, h3', h4'⟩
      intro k l e1 k' l' e1' h1 h2 h3 h4 h5
      rcases h5 with h5 | ⟨rfl, rfl⟩
      · exact hi.done k l e1 k' l' e1' h1 (add_not h2).1 h3 h4 h5
      · obtain ⟨rfl, rfl⟩ := hw.back he ht h1 h3
        exact absurd hD' (add_not h2).1
    refine ⟨key _ _ (fun k l e a h1 h2 => hi.sepv k l e a h1 (add_not h2).1)
      (fun k l e a h1 h2 => hi.sepm k l e a h1 (add_not h2).1) hi.bfl hi.bfm,
      key _ _ ?_ ?_ (fun a => hi.bv i j e a he hD) (fun a => hi.bm i j e a he hD), hc, rfl,
      fun _ _ => rfl, fun _ _ => rfl, fun a => hi.sepv i j e a he hD, fun a => hi.sepm i j e a he hD⟩
    · intro k l e2 a h1 h2 h3 h4
      obtain ⟨rfl, rfl⟩ := hi.injv k l e2 i j e a h1 he (add_not h2).1 hD h3 h4
      exact (add_not h2).2 ⟨rfl, rfl⟩
    · intro k l e2 a h1 h2 h3 h4
      obtain ⟨rfl, rfl⟩ := hi.injm k l e2 i j e a h1 he (add_not h2).1 hD h3 h4
      exact (add_not h2).2 ⟨rfl, rfl⟩

/-- the memory after an edge and its twin have been given their values -/
def Mem.withPair (m : Mem S) (i j i' j' : Nat) (v : V3 S × Option (M3 S)) : Mem S :=
  let n := m.mn
  { va := fun l => if l = m.vn + 1 then v.1.neg else if l = m.vn then v.1 else m.va l
    vn := m.vn + 2
    ma := fun l => match v.2 with
      | none => m.ma l
      | some T => if l = n + 1 then T.neg else if l = n then T else m.ma l
    mn := if v.2.isSome then n + 2 else n
    edge := fun k l => if k = i' ∧ l = j' then ⟨some (m.vn + 1), if v.2.isSome then some (n + 1) else none⟩
      else if k = i ∧ l = j then ⟨some m.vn, if v.2.isSome then some n else none⟩ else m.edge k l
    face := m.face }

theorem edgeCompute_fresh {m : Mem S} {i j i' j' : Nat} {e : Edge S} (hii : i' ≠ i) (h1 : m.edge i j = ⟨none, none⟩)
    (h2 : m.edge i' j' = ⟨none, none⟩) (ht : e.twin = some (i', j')) {v : V3 S × Option (M3 S)}
    (hv : edgeIntegral e obs gr = .ok v) : edgeCompute i j e obs gr m = (.ok (), m.withPair i j i' j' v) := by
  obtain ⟨v1, v2⟩ := v
  have hi2 : ¬ (i = i') := fun h => hii h.symm
  unfold edgeCompute
  rw [h1, hv, ht]
  rcases v2 with _ | T
  · simp only [setTwinPqr, Mem.newEdgePqr, Mem.newEdgeDpqr, Mem.setEdge, Mem.setV, Mem.withPair, hi2, hii, false_and,
      if_true, if_false, and_self, Option.isSome_none, Bool.false_eq_true, h1, h2]
    refine congrArg (Prod.mk _) ?_
    congr 1
    · funext k l
      by_cases hk : k = i' ∧ l = j'
      · simp [hk]
      · simp only [hk, if_false]
        by_cases hk2 : k = i ∧ l = j
        · simp [hk2]
        · simp [hk2]
  · simp only [setTwinPqr, Mem.newEdgePqr, Mem.newEdgeDpqr, Mem.setEdge, Mem.setV, Mem.setM, Mem.withPair, hi2, hii,
      false_and, if_true, if_false, and_self, Option.isSome_some, h1, h2]
    refine congrArg (Prod.mk _) ?_
    congr 1
    · funext k l
      by_cases hk : k = i' ∧ l = j'
      · simp [hk]
      · simp only [hk, if_false]
        by_cases hk2 : k = i ∧ l = j
        · simp [hk2]
        · simp [hk2]

theorem edgeCompute_new (hw : p.WellTwinned) {m : Mem S} (hi : Inv p obs gr D fl fm m) {i j i' j' : Nat}
    {e e' : Edge S} (he : p.edgeAt i j = some e) (hD : ¬ D i j) (ht : e.twin = some (i', j')) (hii : i' ≠ i)
    (he' : p.edgeAt i' j' = some e') (ht' : e'.twin = some (i, j)) (hD' : ¬ D i' j') {v : V3 S × Option (M3 S)}
    (hv : edgeIntegral e obs gr = .ok v) :
    ∃ m1, edgeCompute i j e obs gr m = (.ok (), m1) ∧ EdgeDone p obs gr D fl fm i j v m m1 := by
  refine ⟨_, edgeCompute_fresh hii (hi.todo i j e i' j' he hD ht hD') (hi.todo i' j' e' i j he' hD' ht' hD) ht hv, ?_⟩
  have hij : ¬ (i = i' ∧ j = j') := fun h => hii h.1.symm
  have eij : (m.withPair i j i' j' v).edge i j = ⟨some m.vn, if v.2.isSome then some m.mn else none⟩ := by
    simp [Mem.withPair, hij]
  have eij' : (m.withPair i j i' j' v).edge i' j' = ⟨some (m.vn + 1), if v.2.isSome then some (m.mn + 1) else none⟩ := by
    simp [Mem.withPair]
  have eo : ∀ k l, ¬ (k = i ∧ l = j) → ¬ (k = i' ∧ l = j') → (m.withPair i j i' j' v).edge k l = m.edge k l := by
    intro k l h1 h2; simp [Mem.withPair, h1, h2]
  have hmn : m.mn ≤ (m.withPair i j i' j' v).mn := by
    simp only [Mem.withPair]; split <;> omega
  have hmn2 : v.2.isSome = true → (m.withPair i j i' j' v).mn = m.mn + 2 := by
    intro h; simp [Mem.withPair, h]
  have hvn : (m.withPair i j i' j' v).vn = m.vn + 2 := rfl
  have va : ∀ a, a < m.vn → (m.withPair i j i' j' v).va a = m.va a := by
    intro a ha
    have h1 : a ≠ m.vn + 1 := by omega
    have h2 : a ≠ m.vn := by omega
    simp [Mem.withPair, h1, h2]
  have ma : ∀ a, a < m.mn → (m.withPair i j i' j' v).ma a = m.ma a := by
    intro a ha
    have h1 : a ≠ m.mn + 1 := by omega
    have h2 : a ≠ m.mn := by omega
    simp only [Mem.withPair, h1, h2, if_false]
    split <;> rfl
  have cij : Cached (m.withPair i j i' j' v) i j v := by
    refine ⟨⟨m.vn, by rw [eij], by omega, by simp [Mem.withPair]⟩, ?_⟩
    rcases hv2 : v.2 with _ | T
    · exact .inl ⟨rfl, by rw [eij]; simp [hv2]⟩
    · exact .inr ⟨T, m.mn, rfl, by rw [eij]; simp [hv2], by rw [hmn2 (by simp [hv2])]; omega,
        by simp [Mem.withPair, hv2]⟩
  have cij' : Cached (m.withPair i j i' j' v) i' j' (pairNeg v) := by
    refine ⟨⟨m.vn + 1, by rw [eij'], by omega, by simp [Mem.withPair, pairNeg]⟩, ?_⟩
    rcases hv2 : v.2 with _ | T
    · exact .inl ⟨by simp [pairNeg, hv2], by rw [eij']; simp [hv2]⟩
    · exact .inr ⟨T.neg, m.mn + 1, by simp [pairNeg, hv2], by rw [eij']; simp [hv2], by rw [hmn2 (by simp [hv2])]; omega,
        by simp [Mem.withPair, hv2]⟩
  -- the reference of a pending edge in the new memory
  have loc : ∀ k l e2 a, p.edgeAt k l = some e2 → ¬ Add D i j k l →
      ((m.withPair i j i' j' v).edge k l).pqr = some a →
      (k = i' ∧ l = j' ∧ a = m.vn + 1) ∨ (¬ (k = i' ∧ l = j') ∧ (m.edge k l).pqr = some a ∧ a < m.vn) := by
    intro k l e2 a h1 h2 h3
    by_cases hk : k = i' ∧ l = j'
    · obtain ⟨rfl, rfl⟩ := hk
      rw [eij'] at h3
      exact .inl ⟨rfl, rfl, (Option.some.inj h3).symm⟩
    · rw [eo k l (add_not h2).2 hk] at h3
      exact .inr ⟨hk, h3, hi.bv k l e2 a h1 (add_not h2).1 h3⟩
  have locm : ∀ k l e2 a, p.edgeAt k l = some e2 → ¬ Add D i j k l →
      ((m.withPair i j i' j' v).edge k l).dpqr = some a →
      (k = i' ∧ l = j' ∧ a = m.mn + 1 ∧ v.2.isSome = true) ∨
      (¬ (k = i' ∧ l = j') ∧ (m.edge k l).dpqr = some a ∧ a < m.mn) := by
    intro k l e2 a h1 h2 h3
    by_cases hk : k = i' ∧ l = j'
    · obtain ⟨rfl, rfl⟩ := hk
      rw [eij'] at h3
      by_cases hs : v.2.isSome = true
      · simp only [hs, if_true, Option.some.injEq] at h3
        exact .inl ⟨rfl, rfl, h3.symm, hs⟩
      · simp only [hs] at h3
        cases h3
    · rw [eo k l (add_not h2).2 hk] at h3
      exact .inr ⟨hk, h3, hi.bm k l e2 a h1 (add_not h2).1 h3⟩
  have key : ∀ fl fm,
      (∀ k l e a, p.edgeAt k l = some e → ¬ Add D i j k l →
        ((m.withPair i j i' j' v).edge k l).pqr = some a → fl ≠ some a) →
      (∀ k l e a, p.edgeAt k l = some e → ¬ Add D i j k l →
        ((m.withPair i j i' j' v).edge k l).dpqr = some a → fm ≠ some a) →
      (∀ a, fl = some a → a < (m.withPair i j i' j' v).vn) → (∀ a, fm = some a → a < (m.withPair i j i' j' v).mn) →
      Inv p obs gr (Add D i j) fl fm (m.withPair i j i' j' v) := by
    intro fl fm h1' h2' h3' h4'
    refine ⟨?_, ?_, ?_, ?_, h1', h2', ?_, ?_, h3', h4'⟩
    · intro k l e1 k' l' e1' h1 h2 h3 h4 h5
      by_cases hk : k = i' ∧ l = j'
      · obtain ⟨rfl, rfl⟩ := hk
        rw [he'] at h1
        cases h1
        rw [ht'] at h3
        cases h3
        rw [he] at h4
        cases h4
        exact ⟨v, hv, cij'⟩
      · rcases h5 with h5 | ⟨rfl, rfl⟩
        · obtain ⟨u, hu, ⟨a, ha, hal, hav⟩, hc⟩ := hi.done k l e1 k' l' e1' h1 (add_not h2).1 h3 h4 h5
          refine ⟨u, hu, ⟨a, by rw [eo k l (add_not h2).2 hk, ha], by omega, by rw [va a hal, hav]⟩, ?_⟩
          rcases hc with ⟨h6, h7⟩ | ⟨T, b, h6, h7, h8, h9⟩
          · exact .inl ⟨h6, by rw [eo k l (add_not h2).2 hk, h7]⟩
          · exact .inr ⟨T, b, h6, by rw [eo k l (add_not h2).2 hk, h7], by omega, by rw [ma b h8, h9]⟩
        · exact absurd (hw.back he ht h1 h3) hk
    · intro k l e1 k' l' h1 h2 h3 h4
      have hk : ¬ (k = i' ∧ l = j') := by
        rintro ⟨rfl, rfl⟩
        rw [he'] at h1
        cases h1
        rw [ht'] at h3
        cases h3
        exact (add_not h4).2 ⟨rfl, rfl⟩
      rw [eo k l (add_not h2).2 hk]
      exact hi.todo k l e1 k' l' h1 (add_not h2).1 h3 (add_not h4).1
    · intro k l e1 k2 l2 e2 a h1 h2 h3 h4 h5 h6
      rcases loc k l e1 a h1 h3 h5 with ⟨rfl, rfl, h7⟩ | ⟨-, h7, h8⟩ <;>
        rcases loc k2 l2 e2 a h2 h4 h6 with ⟨rfl, rfl, h9⟩ | ⟨-, h9, h10⟩
      · exact ⟨rfl, rfl⟩
      · omega
      · omega
      · exact hi.injv k l e1 k2 l2 e2 a h1 h2 (add_not h3).1 (add_not h4).1 h7 h9
    · intro k l e1 k2 l2 e2 a h1 h2 h3 h4 h5 h6
      rcases locm k l e1 a h1 h3 h5 with ⟨rfl, rfl, h7, -⟩ | ⟨-, h7, h8⟩ <;>
        rcases locm k2 l2 e2 a h2 h4 h6 with ⟨rfl, rfl, h9, -⟩ | ⟨-, h9, h10⟩
      · exact ⟨rfl, rfl⟩
      · omega
      · omega
      · exact hi.injm k l e1 k2 l2 e2 a h1 h2 (add_not h3).1 (add_not h4).1 h7 h9
    · intro k l e1 a h1 h2 h3
      rcases loc k l e1 a h1 h2 h3 with ⟨-, -, h7⟩ | ⟨-, -, h7⟩ <;> omega
    · intro k l e1 a h1 h2 h3
      rcases locm k l e1 a h1 h2 h3 with ⟨-, -, h7, h8⟩ | ⟨-, -, h7⟩
      · rw [hmn2 h8]; omega
      · omega
  refine ⟨key _ _ ?_ ?_ ?_ ?_, key _ _ ?_ ?_ ?_ ?_, cij, rfl, va, ma, ?_, ?_⟩
  · intro k l e1 a h1 h2 h3
    rcases loc k l e1 a h1 h2 h3 with ⟨-, -, h7⟩ | ⟨-, h7, -⟩
    · intro h; have := hi.bfl a h; omega
    · exact hi.sepv k l e1 a h1 (add_not h2).1 h7
  · intro k l e1 a h1 h2 h3
    rcases locm k l e1 a h1 h2 h3 with ⟨-, -, h7, -⟩ | ⟨-, h7, -⟩
    · intro h; have := hi.bfm a h; omega
    · exact hi.sepm k l e1 a h1 (add_not h2).1 h7
  · intro a h; have := hi.bfl a h; omega
  · intro a h; have := hi.bfm a h; omega
  · intro k l e1 a h1 h2 h3 h4
    rw [eij] at h4
    have h4 := Option.some.inj h4
    rcases loc k l e1 a h1 h2 h3 with ⟨-, -, h7⟩ | ⟨-, -, h7⟩ <;> omega
  · intro k l e1 a h1 h2 h3 h4
    rw [eij] at h4
    by_cases hs : v.2.isSome = true
    · simp only [hs, if_true, Option.some.injEq] at h4
      rcases locm k l e1 a h1 h2 h3 with ⟨-, -, h7, -⟩ | ⟨-, -, h7⟩ <;> omega
    · simp only [hs] at h4
      cases h4
  · intro a h4
    rw [eij] at h4
    have h4 := Option.some.inj h4
    omega
  · intro a h4
    rw [eij] at h4
    by_cases hs : v.2.isSome = true
    · simp only [hs, if_true, Option.some.injEq] at h4
      rw [hmn2 hs]; omega
    · simp only [hs] at h4
      cases h4
  · intro a h4 h5
    rw [eij] at h4
    have h4 := Option.some.inj h4
    have := hi.bfl a h5
    omega
  · intro a h4 h5
    rw [eij] at h4
    by_cases hs : v.2.isSome = true
    · simp only [hs, if_true, Option.some.injEq] at h4
      have := hi.bfm a h5
      omega
    · simp only [hs] at h4
      cases h4

theorem act_bind_ok {α β : Type} {a : Act S α} {f : α → Act S β} {m m1 : Mem S} {x : α} (h : a m = (.ok x, m1)) :
    Act.bind a f m = f x m1 := by
  unfold Act.bind; rw [h]

theorem act_bind_error {α β : Type} {a : Act S α} {f : α → Act S β} {m : Mem S} {x : PyErr}
    (h : (a m).1 = .error x) : (Act.bind a f m).1 = .error x := by
  unfold Act.bind
  rcases hh : a m with ⟨r, m1⟩
  rw [hh] at h
  simp only at h
  subst h
  rfl

/-- accumulation of one more edge value -/
def accStep (A : Option (V3 S × Option (M3 S))) (v : V3 S × Option (M3 S)) : V3 S × Option (M3 S) :=
  match A with
  | none => v
  | some a => (a.1.add v.1, match a.2, v.2 with
    | some T, some T' => some (T.add T')
    | _, _ => none)

def accList (A : Option (V3 S × Option (M3 S))) : List (V3 S × Option (M3 S)) → Option (V3 S × Option (M3 S))
  | [] => A
  | v :: vs => accList (some (accStep A v)) vs

/-- the arrays `fl`, `fm` of the current face contain the accumulated value -/
def AccOK (m : Mem S) (fl fm : Option Nat) : Option (V3 S × Option (M3 S)) → Prop
  | none => fl = none ∧ fm = none
  | some a => (∃ l, fl = some l ∧ l < m.vn ∧ m.va l = a.1) ∧
    ((a.2 = none ∧ fm = none) ∨ ∃ T b, a.2 = some T ∧ fm = some b ∧ b < m.mn ∧ m.ma b = T)

theorem Inv.setV {m : Mem S} (hi : Inv p obs gr D fl fm m) {c : Nat} (hc : fl = some c) (x : V3 S) :
    Inv p obs gr D fl fm (m.setV c x) := by
  obtain ⟨h1, h2, h3, h4, h5, h6, h7, h8, h9, h10⟩ := hi
  refine ⟨?_, h2, h3, h4, h5, h6, h7, h8, h9, h10⟩
  intro k l e k' l' e' g1 g2 g3 g4 g5
  obtain ⟨v, hv, ⟨a, ha, hal, hav⟩, hd⟩ := h1 k l e k' l' e' g1 g2 g3 g4 g5
  refine ⟨v, hv, ⟨a, ha, hal, ?_⟩, hd⟩
  have : a ≠ c := fun h => h5 k l e a g1 g2 ha (h ▸ hc)
  simp only [Mem.setV, this, if_false, hav]

theorem Inv.setM {m : Mem S} (hi : Inv p obs gr D fl fm m) {c : Nat} (hc : fm = some c) (x : M3 S) :
    Inv p obs gr D fl fm (m.setM c x) := by
  obtain ⟨h1, h2, h3, h4, h5, h6, h7, h8, h9, h10⟩ := hi
  refine ⟨?_, h2, h3, h4, h5, h6, h7, h8, h9, h10⟩
  intro k l e k' l' e' g1 g2 g3 g4 g5
  obtain ⟨v, hv, hp, hd⟩ := h1 k l e k' l' e' g1 g2 g3 g4 g5
  refine ⟨v, hv, hp, ?_⟩
  rcases hd with hd | ⟨T, b, h11, h12, h13, h14⟩
  · exact .inl hd
  · refine .inr ⟨T, b, h11, h12, h13, ?_⟩
    have : b ≠ c := fun h => h6 k l e b g1 g2 h12 (h ▸ hc)
    simp only [Mem.setM, this, if_false, h14]

theorem Inv.congrFace {m m' : Mem S} (hi : Inv p obs gr D fl fm m) (h1 : m'.va = m.va) (h2 : m'.vn = m.vn)
    (h3 : m'.ma = m.ma) (h4 : m'.mn = m.mn) (h5 : m'.edge = m.edge) : Inv p obs gr D fl fm m' := by
  obtain ⟨va, vn, ma, mn, edge, face⟩ := m
  obtain ⟨va', vn', ma', mn', edge', face'⟩ := m'
  simp only at h1 h2 h3 h4 h5
  subst h1 h2 h3 h4 h5
  obtain ⟨g1, g2, g3, g4, g5, g6, g7, g8, g9, g10⟩ := hi
  refine ⟨?_, g2, g3, g4, g5, g6, g7, g8, g9, g10⟩
  intro k l e k' l' e' q1 q2 q3 q4 q5
  obtain ⟨v, hv, hc⟩ := g1 k l e k' l' e' q1 q2 q3 q4 q5
  exact ⟨v, hv, ⟨hc.pqr, hc.dpqr⟩⟩

/-- `addPqr` then `addDpqr` after the edge value is available -/
theorem add_step {m m1 : Mem S} {i j : Nat} {v : V3 S × Option (M3 S)} (hd : EdgeDone p obs gr D fl fm i j v m m1)
    (hv : v.2.isSome = gr) (hfl : (m.face i).pqr = fl) (hfm : (m.face i).dpqr = fm)
    {A : Option (V3 S × Option (M3 S))} (hA : AccOK m fl fm A) (hAg : ∀ a, A = some a → a.2.isSome = gr)
    (k : Act S Unit) :
    ∃ m2 fl' fm', Act.bind (addPqr i j) (fun _ => Act.bind (addDpqr i j) (fun _ => k)) m1 = k m2 ∧
      Inv p obs gr (Add D i j) fl' fm' m2 ∧ AccOK m2 fl' fm' (some (accStep A v)) ∧
      m2.face = (m.setFace i { (m.face i) with pqr := fl', dpqr := fm' }).face := by
  obtain ⟨inv, inv', ⟨⟨a, ha, hal, hav⟩, hdp⟩, hface, hva, hma, hsl, hsm⟩ := hd
  rw [← hface] at hfl hfm
  have bfl := inv.bfl
  have bfm := inv.bfm
  rcases A with _ | acc
  · obtain ⟨rfl, rfl⟩ := hA
    refine ⟨(m1.setFace i { (m1.face i) with pqr := (m1.edge i j).pqr }).setFace i
        { ((m1.setFace i { (m1.face i) with pqr := (m1.edge i j).pqr }).face i) with dpqr := (m1.edge i j).dpqr },
      (m1.edge i j).pqr, (m1.edge i j).dpqr, ?_, inv'.congrFace rfl rfl rfl rfl rfl, ?_, ?_⟩
    · have h1 : addPqr i j m1 = (.ok (), m1.setFace i { (m1.face i) with pqr := (m1.edge i j).pqr }) := by
        simp only [addPqr, hfl]
      have h2 : addDpqr i j (m1.setFace i { (m1.face i) with pqr := (m1.edge i j).pqr }) = (.ok (), (m1.setFace i { (m1.face i) with pqr := (m1.edge i j).pqr }).setFace i
        { ((m1.setFace i { (m1.face i) with pqr := (m1.edge i j).pqr }).face i) with dpqr := (m1.edge i j).dpqr }) := by
        simp only [addDpqr, Mem.setFace, if_true, hfm]
      simp only [Act.bind, h1, h2]
    · refine ⟨⟨a, ha, hal, hav⟩, ?_⟩
      rcases hdp with ⟨h1, h2⟩ | ⟨T, b, h1, h2, h3, h4⟩
      · exact .inl ⟨h1, h2⟩
      · exact .inr ⟨T, b, h1, h2, h3, h4⟩
    · funext k
      by_cases hk : k = i
      · subst hk; simp [Mem.setFace, hface]
      · simp [Mem.setFace, hk, hface]
  · obtain ⟨⟨c, hc, hcl, hcv⟩, hcd⟩ := hA
    have hca : a ≠ c := fun h => hsl a ha (h ▸ hc)
    have hcl1 := bfl c hc
    have h1 : addPqr i j m1 = (.ok (), m1.setV c ((m1.va c).add (m1.va a))) := by
      simp only [addPqr, hfl, hc, ha]
    have hAg := hAg acc rfl
    rcases hcd with ⟨g1, g2⟩ | ⟨T, b, g1, g2, g3, g4⟩
    · -- no gradient
      have hgr : gr = false := by rw [← hAg, g1]; rfl
      subst hgr
      have hv2 : v.2 = none := by simpa using hv
      have hed : (m1.edge i j).dpqr = none := by
        rcases hdp with ⟨_, h⟩ | ⟨T, b, h, -⟩
        · exact h
        · rw [hv2] at h; cases h
      have h2 : addDpqr i j (m1.setV c ((m1.va c).add (m1.va a))) =
          (.ok (), (m1.setV c ((m1.va c).add (m1.va a))).setFace i
            { (m1.face i) with dpqr := none }) := by
        simp only [addDpqr, Mem.setV, hfm, g2, hed]
      refine ⟨(m1.setV c ((m1.va c).add (m1.va a))).setFace i { (m1.face i) with dpqr := none }, fl, none,
        by simp only [Act.bind, h1, h2], (g2 ▸ (inv.setV hc _)).congrFace rfl rfl rfl rfl rfl, ?_, ?_⟩
      · refine ⟨⟨c, hc, hcl1, ?_⟩, .inl ⟨?_, rfl⟩⟩
        · simp only [Mem.setFace, Mem.setV, if_true, accStep, hva c hcl, hcv, hav]
        · simp only [accStep, g1]
      · funext k
        by_cases hk : k = i
        · subst hk; simp only [Mem.setFace, Mem.setV, if_true, hface, ← hfl]
        · simp [Mem.setFace, Mem.setV, hk, hface]
    · have hgr : gr = true := by rw [← hAg, g1]; rfl
      subst hgr
      obtain ⟨T', hT'⟩ := Option.isSome_iff_exists.mp hv
      obtain ⟨b', hb', hbl', hbv'⟩ : ∃ b', (m1.edge i j).dpqr = some b' ∧ b' < m1.mn ∧ m1.ma b' = T' := by
        rcases hdp with ⟨h, _⟩ | ⟨T2, b2, h, h5, h6, h7⟩
        · rw [hT'] at h; cases h
        · rw [hT'] at h; cases h; exact ⟨b2, h5, h6, h7⟩
      have hbb : b' ≠ b := fun h => hsm b' hb' (h ▸ g2)
      have h2 : addDpqr i j (m1.setV c ((m1.va c).add (m1.va a))) =
          (.ok (), (m1.setV c ((m1.va c).add (m1.va a))).setM b ((m1.ma b).add (m1.ma b'))) := by
        simp only [addDpqr, Mem.setV, hfm, g2, hb']
      refine ⟨(m1.setV c ((m1.va c).add (m1.va a))).setM b ((m1.ma b).add (m1.ma b')), fl, fm,
        by simp only [Act.bind, h1, h2], (inv.setV hc _).setM g2 _, ?_, ?_⟩
      · refine ⟨⟨c, hc, hcl1, ?_⟩, .inr ⟨T.add T', b, ?_, g2, bfm b g2, ?_⟩⟩
        · simp only [Mem.setM, Mem.setV, if_true, accStep, hva c hcl, hcv, hav]
        · simp only [accStep, g1, hT']
        · simp only [Mem.setM, Mem.setV, if_true, hma b g3, g4, hbv']
      · funext k
        by_cases hk : k = i
        · subst hk; simp only [Mem.setFace, Mem.setV, Mem.setM, if_true, hface, ← hfl, ← hfm]
        · simp [Mem.setFace, Mem.setV, Mem.setM, hk, hface]

/-- the edges processed before edge `j` of face `i` -/
def Upto (i j : Nat) : Nat → Nat → Prop := fun k l => k < i ∨ (k = i ∧ l < j)

theorem add_upto (i j : Nat) : Add (Upto i j) i j = Upto i (j + 1) := by
  funext k l
  apply propext
  simp only [Add, Upto]
  omega

theorem faceEdges_closed (hw : p.WellTwinned) (i : Nat) (es : List (Edge S)) : ∀ (j : Nat) (fl fm : Option Nat) (m : Mem S)
    (A : Option (V3 S × Option (M3 S))),
    (∀ k, es[k]? = p.edgeAt i (j + k)) → Inv p obs gr (Upto i j) fl fm m → (m.face i).pqr = fl → (m.face i).dpqr = fm →
    AccOK m fl fm A → (∀ a, A = some a → a.2.isSome = gr) →
    match edgesValue p obs gr i es with
    | .error x => (faceEdges i obs gr j es m).1 = .error x
    | .ok vs => ∃ m1 fl' fm', faceEdges i obs gr j es m = (.ok (), m1) ∧
        Inv p obs gr (Upto i (j + es.length)) fl' fm' m1 ∧ AccOK m1 fl' fm' (accList A vs) ∧
        m1.face = (m.setFace i { (m.face i) with pqr := fl', dpqr := fm' }).face := by
  induction es with
  | nil =>
    intro j fl fm m A hes hi hfl hfm hA hAg
    refine ⟨m, fl, fm, rfl, hi, hA, ?_⟩
    funext k
    by_cases hk : k = i
    · subst hk; simp only [Mem.setFace, if_true, ← hfl, ← hfm]
    · simp [Mem.setFace, hk]
  | cons e es ih =>
    intro j fl fm m A hes hi hfl hfm hA hAg
    have he : p.edgeAt i j = some e := by have := hes 0; simpa using this.symm
    have hD : ¬ Upto i j i j := by simp [Upto]
    obtain ⟨i', j', e', ht, he', ht', hii⟩ := hw i j e he
    have hval : edgeValue p obs gr i e = if i' < i then (edgeIntegral e' obs gr).map pairNeg else edgeIntegral e obs gr := by
      simp only [edgeValue, ht, he']
    -- what computing the edge does
    have step : (∃ x, edgeValue p obs gr i e = .error x ∧ (edgeCompute i j e obs gr m).1 = .error x) ∨
        (∃ v m1, edgeValue p obs gr i e = .ok v ∧ v.2.isSome = gr ∧ edgeCompute i j e obs gr m = (.ok (), m1) ∧
          EdgeDone p obs gr (Upto i j) fl fm i j v m m1) := by
      by_cases hlt : i' < i
      · obtain ⟨v, hv, hc, hdn⟩ := edgeCompute_cached hw hi he hD ht he' (Or.inl hlt)
        refine .inr ⟨pairNeg v, m, ?_, ?_, hc, hdn⟩
        · rw [hval, if_pos hlt, hv]; rfl
        · simpa [pairNeg] using edgeIntegral_opt hv
      · have hD' : ¬ Upto i j i' j' := by
          rintro (h | h)
          · exact hlt h
          · exact hii h.1
        rw [if_neg hlt] at hval
        rcases hv : edgeIntegral e obs gr with x | v
        · refine .inl ⟨x, by rw [hval, hv], ?_⟩
          have := hi.todo i j e i' j' he hD ht hD'
          simp only [edgeCompute, this, hv]
        · obtain ⟨m1, hc, hdn⟩ := edgeCompute_new hw hi he hD ht hii he' ht' hD' hv
          exact .inr ⟨v, m1, by rw [hval, hv], edgeIntegral_opt hv, hc, hdn⟩
    rcases step with ⟨x, hx, hc⟩ | ⟨v, m1, hv, hvs, hc, hdn⟩
    · simp only [edgesValue, hx]
      exact act_bind_error hc
    · obtain ⟨m2, fl', fm', hk, hinv, hacc, hface⟩ := add_step hdn hvs hfl hfm hA hAg (faceEdges i obs gr (j + 1) es)
      have hrun : faceEdges i obs gr j (e :: es) m = faceEdges i obs gr (j + 1) es m2 := by
        rw [← hk]
        exact act_bind_ok hc
      have hAg' : ∀ a, some (accStep A v) = some a → a.2.isSome = gr := by
        intro a ha
        cases ha
        rcases A with _ | a
        · exact hvs
        · have := hAg a rfl
          simp only [accStep]
          rcases ha2 : a.2 with _ | T <;> rcases hv2 : v.2 with _ | T' <;> rw [ha2] at this <;> rw [hv2] at hvs <;>
            simp_all
      rw [add_upto] at hinv
      have := ih (j + 1) fl' fm' m2 (some (accStep A v))
        (fun k => by have := hes (k + 1); rw [List.getElem?_cons_succ] at this; rw [this]; congr 1; omega) hinv
        (by rw [hface]; simp [Mem.setFace]) (by rw [hface]; simp [Mem.setFace]) hacc hAg'
      simp only [edgesValue, hv]
      rcases hvs2 : edgesValue p obs gr i es with x | vs
      · rw [hvs2] at this
        simp only
        rw [hrun]; exact this
      · rw [hvs2] at this
        obtain ⟨m3, fl2, fm2, g1, g2, g3, g4⟩ := this
        refine ⟨m3, fl2, fm2, by rw [hrun, g1], by rw [List.length_cons, Nat.add_comm es.length 1, ← Nat.add_assoc]; exact g2,
          g3, ?_⟩
        rw [g4]
        funext k
        by_cases hk : k = i
        · subst hk; simp [Mem.setFace, hface]
        · simp [Mem.setFace, hface, hk]

theorem accList_some (gr : Bool) (vs : List (V3 S × Option (M3 S))) : ∀ a : V3 S × Option (M3 S), a.2.isSome = gr →
    (∀ v ∈ vs, v.2.isSome = gr) →
    accList (some a) vs = some (sumPqr vs a.1, if gr then some (sumDpqr vs (a.2.getD M3.zeros)) else none) := by
  induction vs with
  | nil =>
    intro a ha _
    cases gr
    · simp only [accList, sumPqr, Bool.false_eq_true, if_false]
      obtain ⟨a1, a2⟩ := a
      simp at ha
      subst ha; rfl
    · obtain ⟨a1, a2⟩ := a
      obtain ⟨T, hT⟩ := Option.isSome_iff_exists.mp ha
      simp only at hT
      subst hT
      rfl
  | cons v vs ih =>
    intro a ha hv
    have h1 := hv v (by simp)
    simp only [accList]
    cases gr
    · obtain ⟨a1, a2⟩ := a
      obtain ⟨v1, v2⟩ := v
      simp at ha h1
      subst ha h1
      rw [ih _ (by simp [accStep]) (fun v h => hv v (by simp [h]))]
      rfl
    · obtain ⟨a1, a2⟩ := a
      obtain ⟨v1, v2⟩ := v
      obtain ⟨T, hT⟩ := Option.isSome_iff_exists.mp ha
      obtain ⟨T', hT'⟩ := Option.isSome_iff_exists.mp h1
      simp only at hT hT'
      subst hT hT'
      rw [ih _ (by simp [accStep]) (fun v h => hv v (by simp [h]))]
      rfl

theorem edgeValue_opt {i : Nat} {e : Edge S} {v : V3 S × Option (M3 S)} (h : edgeValue p obs gr i e = .ok v) :
    v.2.isSome = gr := by
  unfold edgeValue at h
  split at h
  · cases h
  · split at h
    · split at h
      · rcases hh : edgeIntegral _ obs gr with x | u
        · rw [hh] at h; cases h
        · rw [hh] at h
          cases h
          simpa [pairNeg] using edgeIntegral_opt hh
      · cases h
    · exact edgeIntegral_opt h

theorem edgesValue_opt {i : Nat} {es : List (Edge S)} : ∀ {vs : List (V3 S × Option (M3 S))},
    edgesValue p obs gr i es = .ok vs → ∀ v ∈ vs, v.2.isSome = gr := by
  induction es with
  | nil => intro vs h v hv; cases h; cases hv
  | cons e es ih =>
    intro vs h v hv
    simp only [edgesValue] at h
    split at h
    · cases h
    · next u hu =>
      split at h
      · cases h
      · next us hus =>
        cases h
        rcases List.mem_cons.mp hv with rfl | hv
        · exact edgeValue_opt hu
        · exact ih hus v hv

/-- `get_gravity` of one face, from a memory where the faces before `i` have been processed -/
theorem faceGravity_closed (hw : p.WellTwinned) {i : Nat} {f : Face S} (hf : p.faces[i]? = some f) (ρ Gc : S) {m : Mem S}
    (hi : Inv p obs gr (Upto i 0) none none m) (hfl : (m.face i).pqr = none) (hfm : (m.face i).dpqr = none) :
    match faceValue p obs ρ Gc gr i f with
    | .error x => (faceGravity i f obs ρ Gc gr m).1 = .error x
    | .ok r => ∃ m1, faceGravity i f obs ρ Gc gr m = (.ok r, m1) ∧ Inv p obs gr (Upto (i + 1) 0) none none m1 ∧
        ∀ k, k ≠ i → m1.face k = m.face k := by
  -- the first two statements
  let c0 : FaceC S := { (m.face i) with dp1 := some (f.height obs) }
  let m1 := m.setFace i c0
  have e1 : getDotPoint1 i f obs m = (.ok (), m1) := rfl
  let c1 : FaceC S := { c0 with sign := some (npSign (f.height obs)) }
  let m2 := m1.setFace i c1
  have e2 : getSign i m1 = (.ok (), m2) := by
    simp only [getSign, m1, m2, Mem.setFace, if_true, c0, c1]
  let c2 : FaceC S := { c1 with omega := some zero, domega := some V3.zeros }
  have e3 : getOmega i f obs gr m2 = match omegaValue f obs gr with
      | .error x => (.error x, m2.setFace i c2)
      | .ok w => (.ok (), (m2.setFace i c2).setFace i { c2 with omega := some w.1, domega := some w.2 }) := by
    simp only [getOmega, m2, m1, Mem.setFace, if_true, c1, c0, omegaValue]
    by_cases hb : (eps <. abs (f.height obs)) = true
    · simp only [hb, if_true, c2, c1, c0]
      rcases omegaKernel f.points f.un obs (npSign (f.height obs)) gr with x | ⟨w, dw⟩ <;> rfl
    · simp only [hb, c2, c1, c0]
      refine congrArg (Prod.mk _) ?_
      congr 1
      funext k
      by_cases hk : k = i <;> simp [hk]
  have hrun : faceGravity i f obs ρ Gc gr m =
      Act.bind (getOmega i f obs gr) (fun _ => Act.bind (faceEdges i obs gr 0 f.edges)
        (fun _ => faceFinish i f ρ Gc gr)) m2 := by
    unfold faceGravity
    simp only [bind]
    rw [act_bind_ok e1, act_bind_ok e2]
  rw [hrun]
  unfold faceValue
  rcases hw' : omegaValue f obs gr with x | w
  · simp only
    rw [hw'] at e3
    exact act_bind_error (by rw [e3])
  · rw [hw'] at e3
    simp only at e3 ⊢
    rw [act_bind_ok e3]
    let c3 : FaceC S := { c2 with omega := some w.1, domega := some w.2 }
    let m3 := (m2.setFace i c2).setFace i c3
    have hm3 : m3.face i = c3 := by simp [m3, Mem.setFace]
    have hedges : ∀ k, f.edges[k]? = p.edgeAt i (0 + k) := by
      intro k; simp [Poly.edgeAt, hf]
    have hinv3 : Inv p obs gr (Upto i 0) none none m3 := hi.congrFace rfl rfl rfl rfl rfl
    have := faceEdges_closed hw i f.edges 0 none none m3 none hedges hinv3
      (by rw [hm3]; exact hfl) (by rw [hm3]; exact hfm) ⟨rfl, rfl⟩ (by intro a h; cases h)
    rcases hvs : edgesValue p obs gr i f.edges with x | vs
    · rw [hvs] at this
      exact act_bind_error this
    · rw [hvs] at this
      obtain ⟨m4, fl', fm', h1, h2, h3, h4⟩ := this
      show match fieldOfEdges f obs w ρ Gc gr vs with
        | .error x => (Act.bind (faceEdges i obs gr 0 f.edges) (fun _ => faceFinish i f ρ Gc gr) m3).1 = .error x
        | .ok r => ∃ m1, Act.bind (faceEdges i obs gr 0 f.edges) (fun _ => faceFinish i f ρ Gc gr) m3 = (.ok r, m1) ∧
            Inv p obs gr (Upto (i + 1) 0) none none m1 ∧ ∀ k, k ≠ i → m1.face k = m.face k
      rw [act_bind_ok h1]
      have hc4 : m4.face i = { c3 with pqr := fl', dpqr := fm' } := by
        rw [h4]; simp [Mem.setFace, hm3]
      have hother : ∀ k, k ≠ i → m4.face k = m.face k := by
        intro k hk
        rw [h4]
        simp [Mem.setFace, hk, m3, m2, m1]
      rcases vs with _ | ⟨v, vs⟩
      · obtain ⟨rfl, rfl⟩ := h3
        simp only [fieldOfEdges, faceFinish, hc4, c3, c2, c1, c0]
      · have hopt := edgesValue_opt hvs
        rw [accList, accList_some gr vs _ (by simpa [accStep] using hopt v (by simp))
          (fun u hu => hopt u (by simp [hu]))] at h3
        obtain ⟨⟨l, hl, hlb, hlv⟩, hd⟩ := h3
        have hinv4 : Inv p obs gr (Upto (i + 1) 0) none none m4 := by
          have hup : ∀ k l e, p.edgeAt k l = some e → (Upto i (0 + f.edges.length) k l ↔ Upto (i + 1) 0 k l) := by
            intro k l e he
            simp only [Upto]
            constructor
            · omega
            · rintro (h | h)
              · by_cases hk : k = i
                · subst hk
                  right
                  refine ⟨rfl, ?_⟩
                  simp only [Poly.edgeAt, hf, Option.bind_some] at he
                  have := (List.getElem?_eq_some_iff.mp he).1
                  omega
                · left; omega
              · omega
          refine ⟨?_, ?_, ?_, ?_, ?_, ?_, ?_, ?_, ?_, ?_⟩
          · intro k l e k' l' e' g1 g2 g3 g4 g5
            exact h2.done k l e k' l' e' g1 (fun h => g2 ((hup k l e g1).mp h)) g3 g4 ((hup k' l' e' g4).mpr g5)
          · intro k l e k' l' g1 g2 g3 g4
            obtain ⟨a, b, e', q1, q2, -⟩ := hw k l e g1
            rw [g3] at q1
            cases q1
            exact h2.todo k l e k' l' g1 (fun h => g2 ((hup k l e g1).mp h)) g3 (fun h => g4 ((hup k' l' e' q2).mp h))
          · intro k l e k2 l2 e2 a g1 g2 g3 g4
            exact h2.injv k l e k2 l2 e2 a g1 g2 (fun h => g3 ((hup k l e g1).mp h)) (fun h => g4 ((hup k2 l2 e2 g2).mp h))
          · intro k l e k2 l2 e2 a g1 g2 g3 g4
            exact h2.injm k l e k2 l2 e2 a g1 g2 (fun h => g3 ((hup k l e g1).mp h)) (fun h => g4 ((hup k2 l2 e2 g2).mp h))
          · intro k l e a g1 g2 g3 h; cases h
          · intro k l e a g1 g2 g3 h; cases h
          · intro k l e a g1 g2; exact h2.bv k l e a g1 (fun h => g2 ((hup k l e g1).mp h))
          · intro k l e a g1 g2; exact h2.bm k l e a g1 (fun h => g2 ((hup k l e g1).mp h))
          · intro a h; cases h
          · intro a h; cases h
        simp only [fieldOfEdges]
        cases gr
        · simp only [Bool.false_eq_true, if_false, true_and] at hd
          have hd : fm' = none := by
            rcases hd with h | ⟨T, b, h, -⟩
            · exact h
            · cases h
          have hfin : ∃ c, faceFinish i f ρ Gc false m4 = (.ok (faceField f.un (f.height obs) w.1 w.2 (sumPqr vs v.1)
              (sumDpqr vs (v.2.getD M3.zeros)) ρ Gc false), m4.setFace i c) :=
            ⟨_, by simp only [faceFinish, hc4, hl, c3, c2, c1, c0, hlv]; rfl⟩
          obtain ⟨c, hfin⟩ := hfin
          exact ⟨_, hfin, hinv4.congrFace rfl rfl rfl rfl rfl, fun k hk => by
            simp only [Mem.setFace, hk, if_false]; exact hother k hk⟩
        · simp only [if_true] at hd
          obtain ⟨b, hb1, hb2, hb3⟩ : ∃ b, fm' = some b ∧ b < m4.mn ∧ m4.ma b = sumDpqr vs ((accStep none v).2.getD M3.zeros) := by
            rcases hd with ⟨h, -⟩ | ⟨T, b, h, q1, q2, q3⟩
            · cases h
            · cases h; exact ⟨b, q1, q2, q3⟩
          have hfin : ∃ c, faceFinish i f ρ Gc true m4 = (.ok (faceField f.un (f.height obs) w.1 w.2 (sumPqr vs v.1)
              (sumDpqr vs (v.2.getD M3.zeros)) ρ Gc true), m4.setFace i c) :=
            ⟨_, by simp only [faceFinish, hc4, hl, hb1, c3, c2, c1, c0, hlv, hb3]; rfl⟩
          obtain ⟨c, hfin⟩ := hfin
          exact ⟨_, hfin, hinv4.congrFace rfl rfl rfl rfl rfl, fun k hk => by
            simp only [Mem.setFace, hk, if_false]; exact hother k hk⟩

theorem polyFaces_closed (hw : p.WellTwinned) (ρ Gc : S) (fs : List (Face S)) : ∀ (i : Nat) (G : V3 S) (T : M3 S) (m : Mem S),
    (∀ k, fs[k]? = p.faces[i + k]?) → Inv p obs gr (Upto i 0) none none m →
    (∀ k, i ≤ k → (m.face k).pqr = none ∧ (m.face k).dpqr = none) →
    (polyFaces obs ρ Gc gr i fs G T m).1 = facesValue p obs ρ Gc gr i fs G T := by
  induction fs with
  | nil => intro i G T m _ _ _; rfl
  | cons f fs ih =>
    intro i G T m hfs hi hface
    have hf : p.faces[i]? = some f := by have := hfs 0; simpa using this.symm
    have := faceGravity_closed hw hf ρ Gc hi (hface i (Nat.le_refl i)).1 (hface i (Nat.le_refl i)).2
    simp only [facesValue]
    rcases hv : faceValue p obs ρ Gc gr i f with x | ⟨g, t⟩
    · rw [hv] at this
      exact act_bind_error this
    · rw [hv] at this
      obtain ⟨m1, h1, h2, h3⟩ := this
      have hrun : polyFaces obs ρ Gc gr i (f :: fs) G T m = polyFaces obs ρ Gc gr (i + 1) fs (G.add g) (T.add t) m1 :=
        act_bind_ok h1
      rw [hrun]
      exact ih (i + 1) _ _ m1 (fun k => by have := hfs (k + 1); rw [List.getElem?_cons_succ] at this; rw [this]; congr 1; omega)
        h2 (fun k hk => by rw [h3 k (by omega)]; exact hface k (by omega))

/-- **Closed form.** On an object with empty caches `get_gravity` returns the sum over the faces of `faceValue`, or
raises the first exception of that sum. -/
theorem getGravity_closed (hw : p.WellTwinned) {m : Mem S} (hm : Clean m) (ρ Gc : S) :
    (getGravity p obs ρ Gc gr m).1 = facesValue p obs ρ Gc gr 0 p.faces V3.zeros M3.zeros := by
  rw [getGravity_of_clean hm]
  have hi : Inv p obs gr (Upto 0 0) none none (Mem.fresh : Mem S) := by
    refine ⟨?_, ?_, ?_, ?_, ?_, ?_, ?_, ?_, ?_, ?_⟩
    · intro k l e k' l' e' _ _ _ _ h; simp [Upto] at h
    · intros; rfl
    all_goals first
      | (intro k l e k2 l2 e2 a _ _ _ _ h; cases h; done)
      | (intro k l e a _ _ h; cases h; done)
      | (intro a h; cases h; done)
  have h := polyFaces_closed hw ρ Gc p.faces 0 V3.zeros M3.zeros Mem.fresh (fun k => by rw [Nat.zero_add]) hi
    (fun k _ => ⟨rfl, rfl⟩)
  rw [← h]
  show (Act.bind (polyFaces obs ρ Gc gr 0 p.faces V3.zeros M3.zeros) _ Mem.fresh).1 = _
  rcases hh : polyFaces obs ρ Gc gr 0 p.faces V3.zeros M3.zeros Mem.fresh with ⟨r, m1⟩
  rcases r with x | r
  · exact act_bind_error (by rw [hh])
  · rw [act_bind_ok hh]; rfl

end Geec
