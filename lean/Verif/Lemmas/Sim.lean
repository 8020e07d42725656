import Verif.Model.Hull
/-
Simulation between two runs of the same method from memories that agree up to a renaming of array references.
-/
namespace Geec
open Arith
variable {S : Type} [Arith S]
set_option linter.unusedSectionVars false

/-- the part of the face attributes that later code can read, with renamed references -/
structure SimF (dv dm : Nat) (c c' : FaceC S) : Prop where
  dp1 : c'.dp1 = c.dp1
  sign : c'.sign = c.sign
  omega : c'.omega = c.omega
  domega : c'.domega = c.domega
  pqr : c'.pqr = c.pqr.map (· + dv)
  dpqr : c'.dpqr = c.dpqr.map (· + dm)

/-- `m'` is `m` with array references shifted by `dv`, `dm` -/
structure Sim (dv dm : Nat) (m m' : Mem S) : Prop where
  vn : m'.vn = m.vn + dv
  mn : m'.mn = m.mn + dm
  va : ∀ l, l < m.vn → m'.va (l + dv) = m.va l
  ma : ∀ l, l < m.mn → m'.ma (l + dm) = m.ma l
  epqr : ∀ i j, (m'.edge i j).pqr = (m.edge i j).pqr.map (· + dv)
  edpqr : ∀ i j, (m'.edge i j).dpqr = (m.edge i j).dpqr.map (· + dm)
  face : ∀ i, SimF dv dm (m.face i) (m'.face i)
  be : ∀ i j l, (m.edge i j).pqr = some l → l < m.vn
  bde : ∀ i j l, (m.edge i j).dpqr = some l → l < m.mn
  bf : ∀ i l, (m.face i).pqr = some l → l < m.vn
  bdf : ∀ i l, (m.face i).dpqr = some l → l < m.mn

def SimAct (dv dm : Nat) {α : Type} (a a' : Act S α) : Prop :=
  ∀ m m', Sim dv dm m m' → (a' m').1 = (a m).1 ∧ Sim dv dm (a m).2 (a' m').2

section
variable {dv dm : Nat}

theorem simAct_pure {α : Type} (x : α) : SimAct dv dm (Act.pure x : Act S α) (Act.pure x) :=
  fun _ _ h => ⟨rfl, h⟩

theorem simAct_bind {α β : Type} {a a' : Act S α} {f f' : α → Act S β}
    (ha : SimAct dv dm a a') (hf : ∀ x, SimAct dv dm (f x) (f' x)) :
    SimAct dv dm (Act.bind a f) (Act.bind a' f') := by
  intro m m' h
  have h1 := ha m m' h
  unfold Act.bind
  rcases hm : a m with ⟨r, m1⟩
  rcases hm' : a' m' with ⟨r', m1'⟩
  rw [hm, hm'] at h1
  obtain ⟨h1, h2⟩ := h1
  simp only at h1 h2
  subst h1
  cases r' with
  | error e => exact ⟨rfl, h2⟩
  | ok x => exact hf x _ _ h2

theorem Sim.newEdgePqr {m m' : Mem S} (h : Sim dv dm m m') (i j : Nat) (v : V3 S) :
    Sim dv dm (m.newEdgePqr i j v) (m'.newEdgePqr i j v) := by
  obtain ⟨vn, mn, va, ma, epqr, edpqr, face, be, bde, bf, bdf⟩ := h
  constructor <;> simp only [Mem.newEdgePqr, Mem.setV, Mem.setEdge]
  · omega
  · exact mn
  · intro l hl
    rw [vn]
    by_cases h : l = m.vn
    · subst h; simp
    · have : l + dv ≠ m.vn + dv := by omega
      simp only [h, this, if_false]
      exact va l (by omega)
  · exact ma
  · intro i' j'
    by_cases h : i' = i ∧ j' = j
    · simp [h, vn]
    · simp only [h, if_false]; exact epqr i' j'
  · intro i' j'
    by_cases h : i' = i ∧ j' = j
    · simp [h, edpqr]
    · simp only [h, if_false]; exact edpqr i' j'
  · exact face
  · intro i' j' l
    by_cases h : i' = i ∧ j' = j
    · simp only [h, and_self, if_true, Option.some.injEq]; omega
    · simp only [h, if_false]; intro h; have := be i' j' l h; omega
  · intro i' j' l
    by_cases h : i' = i ∧ j' = j
    · simp only [h, and_self, if_true]; exact bde i j l
    · simp only [h, if_false]; exact bde i' j' l
  · intro i l h; have := bf i l h; omega
  · exact bdf

theorem Sim.newEdgeDpqr {m m' : Mem S} (h : Sim dv dm m m') (i j : Nat) (v : Option (M3 S)) :
    Sim dv dm (m.newEdgeDpqr i j v) (m'.newEdgeDpqr i j v) := by
  obtain ⟨vn, mn, va, ma, epqr, edpqr, face, be, bde, bf, bdf⟩ := h
  cases v with
  | none =>
    constructor <;> simp only [Mem.newEdgeDpqr, Mem.setEdge]
    · exact vn
    · exact mn
    · exact va
    · exact ma
    · intro i' j'
      by_cases h : i' = i ∧ j' = j
      · simp [h, epqr]
      · simp only [h, if_false]; exact epqr i' j'
    · intro i' j'
      by_cases h : i' = i ∧ j' = j
      · simp [h]
      · simp only [h, if_false]; exact edpqr i' j'
    · exact face
    · intro i' j' l
      by_cases h : i' = i ∧ j' = j
      · simp only [h, and_self, if_true]; exact be i j l
      · simp only [h, if_false]; exact be i' j' l
    · intro i' j' l
      by_cases h : i' = i ∧ j' = j
      · simp [h]
      · simp only [h, if_false]; exact bde i' j' l
    · exact bf
    · exact bdf
  | some v =>
    constructor <;> simp only [Mem.newEdgeDpqr, Mem.setM, Mem.setEdge]
    · exact vn
    · omega
    · exact va
    · intro l hl
      rw [mn]
      by_cases h : l = m.mn
      · subst h; simp
      · have : l + dm ≠ m.mn + dm := by omega
        simp only [h, this, if_false]
        exact ma l (by omega)
    · intro i' j'
      by_cases h : i' = i ∧ j' = j
      · simp [h, epqr]
      · simp only [h, if_false]; exact epqr i' j'
    · intro i' j'
      by_cases h : i' = i ∧ j' = j
      · simp [h, mn]
      · simp only [h, if_false]; exact edpqr i' j'
    · exact face
    · intro i' j' l
      by_cases h : i' = i ∧ j' = j
      · simp only [h, and_self, if_true]; exact be i j l
      · simp only [h, if_false]; exact be i' j' l
    · intro i' j' l
      by_cases h : i' = i ∧ j' = j
      · simp only [h, and_self, if_true, Option.some.injEq]; omega
      · simp only [h, if_false]; intro h; have := bde i' j' l h; omega
    · exact bf
    · intro i l h; have := bdf i l h; omega

theorem Sim.setFace {m m' : Mem S} (h : Sim dv dm m m') (i : Nat) {c c' : FaceC S}
    (hc : SimF dv dm c c') (hb : ∀ l, c.pqr = some l → l < m.vn) (hbd : ∀ l, c.dpqr = some l → l < m.mn) :
    Sim dv dm (m.setFace i c) (m'.setFace i c') := by
  obtain ⟨vn, mn, va, ma, epqr, edpqr, face, be, bde, bf, bdf⟩ := h
  constructor <;> simp only [Mem.setFace] <;> try assumption
  · intro i'
    by_cases h : i' = i
    · simp [h, hc]
    · simp only [h, if_false]; exact face i'
  · intro i' l
    by_cases h : i' = i
    · simp only [h, if_true]; exact hb l
    · simp only [h, if_false]; exact bf i' l
  · intro i' l
    by_cases h : i' = i
    · simp only [h, if_true]; exact hbd l
    · simp only [h, if_false]; exact bdf i' l

theorem Sim.setEdgeNone {m m' : Mem S} (h : Sim dv dm m m') (i j : Nat) :
    Sim dv dm (m.setEdge i j ⟨none, none⟩) (m'.setEdge i j ⟨none, none⟩) := by
  obtain ⟨vn, mn, va, ma, epqr, edpqr, face, be, bde, bf, bdf⟩ := h
  constructor <;> simp only [Mem.setEdge] <;> try assumption
  · intro i' j'
    by_cases h : i' = i ∧ j' = j
    · simp [h]
    · simp only [h, if_false]; exact epqr i' j'
  · intro i' j'
    by_cases h : i' = i ∧ j' = j
    · simp [h]
    · simp only [h, if_false]; exact edpqr i' j'
  · intro i' j' l
    by_cases h : i' = i ∧ j' = j
    · simp [h]
    · simp only [h, if_false]; exact be i' j' l
  · intro i' j' l
    by_cases h : i' = i ∧ j' = j
    · simp [h]
    · simp only [h, if_false]; exact bde i' j' l

theorem Sim.setV {m m' : Mem S} (h : Sim dv dm m m') (l : Nat) (v : V3 S) :
    Sim dv dm (m.setV l v) (m'.setV (l + dv) v) := by
  obtain ⟨vn, mn, va, ma, epqr, edpqr, face, be, bde, bf, bdf⟩ := h
  constructor <;> simp only [Mem.setV] <;> try assumption
  intro l' hl'
  by_cases h : l' = l
  · simp [h]
  · have : l' + dv ≠ l + dv := by omega
    simp only [h, this, if_false]; exact va l' hl'

theorem Sim.setM {m m' : Mem S} (h : Sim dv dm m m') (l : Nat) (v : M3 S) :
    Sim dv dm (m.setM l v) (m'.setM (l + dm) v) := by
  obtain ⟨vn, mn, va, ma, epqr, edpqr, face, be, bde, bf, bdf⟩ := h
  constructor <;> simp only [Mem.setM] <;> try assumption
  intro l' hl'
  by_cases h : l' = l
  · simp [h]
  · have : l' + dm ≠ l + dm := by omega
    simp only [h, this, if_false]; exact ma l' hl'

theorem simAct_setTwin (i j : Nat) (tw : Option (Nat × Nat)) :
    SimAct dv dm (setTwinPqr i j tw : Act S Unit) (setTwinPqr i j tw) := by
  intro m m' h
  rcases tw with _ | ⟨i', j'⟩
  · exact ⟨rfl, h⟩
  · refine ⟨rfl, ?_⟩
    have h1 : Sim dv dm
        (match (m.edge i j).pqr with | some l => m.newEdgePqr i' j' (m.va l).neg | none => m)
        (match (m'.edge i j).pqr with | some l => m'.newEdgePqr i' j' (m'.va l).neg | none => m') := by
      rw [h.epqr]
      rcases hp : (m.edge i j).pqr with _ | l
      · exact h
      · simp only [Option.map_some, h.va l (h.be i j l hp)]
        exact h.newEdgePqr _ _ _
    have key : ∀ n n' : Mem S, Sim dv dm n n' → Sim dv dm
        (match (n.edge i j).dpqr with | some l => n.newEdgeDpqr i' j' (some (n.ma l).neg) | none => n)
        (match (n'.edge i j).dpqr with | some l => n'.newEdgeDpqr i' j' (some (n'.ma l).neg) | none => n') := by
      intro n n' h1
      rw [h1.edpqr]
      rcases hp : (n.edge i j).dpqr with _ | l
      · exact h1
      · simp only [Option.map_some, h1.ma l (h1.bde i j l hp)]
        exact h1.newEdgeDpqr _ _ _
    exact key _ _ h1

theorem simAct_edgeCompute (i j : Nat) (e : Edge S) (obs : V3 S) (gr : Bool) :
    SimAct dv dm (edgeCompute i j e obs gr) (edgeCompute i j e obs gr) := by
  intro m m' h
  unfold edgeCompute
  rw [h.epqr]
  rcases (m.edge i j).pqr with _ | l
  · simp only [Option.map_none]
    rcases edgeIntegral e obs gr with err | ⟨a, b⟩
    · exact ⟨rfl, h⟩
    · exact simAct_setTwin _ _ _ _ _ ((h.newEdgePqr _ _ _).newEdgeDpqr _ _ _)
  · exact ⟨rfl, h⟩

theorem simAct_addPqr (i j : Nat) : SimAct dv dm (addPqr i j : Act S Unit) (addPqr i j) := by
  intro m m' h
  unfold addPqr
  rw [h.epqr, (h.face i).pqr]
  rcases hf : (m.face i).pqr with _ | l
  · refine ⟨rfl, ?_⟩
    refine h.setFace _ ?_ ?_ ?_
    · have := h.face i
      constructor <;> simp [this.dp1, this.sign, this.omega, this.domega, this.dpqr]
    · intro l hl; exact h.be i j l hl
    · intro l hl; exact h.bdf i l hl
  · rcases he : (m.edge i j).pqr with _ | l'
    · exact ⟨rfl, h⟩
    · simp only [Option.map_some, h.va _ (h.be i j _ he), h.va _ (h.bf i _ hf)]
      exact ⟨trivial, h.setV _ _⟩

theorem simAct_addDpqr (i j : Nat) : SimAct dv dm (addDpqr i j : Act S Unit) (addDpqr i j) := by
  intro m m' h
  unfold addDpqr
  rw [h.edpqr, (h.face i).dpqr]
  rcases hf : (m.face i).dpqr with _ | l
  · refine ⟨rfl, ?_⟩
    refine h.setFace _ ?_ ?_ ?_
    · have := h.face i
      constructor <;> simp [this.dp1, this.sign, this.omega, this.domega, this.pqr]
    · intro l hl; exact h.bf i l hl
    · intro l hl; exact h.bde i j l hl
  · rcases he : (m.edge i j).dpqr with _ | l'
    · exact ⟨rfl, h⟩
    · simp only [Option.map_some, h.ma _ (h.bde i j _ he), h.ma _ (h.bdf i _ hf)]
      exact ⟨trivial, h.setM _ _⟩

theorem simAct_faceEdges (i : Nat) (obs : V3 S) (gr : Bool) (es : List (Edge S)) : ∀ j,
    SimAct dv dm (faceEdges i obs gr j es) (faceEdges i obs gr j es) := by
  induction es with
  | nil => intro j; exact simAct_pure ()
  | cons e es ih =>
    intro j
    exact simAct_bind (simAct_edgeCompute _ _ _ _ _) fun _ =>
      simAct_bind (simAct_addPqr _ _) fun _ => simAct_bind (simAct_addDpqr _ _) fun _ => ih _

theorem simAct_getDotPoint1 (i : Nat) (f : Face S) (obs : V3 S) :
    SimAct dv dm (getDotPoint1 i f obs) (getDotPoint1 i f obs) := by
  intro m m' h
  refine ⟨rfl, h.setFace _ ?_ ?_ ?_⟩
  · have := h.face i
    constructor <;> simp [this.sign, this.omega, this.domega, this.pqr, this.dpqr]
  · exact fun l hl => h.bf i l hl
  · exact fun l hl => h.bdf i l hl

theorem simAct_getSign (i : Nat) : SimAct dv dm (getSign i : Act S Unit) (getSign i) := by
  intro m m' h
  unfold getSign
  rw [(h.face i).dp1]
  rcases (m.face i).dp1 with _ | d
  · exact ⟨rfl, h⟩
  · refine ⟨rfl, h.setFace _ ?_ ?_ ?_⟩
    · have := h.face i
      constructor <;> simp [this.dp1, this.omega, this.domega, this.pqr, this.dpqr]
    · exact fun l hl => h.bf i l hl
    · exact fun l hl => h.bdf i l hl

theorem simAct_getOmega (i : Nat) (f : Face S) (obs : V3 S) (gr : Bool) :
    SimAct dv dm (getOmega i f obs gr) (getOmega i f obs gr) := by
  intro m m' h
  unfold getOmega
  rw [(h.face i).dp1, (h.face i).sign]
  rcases (m.face i).dp1 with _ | d
  · exact ⟨rfl, h⟩
  rcases (m.face i).sign with _ | s
  · exact ⟨rfl, h⟩
  have h1 : Sim dv dm
      (m.setFace i { (m.face i) with omega := some zero, domega := some V3.zeros })
      (m'.setFace i { (m'.face i) with omega := some zero, domega := some V3.zeros }) := by
    refine h.setFace _ ?_ ?_ ?_
    · have := h.face i
      constructor <;> simp [this.dp1, this.sign, this.pqr, this.dpqr]
    · exact fun l hl => h.bf i l hl
    · exact fun l hl => h.bdf i l hl
  simp only
  split
  · rcases omegaKernel f.points f.un obs s gr with err | ⟨w, dw⟩
    · exact ⟨rfl, h1⟩
    · refine ⟨rfl, h1.setFace _ ?_ ?_ ?_⟩
      · have := h1.face i
        constructor <;> simp [this.dp1, this.sign, this.pqr, this.dpqr]
      · exact fun l hl => h1.bf i l hl
      · exact fun l hl => h1.bdf i l hl
  · exact ⟨rfl, h1⟩

theorem simAct_faceFinish (i : Nat) (f : Face S) (density Gc : S) (gr : Bool) :
    SimAct dv dm (faceFinish i f density Gc gr) (faceFinish i f density Gc gr) := by
  intro m m' h
  have hf := h.face i
  unfold faceFinish
  simp only [hf.dp1, hf.omega, hf.domega, hf.pqr, hf.dpqr]
  rcases h1 : (m.face i).dp1 with _ | d
  · exact ⟨rfl, h⟩
  rcases h2 : (m.face i).omega with _ | w
  · exact ⟨rfl, h⟩
  rcases h3 : (m.face i).domega with _ | dw
  · exact ⟨rfl, h⟩
  rcases h4 : (m.face i).pqr with _ | l
  · exact ⟨rfl, h⟩
  cases gr with
  | false =>
    simp only [Option.map_some, h.va _ (h.bf i l h4)]
    refine ⟨trivial, h.setFace _ ?_ ?_ ?_⟩
    · constructor <;> simp [hf.sign]
    · intro l0 hl; simp at hl; exact h.bf i _ (by rw [h4, hl])
    · exact fun l hl => h.bdf i l hl
  | true =>
    rcases h5 : (m.face i).dpqr with _ | l'
    · exact ⟨rfl, h⟩
    simp only [Option.map_some, h.va _ (h.bf i l h4), h.ma _ (h.bdf i l' h5)]
    refine ⟨trivial, h.setFace _ ?_ ?_ ?_⟩
    · constructor <;> simp [hf.sign]
    · intro l0 hl; simp at hl; exact h.bf i _ (by rw [h4, hl])
    · intro l0 hl; simp at hl; exact h.bdf i _ (by rw [h5, hl])

theorem simAct_faceGravity (i : Nat) (f : Face S) (obs : V3 S) (density Gc : S) (gr : Bool) :
    SimAct dv dm (faceGravity i f obs density Gc gr) (faceGravity i f obs density Gc gr) := by
  unfold faceGravity
  refine simAct_bind (simAct_getDotPoint1 i f obs) fun _ => ?_
  refine simAct_bind (simAct_getSign i) fun _ => ?_
  refine simAct_bind (simAct_getOmega i f obs gr) fun _ => ?_
  refine simAct_bind (simAct_faceEdges i obs gr f.edges 0) fun _ => ?_
  exact simAct_faceFinish i f density Gc gr

theorem simAct_polyFaces (obs : V3 S) (density Gc : S) (gr : Bool) (fs : List (Face S)) : ∀ i G T,
    SimAct dv dm (polyFaces obs density Gc gr i fs G T) (polyFaces obs density Gc gr i fs G T) := by
  induction fs with
  | nil => intro i G T; exact simAct_pure _
  | cons f fs ih =>
    intro i G T
    exact simAct_bind (simAct_faceGravity _ _ _ _ _ _) fun _ => ih _ _ _

theorem Sim.edgesReset (i : Nat) (es : List (Edge S)) : ∀ (j : Nat) (m m' : Mem S), Sim dv dm m m' →
    Sim dv dm (edgesReset i j es m) (edgesReset i j es m') := by
  induction es with
  | nil => intro j m m' h; exact h
  | cons e es ih => intro j m m' h; exact ih _ _ _ (h.setEdgeNone i j)

theorem Sim.faceReset (i : Nat) (f : Face S) {m m' : Mem S} (h : Sim dv dm m m') :
    Sim dv dm (faceReset i f m) (faceReset i f m') := by
  refine Sim.edgesReset _ _ _ _ _ (h.setFace _ ?_ ?_ ?_)
  · constructor <;> simp
  · simp
  · simp

theorem Sim.polyReset (fs : List (Face S)) : ∀ (i : Nat) (m m' : Mem S), Sim dv dm m m' →
    Sim dv dm (polyReset i fs m) (polyReset i fs m') := by
  induction fs with
  | nil => intro i m m' h; exact h
  | cons f fs ih => intro i m m' h; exact ih _ _ _ (h.faceReset i f)

theorem simAct_getGravity (p : Poly S) (obs : V3 S) (density Gc : S) (gr : Bool) :
    SimAct dv dm (getGravity p obs density Gc gr) (getGravity p obs density Gc gr) :=
  simAct_bind (simAct_polyFaces _ _ _ _ _ _ _ _) fun _ =>
    simAct_bind (fun _ _ h => ⟨rfl, Sim.polyReset _ _ _ _ h⟩) fun _ => simAct_pure _

end

/-- No cached value in any edge or face. -/
structure Clean (m : Mem S) : Prop where
  edge : ∀ i j, m.edge i j = ⟨none, none⟩
  dp1 : ∀ i, (m.face i).dp1 = none
  sign : ∀ i, (m.face i).sign = none
  omega : ∀ i, (m.face i).omega = none
  domega : ∀ i, (m.face i).domega = none
  pqr : ∀ i, (m.face i).pqr = none
  dpqr : ∀ i, (m.face i).dpqr = none

theorem clean_fresh : Clean (Mem.fresh : Mem S) := by constructor <;> intros <;> rfl

theorem sim_of_clean {m : Mem S} (h : Clean m) : Sim m.vn m.mn Mem.fresh m := by
  constructor <;> simp [Mem.fresh, h.edge]
  intro i
  constructor <;> simp [h.dp1, h.sign, h.omega, h.domega, h.pqr, h.dpqr]

/-- From a clean memory, a call behaves as from the memory of a new object. -/
theorem getGravity_of_clean {m : Mem S} (h : Clean m) (p : Poly S) (obs : V3 S) (density Gc : S) (gr : Bool) :
    (getGravity p obs density Gc gr m).1 = (getGravity p obs density Gc gr Mem.fresh).1 :=
  (simAct_getGravity p obs density Gc gr _ _ (sim_of_clean h)).1

end Geec
