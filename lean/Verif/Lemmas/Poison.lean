import Verif.Lemmas.FaceSum
/-
State left behind by a query that raises.
-/
namespace Geec
open Arith
variable {S : Type} [Arith S]
set_option linter.unusedSectionVars false

theorem bind_ok' {α β : Type} {x : Act S α} {f : α → Act S β} {m m1 : Mem S} {a : α} (h : x m = (.ok a, m1)) :
    (x >>= f : Act S β) m = f a m1 := by
  show Act.bind x f m = _
  unfold Act.bind
  rw [h]

theorem bind_error' {α β : Type} {x : Act S α} {f : α → Act S β} {m m1 : Mem S} {e : PyErr} (h : x m = (.error e, m1)) :
    (x >>= f : Act S β) m = (.error e, m1) := by
  show Act.bind x f m = _
  unfold Act.bind
  rw [h]

/-- no cached derivative -/
def NoD (m : Mem S) : Prop := (∀ i j, (m.edge i j).dpqr = none) ∧ ∀ i, (m.face i).dpqr = none

/-- no cached edge value is lost -/
def Grown (m m' : Mem S) : Prop := ∀ i j, (m.edge i j).pqr.isSome = true → (m'.edge i j).pqr.isSome = true

def Keeps {α : Type} (x : Act S α) : Prop := ∀ m, NoD m → NoD (x m).2 ∧ Grown m (x m).2

theorem Grown.refl (m : Mem S) : Grown m m := fun _ _ h => h
theorem Grown.trans {a b c : Mem S} (h : Grown a b) (h' : Grown b c) : Grown a c := fun i j x => h' i j (h i j x)

theorem Keeps.bind {α β : Type} {x : Act S α} {f : α → Act S β} (hx : Keeps x) (hf : ∀ a, Keeps (f a)) : Keeps (x >>= f) := by
  intro m hm
  obtain ⟨h1, h2⟩ := hx m hm
  rcases hr : x m with ⟨r | r, m'⟩
  · rw [bind_error' hr]
    rw [hr] at h1 h2
    exact ⟨h1, h2⟩
  · rw [bind_ok' hr]
    rw [hr] at h1 h2
    obtain ⟨h3, h4⟩ := hf r m' h1
    exact ⟨h3, h2.trans h4⟩

theorem keeps_pure {α : Type} (a : α) : Keeps (Act.pure a : Act S α) := fun m hm => ⟨hm, Grown.refl m⟩

theorem keeps_setFace {m : Mem S} (hm : NoD m) {i : Nat} {c : FaceC S} (hc : c.dpqr = none) : NoD (m.setFace i c) ∧ Grown m (m.setFace i c) := by
  refine ⟨⟨hm.1, ?_⟩, fun _ _ h => h⟩
  intro i'
  simp only [Mem.setFace]
  split
  · exact hc
  · exact hm.2 i'

theorem keeps_newEdgePqr {m : Mem S} (hm : NoD m) (i j : Nat) (v : V3 S) : NoD (m.newEdgePqr i j v) ∧ Grown m (m.newEdgePqr i j v) := by
  refine ⟨⟨?_, hm.2⟩, ?_⟩
  · intro i' j'
    simp only [Mem.newEdgePqr, Mem.setEdge, Mem.setV]
    split
    · exact hm.1 i j
    · exact hm.1 i' j'
  · intro i' j' h
    simp only [Mem.newEdgePqr, Mem.setEdge, Mem.setV]
    split
    · rfl
    · exact h

theorem keeps_edgeCompute (i j : Nat) (e : Edge S) (obs : V3 S) : Keeps (edgeCompute i j e obs false) := by
  intro m hm
  unfold edgeCompute
  rcases (m.edge i j).pqr with _ | l
  · simp only
    rcases hv : edgeIntegral e obs false with x | ⟨q, d⟩
    · exact ⟨hm, Grown.refl m⟩
    · have hd : d = none := by
        have := edgeIntegral_opt hv
        simpa using this
      subst hd
      simp only
      have h1 := keeps_newEdgePqr hm i j q
      have h2 : NoD ((m.newEdgePqr i j q).newEdgeDpqr i j none) ∧ Grown m ((m.newEdgePqr i j q).newEdgeDpqr i j none) := by
        refine ⟨⟨?_, h1.1.2⟩, ?_⟩
        · intro i' j'
          simp only [Mem.newEdgeDpqr, Mem.setEdge]
          split
          · rfl
          · exact h1.1.1 i' j'
        · intro i' j' h
          have := h1.2 i' j' h
          simp only [Mem.newEdgeDpqr, Mem.setEdge]
          split
          · next he => obtain ⟨rfl, rfl⟩ := he; exact this
          · exact this
      generalize (m.newEdgePqr i j q).newEdgeDpqr i j none = m1 at h2
      unfold setTwinPqr
      rcases e.twin with _ | ⟨i', j'⟩
      · exact h2
      · simp only
        rcases (m1.edge i j).pqr with _ | l
        · simp only [h2.1.1]
          exact h2
        · have h3 := keeps_newEdgePqr h2.1 i' j' (m1.va l).neg
          simp only [h3.1.1]
          exact ⟨h3.1, h2.2.trans h3.2⟩
  · exact ⟨hm, Grown.refl m⟩

/-- when the computation of an edge returns, its value is cached -/
theorem edgeCompute_caches {i j : Nat} {e : Edge S} {obs : V3 S} {gr : Bool} {m m' : Mem S} {u : Unit} (h : edgeCompute i j e obs gr m = (.ok u, m')) :
    (m'.edge i j).pqr.isSome = true := by
  unfold edgeCompute at h
  rcases hp : (m.edge i j).pqr with _ | l <;> rw [hp] at h
  · simp only at h
    rcases hv : edgeIntegral e obs gr with x | ⟨q, d⟩ <;> rw [hv] at h <;> simp only at h
    · cases h
    · have h2 : (((m.newEdgePqr i j q).newEdgeDpqr i j d).edge i j).pqr.isSome = true := by
        rcases d with _ | d <;> simp [Mem.newEdgeDpqr, Mem.newEdgePqr, Mem.setEdge, Mem.setV, Mem.setM]
      generalize (m.newEdgePqr i j q).newEdgeDpqr i j d = m1 at h h2
      unfold setTwinPqr at h
      rcases ht : e.twin with _ | ⟨i', j'⟩ <;> rw [ht] at h
      · cases h
      · simp only [Prod.mk.injEq] at h
        rw [← h.2]
        have key : ∀ (m1 : Mem S) (v : V3 S), (m1.edge i j).pqr.isSome = true → ((m1.newEdgePqr i' j' v).edge i j).pqr.isSome = true := by
          intro m1 v h
          simp only [Mem.newEdgePqr, Mem.setEdge, Mem.setV]
          split
          · rfl
          · exact h
        have key2 : ∀ (m1 : Mem S) (v : M3 S), (m1.edge i j).pqr.isSome = true → ((m1.newEdgeDpqr i' j' (some v)).edge i j).pqr.isSome = true := by
          intro m1 v hh
          simp only [Mem.newEdgeDpqr, Mem.setEdge, Mem.setM]
          split
          · next he => rw [← he.1, ← he.2]; exact hh
          · exact hh
        rcases hq : (m1.edge i j).pqr with _ | l
        · rw [hq] at h2; cases h2
        · simp only
          have h3 := key m1 (m1.va l).neg h2
          generalize m1.newEdgePqr i' j' (m1.va l).neg = m2 at h3 ⊢
          rcases (m2.edge i j).dpqr with _ | l'
          · exact h3
          · exact key2 _ _ h3
  · cases h
    rw [hp]; rfl

theorem keeps_addPqr (i j : Nat) : Keeps (addPqr i j : Act S Unit) := by
  intro m hm
  unfold addPqr
  split
  · exact ⟨hm, Grown.refl m⟩
  · exact ⟨hm, Grown.refl m⟩
  · exact keeps_setFace hm (hm.2 i)

theorem keeps_addDpqr (i j : Nat) : Keeps (addDpqr i j : Act S Unit) := by
  intro m hm
  unfold addDpqr
  split
  · exact ⟨hm, Grown.refl m⟩
  · exact ⟨hm, Grown.refl m⟩
  · exact keeps_setFace hm (hm.1 i j)

theorem keeps_faceEdges (i : Nat) (obs : V3 S) (es : List (Edge S)) : ∀ j, Keeps (faceEdges i obs false j es) := by
  induction es with
  | nil => intro j; exact keeps_pure ()
  | cons e es ih =>
    intro j
    unfold faceEdges
    exact (keeps_edgeCompute i j e obs).bind fun _ => (keeps_addPqr i j).bind fun _ => (keeps_addDpqr i j).bind fun _ => ih (j + 1)

theorem faceEdges_cached {i : Nat} {obs : V3 S} (es : List (Edge S)) : ∀ {j : Nat} {m m' : Mem S} {u : Unit}, NoD m →
    faceEdges i obs false j es m = (.ok u, m') → ∀ k, k < es.length → (m'.edge i (j + k)).pqr.isSome = true := by
  induction es with
  | nil => intro j m m' u _ _ k hk; cases hk
  | cons e es ih =>
    intro j m m' u hm h k hk
    unfold faceEdges at h
    rcases h1 : edgeCompute i j e obs false m with ⟨x | u1, m1⟩
    · rw [bind_error' h1] at h; cases h
    · rw [bind_ok' h1] at h
      have c1 := edgeCompute_caches h1
      have k1 := keeps_edgeCompute i j e obs m hm
      rw [h1] at k1
      rcases h2 : (addPqr i j : Act S Unit) m1 with ⟨x | u2, m2⟩
      · rw [bind_error' h2] at h; cases h
      · rw [bind_ok' h2] at h
        have k2 := keeps_addPqr i j m1 k1.1
        rw [h2] at k2
        rcases h3 : (addDpqr i j : Act S Unit) m2 with ⟨x | u3, m3⟩
        · rw [bind_error' h3] at h; cases h
        · rw [bind_ok' h3] at h
          have k3 := keeps_addDpqr i j m2 k2.1
          rw [h3] at k3
          rcases k with _ | k
          · have k4 := keeps_faceEdges i obs es (j + 1) m3 k3.1
            rw [h] at k4
            exact k4.2 _ _ (k3.2 _ _ (k2.2 _ _ c1))
          · have := ih k3.1 h k (by simpa using hk)
            rwa [show j + 1 + k = j + (k + 1) by omega] at this

theorem keeps_start (i : Nat) (f : Face S) (obs : V3 S) : Keeps (getDotPoint1 i f obs) ∧ Keeps (getSign i : Act S Unit) ∧ Keeps (getOmega i f obs false) := by
  refine ⟨fun m hm => keeps_setFace hm (hm.2 i), ?_, ?_⟩
  · intro m hm
    unfold getSign
    split
    · exact keeps_setFace hm (hm.2 i)
    · exact ⟨hm, Grown.refl m⟩
  · intro m hm
    unfold getOmega
    split
    · exact ⟨hm, Grown.refl m⟩
    · exact ⟨hm, Grown.refl m⟩
    · have h1 := keeps_setFace (i := i) (c := { (m.face i) with omega := some zero, domega := some V3.zeros }) hm (hm.2 i)
      simp only
      split
      · split
        · exact h1
        · have h2 := keeps_setFace (i := i) (c := { ((m.setFace i { (m.face i) with omega := some zero, domega := some V3.zeros }).face i) with omega := some ‹_›, domega := some ‹_› })
            h1.1 (h1.1.2 i)
          exact ⟨h2.1, h1.2.trans h2.2⟩
      · exact h1

theorem keeps_faceFinish (i : Nat) (f : Face S) (ρ Gc : S) : Keeps (faceFinish i f ρ Gc false) := by
  intro m hm
  unfold faceFinish
  simp only
  split
  · exact keeps_setFace hm (hm.2 i)
  · exact ⟨hm, Grown.refl m⟩

theorem keeps_faceGravity (i : Nat) (f : Face S) (obs : V3 S) (ρ Gc : S) : Keeps (faceGravity i f obs ρ Gc false) := by
  obtain ⟨h1, h2, h3⟩ := keeps_start i f obs
  unfold faceGravity
  exact h1.bind fun _ => h2.bind fun _ => h3.bind fun _ => (keeps_faceEdges i obs f.edges 0).bind fun _ => keeps_faceFinish i f ρ Gc

theorem keeps_polyFaces (obs : V3 S) (ρ Gc : S) (fs : List (Face S)) : ∀ i G T, Keeps (polyFaces obs ρ Gc false i fs G T) := by
  induction fs with
  | nil => intro i G T; exact keeps_pure _
  | cons f fs ih => intro i G T; exact (keeps_faceGravity i f obs ρ Gc).bind fun v => ih _ _ _

theorem act_ok_inv {α β : Type} {x : Act S α} {f : α → Act S β} {m m' : Mem S} {b : β} (h : (x >>= f) m = (.ok b, m')) :
    ∃ a m1, x m = (.ok a, m1) ∧ f a m1 = (.ok b, m') := by
  rcases hx : x m with ⟨e | a, m1⟩
  · rw [bind_error' hx] at h; cases h
  · rw [bind_ok' hx] at h; exact ⟨a, m1, rfl, h⟩

theorem faceGravity_cached {i : Nat} {f : Face S} {obs : V3 S} {ρ Gc : S} {m m' : Mem S} {v : V3 S × M3 S} (hm : NoD m)
    (h : faceGravity i f obs ρ Gc false m = (.ok v, m')) : NoD m' ∧ ∀ j, j < f.edges.length → (m'.edge i j).pqr.isSome = true := by
  have hk := keeps_faceGravity i f obs ρ Gc m hm
  rw [h] at hk
  refine ⟨hk.1, ?_⟩
  obtain ⟨k1, k2, k3⟩ := keeps_start i f obs
  unfold faceGravity at h
  obtain ⟨u1, m1, e1, h⟩ := act_ok_inv h
  obtain ⟨u2, m2, e2, h⟩ := act_ok_inv h
  obtain ⟨u3, m3, e3, h⟩ := act_ok_inv h
  obtain ⟨u4, m4, e4, h⟩ := act_ok_inv h
  have n1 := k1 m hm; rw [e1] at n1
  have n2 := k2 m1 n1.1; rw [e2] at n2
  have n3 := k3 m2 n2.1; rw [e3] at n3
  have n4 := keeps_faceEdges i obs f.edges 0 m3 n3.1; rw [e4] at n4
  have n5 := keeps_faceFinish i f ρ Gc m4 n4.1; rw [h] at n5
  intro j hj
  have := faceEdges_cached f.edges n3.1 e4 j hj
  rw [Nat.zero_add] at this
  exact n5.2 _ _ this

/-- the state is poisoned: the edges of face 0 have cached values without derivatives -/
structure Poisoned (p : Poly S) (m : Mem S) : Prop where
  face : (m.face 0).dpqr = none
  edge : ∀ f, p.faces[0]? = some f → ∀ j, j < f.edges.length → (m.edge 0 j).pqr.isSome = true ∧ (m.edge 0 j).dpqr = none

/-- a query without gradient that finishes face 0 and then raises poisons the object -/
theorem poisoned_of_raise {p : Poly S} {obs : V3 S} {ρ Gc : S} {m1 : Mem S} {x : PyErr}
    (h : getGravity p obs ρ Gc false Mem.fresh = (.error x, m1))
    (h0 : ∀ f, p.faces[0]? = some f → ∃ v m', faceGravity 0 f obs ρ Gc false (Mem.fresh : Mem S) = (.ok v, m')) : Poisoned p m1 := by
  have hfresh : NoD (Mem.fresh : Mem S) := ⟨fun _ _ => rfl, fun _ => rfl⟩
  rcases hp : polyFaces obs ρ Gc false 0 p.faces V3.zeros M3.zeros (Mem.fresh : Mem S) with ⟨y | v, m2⟩
  · unfold getGravity at h
    rw [bind_error' hp] at h
    cases h
    have hk := keeps_polyFaces obs ρ Gc p.faces 0 V3.zeros M3.zeros _ hfresh
    rw [hp] at hk
    refine ⟨hk.1.2 0, ?_⟩
    intro f hf j hj
    refine ⟨?_, hk.1.1 0 j⟩
    obtain ⟨⟨v1, v2⟩, m', hv⟩ := h0 f hf
    obtain ⟨hn, hc⟩ := faceGravity_cached hfresh hv
    rcases hfs : p.faces with _ | ⟨f', fs⟩
    · rw [hfs] at hf; cases hf
    · rw [hfs] at hf hp
      cases hf
      unfold polyFaces at hp
      rw [bind_ok' hv] at hp
      replace hp : polyFaces obs ρ Gc false (0 + 1) fs (V3.zeros.add v1) (M3.zeros.add v2) m' = _ := hp
      have hk' := keeps_polyFaces obs ρ Gc fs (0 + 1) (V3.zeros.add v1) (M3.zeros.add v2) m' hn
      rw [hp] at hk'
      exact hk'.2 _ _ (hc j hj)
  · unfold getGravity at h
    rw [bind_ok' hp] at h
    cases h

/-- on a poisoned object the edges of face 0 never give a derivative -/
theorem faceEdges_poisoned {obs : V3 S} {gr : Bool} (es : List (Edge S)) : ∀ {j : Nat} {m : Mem S}, (m.face 0).dpqr = none →
    (∀ k, k < es.length → (m.edge 0 (j + k)).pqr.isSome = true ∧ (m.edge 0 (j + k)).dpqr = none) →
    ((faceEdges 0 obs gr j es m).2.face 0).dpqr = none ∧ ∀ i k, (faceEdges 0 obs gr j es m).2.edge i k = m.edge i k := by
  induction es with
  | nil => intro j m h _; exact ⟨h, fun _ _ => rfl⟩
  | cons e es ih =>
    intro j m hf he
    obtain ⟨hp, hd⟩ := he 0 (by simp)
    rw [Nat.add_zero] at hp hd
    obtain ⟨l, hl⟩ := Option.isSome_iff_exists.mp hp
    have h1 : edgeCompute 0 j e obs gr m = (.ok (), m) := by unfold edgeCompute; rw [hl]
    unfold faceEdges
    rw [bind_ok' h1]
    have key : ∀ m2 : Mem S, (m2.face 0).dpqr = none → (∀ i k, m2.edge i k = m.edge i k) →
        (((do addDpqr 0 j; faceEdges 0 obs gr (j + 1) es : Act S Unit) m2).2.face 0).dpqr = none ∧
        ∀ i k, ((do addDpqr 0 j; faceEdges 0 obs gr (j + 1) es : Act S Unit) m2).2.edge i k = m.edge i k := by
      intro m2 hf2 he2
      have h3 : (addDpqr 0 j : Act S Unit) m2 = (.ok (), m2.setFace 0 { (m2.face 0) with dpqr := none }) := by
        unfold addDpqr; rw [hf2, he2, hd]
      rw [bind_ok' h3]
      obtain ⟨r1, r2⟩ := ih (j := j + 1) (m := m2.setFace 0 { (m2.face 0) with dpqr := none }) (by simp [Mem.setFace]) (by
        intro k hk
        have := he (k + 1) (by simpa using hk)
        rw [show j + (k + 1) = j + 1 + k by omega] at this
        simpa only [Mem.setFace, he2] using this)
      exact ⟨r1, fun i k => by rw [r2]; exact he2 i k⟩
    rcases hfp : (m.face 0).pqr with _ | l'
    · have h2 : (addPqr 0 j : Act S Unit) m = (.ok (), m.setFace 0 { (m.face 0) with pqr := some l }) := by
        unfold addPqr; rw [hfp, hl]
      rw [bind_ok' h2]
      exact key _ (by simp [Mem.setFace, hf]) (fun _ _ => rfl)
    · have h2 : (addPqr 0 j : Act S Unit) m = (.ok (), m.setV l' ((m.va l').add (m.va l))) := by
        unfold addPqr; rw [hfp, hl]
      rw [bind_ok' h2]
      exact key _ hf (fun _ _ => rfl)

/-- a query with gradient raises on a poisoned object, and leaves it poisoned -/
theorem poisoned_raises {p : Poly S} {m : Mem S} (hm : Poisoned p m) (hne : p.faces ≠ []) (obs : V3 S) (ρ Gc : S) :
    (∃ x, (getGravity p obs ρ Gc true m).1 = .error x) ∧ Poisoned p (getGravity p obs ρ Gc true m).2 := by
  rcases hfs : p.faces with _ | ⟨f, fs⟩
  · exact absurd hfs hne
  have he := hm.edge f (by rw [hfs]; rfl)
  have hface : (∃ x, (faceGravity 0 f obs ρ Gc true m).1 = .error x) ∧ (((faceGravity 0 f obs ρ Gc true m).2.face 0).dpqr = none ∧
      ∀ i k, (faceGravity 0 f obs ρ Gc true m).2.edge i k = m.edge i k) := by
    unfold faceGravity
    have e1 : getDotPoint1 0 f obs m = (.ok (), m.setFace 0 { (m.face 0) with dp1 := some (dot f.un ((at3 f.points 0).sub obs)) }) := rfl
    rw [bind_ok' e1]
    set m1 := m.setFace 0 { (m.face 0) with dp1 := some (dot f.un ((at3 f.points 0).sub obs)) } with hm1
    have q1 : (m1.face 0).dpqr = none ∧ ∀ i k, m1.edge i k = m.edge i k := ⟨by simp [hm1, Mem.setFace, hm.face], fun _ _ => rfl⟩
    have e2 : (getSign 0 : Act S Unit) m1 = (.ok (), m1.setFace 0 { (m1.face 0) with sign := some (npSign (dot f.un ((at3 f.points 0).sub obs))) }) := by
      unfold getSign; simp [hm1, Mem.setFace]
    rw [bind_ok' e2]
    set m2 := m1.setFace 0 { (m1.face 0) with sign := some (npSign (dot f.un ((at3 f.points 0).sub obs))) } with hm2
    have q2 : (m2.face 0).dpqr = none ∧ ∀ i k, m2.edge i k = m.edge i k := ⟨by simp [hm2, Mem.setFace, q1.1], fun _ _ => rfl⟩
    have q3 : ((getOmega 0 f obs true m2).2.face 0).dpqr = none ∧ ∀ i k, (getOmega 0 f obs true m2).2.edge i k = m.edge i k := by
      unfold getOmega
      split
      · exact q2
      · exact q2
      · simp only
        split
        · split
          · exact ⟨by simp [Mem.setFace, q2.1], q2.2⟩
          · exact ⟨by simp [Mem.setFace, q2.1], q2.2⟩
        · exact ⟨by simp [Mem.setFace, q2.1], q2.2⟩
    rcases e3 : getOmega 0 f obs true m2 with ⟨x | u, m3⟩
    · rw [bind_error' e3]
      rw [e3] at q3
      exact ⟨⟨x, rfl⟩, q3⟩
    · rw [bind_ok' e3]
      rw [e3] at q3
      have q4 := faceEdges_poisoned (obs := obs) (gr := true) f.edges (j := 0) (m := m3) q3.1 (by
        intro k hk
        rw [Nat.zero_add, q3.2]
        exact he k hk)
      rcases e4 : faceEdges 0 obs true 0 f.edges m3 with ⟨x | u, m4⟩
      · rw [bind_error' e4]
        rw [e4] at q4
        exact ⟨⟨x, rfl⟩, q4.1, fun i k => by rw [q4.2, q3.2]⟩
      · rw [bind_ok' e4]
        rw [e4] at q4
        have q5 : ∀ i k, m4.edge i k = m.edge i k := fun i k => by rw [q4.2, q3.2]
        unfold faceFinish
        simp only
        have q40 : (m4.face 0).dpqr = none := q4.1
        rw [q40]
        split
        · exact ⟨⟨_, rfl⟩, q40, q5⟩
        · exact ⟨⟨_, rfl⟩, q40, q5⟩
  obtain ⟨⟨x, hx⟩, hd, hk⟩ := hface
  have hpoly : polyFaces obs ρ Gc true 0 (f :: fs) V3.zeros M3.zeros m = (.error x, (faceGravity 0 f obs ρ Gc true m).2) := by
    unfold polyFaces
    exact bind_error' (Prod.ext hx rfl)
  have hg : getGravity p obs ρ Gc true m = (.error x, (faceGravity 0 f obs ρ Gc true m).2) := by
    unfold getGravity
    rw [hfs]
    exact bind_error' hpoly
  rw [hg]
  refine ⟨⟨x, rfl⟩, hd, ?_⟩
  intro f' hf' j hj
  rw [hk]
  exact hm.edge f' hf' j hj

end Geec
