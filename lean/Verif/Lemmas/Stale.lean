import Verif.Lemmas.Poison
/-
The values that a query without gradient leaves behind when it raises after the first face, and what a later query makes of them.
-/
namespace Geec
open Arith
variable {S : Type} [Arith S]
set_option linter.unusedSectionVars false
set_option linter.unusedSimpArgs false

/-- the edges and the face of index 0 hold values of an earlier station, in arrays that nobody else uses -/
structure Stale (p : Poly S) (q0 q1 q2 : V3 S) (l0 l1 l2 : Nat) (m : Mem S) : Prop where
  nod : NoD m
  f0 : (m.face 0).pqr = some l0
  e0 : (m.edge 0 0).pqr = some l0
  e1 : (m.edge 0 1).pqr = some l1
  e2 : (m.edge 0 2).pqr = some l2
  v0 : m.va l0 = (q0.add q1).add q2
  v1 : m.va l1 = q1
  v2 : m.va l2 = q2
  lt0 : l0 < m.vn
  lt1 : l1 < m.vn
  lt2 : l2 < m.vn
  sepE : ∀ i j l, i ≠ 0 → (m.edge i j).pqr = some l → l ≠ l0 ∧ l ≠ l1 ∧ l ≠ l2
  sepF : ∀ i l, i ≠ 0 → (m.face i).pqr = some l → l ≠ l0 ∧ l ≠ l1 ∧ l ≠ l2
  tw : ∀ i j e j', i ≠ 0 → p.edgeAt i j = some e → e.twin = some (0, j') → (m.edge i j).pqr.isSome = true

variable {p : Poly S} {q0 q1 q2 : V3 S} {l0 l1 l2 : Nat}

theorem Stale.setFace {m : Mem S} (h : Stale p q0 q1 q2 l0 l1 l2 m) {i : Nat} (hi : i ≠ 0) {c : FaceC S} (hd : c.dpqr = none)
    (hc : ∀ l, c.pqr = some l → l ≠ l0 ∧ l ≠ l1 ∧ l ≠ l2) : Stale p q0 q1 q2 l0 l1 l2 (m.setFace i c) where
  nod := (keeps_setFace h.nod hd).1
  f0 := by simp only [Mem.setFace, if_neg (Ne.symm hi)]; exact h.f0
  e0 := h.e0
  e1 := h.e1
  e2 := h.e2
  v0 := h.v0
  v1 := h.v1
  v2 := h.v2
  lt0 := h.lt0
  lt1 := h.lt1
  lt2 := h.lt2
  sepE := h.sepE
  sepF := by
    intro i' l hi' hl
    simp only [Mem.setFace] at hl
    split at hl
    · exact hc l hl
    · exact h.sepF i' l hi' hl
  tw := h.tw

theorem Stale.newEdgePqr {m : Mem S} (h : Stale p q0 q1 q2 l0 l1 l2 m) {i : Nat} (hi : i ≠ 0) (j : Nat) (v : V3 S) :
    Stale p q0 q1 q2 l0 l1 l2 (m.newEdgePqr i j v) := by
  have hk := keeps_newEdgePqr h.nod i j v
  have a0 : ∀ j', ¬ (0 = i ∧ j' = j) := fun j' hh => hi hh.1.symm
  refine ⟨hk.1, h.f0, ?_, ?_, ?_, ?_, ?_, ?_, ?_, ?_, ?_, ?_, h.sepF, ?_⟩
  · simp only [Mem.newEdgePqr, Mem.setEdge, Mem.setV, if_neg (a0 _)]; exact h.e0
  · simp only [Mem.newEdgePqr, Mem.setEdge, Mem.setV, if_neg (a0 _)]; exact h.e1
  · simp only [Mem.newEdgePqr, Mem.setEdge, Mem.setV, if_neg (a0 _)]; exact h.e2
  · simp only [Mem.newEdgePqr, Mem.setEdge, Mem.setV, if_neg h.lt0.ne]; exact h.v0
  · simp only [Mem.newEdgePqr, Mem.setEdge, Mem.setV, if_neg h.lt1.ne]; exact h.v1
  · simp only [Mem.newEdgePqr, Mem.setEdge, Mem.setV, if_neg h.lt2.ne]; exact h.v2
  · exact Nat.lt_succ_of_lt h.lt0
  · exact Nat.lt_succ_of_lt h.lt1
  · exact Nat.lt_succ_of_lt h.lt2
  · intro i' j' l hi' hl
    simp only [Mem.newEdgePqr, Mem.setEdge, Mem.setV] at hl
    split at hl
    · simp only [Option.some.injEq] at hl
      subst hl
      exact ⟨h.lt0.ne', h.lt1.ne', h.lt2.ne'⟩
    · exact h.sepE i' j' l hi' hl
  · intro i' j' e j2 hi' he ht
    exact hk.2 _ _ (h.tw i' j' e j2 hi' he ht)

theorem Stale.clearDpqr {m : Mem S} (h : Stale p q0 q1 q2 l0 l1 l2 m) (i j : Nat) :
    Stale p q0 q1 q2 l0 l1 l2 (m.newEdgeDpqr i j none) := by
  have e : (m.newEdgeDpqr i j none) = m := by
    have h1 : ({ (m.edge i j) with dpqr := none } : EdgeC) = m.edge i j := by
      rcases hc : m.edge i j with ⟨a, b⟩
      have := h.nod.1 i j
      rw [hc] at this
      simp only at this
      rw [this]
    simp only [Mem.newEdgeDpqr, h1, Mem.setEdge]
    rcases m with ⟨va, vn, ma, mn, edge, face⟩
    simp only [Mem.mk.injEq, true_and, and_true]
    funext i' j'
    split
    · next hh => rw [hh.1, hh.2]
    · rfl
  rw [e]; exact h

/-- an action keeps the stale values -/
def KeepsStale (p : Poly S) (q0 q1 q2 : V3 S) (l0 l1 l2 : Nat) {α : Type} (x : Act S α) : Prop :=
  ∀ m, Stale p q0 q1 q2 l0 l1 l2 m → Stale p q0 q1 q2 l0 l1 l2 (x m).2

theorem KeepsStale.bind {α β : Type} {x : Act S α} {f : α → Act S β} (hx : KeepsStale p q0 q1 q2 l0 l1 l2 x)
    (hf : ∀ a, KeepsStale p q0 q1 q2 l0 l1 l2 (f a)) : KeepsStale p q0 q1 q2 l0 l1 l2 (x >>= f) := by
  intro m hm
  have h1 := hx m hm
  rcases hr : x m with ⟨r | r, m'⟩
  · rw [bind_error' hr]; rw [hr] at h1; exact h1
  · rw [bind_ok' hr]; rw [hr] at h1; exact hf r m' h1

theorem stale_edgeCompute {i j : Nat} (hi : i ≠ 0) {e : Edge S} (he : p.edgeAt i j = some e) (obs : V3 S) :
    KeepsStale p q0 q1 q2 l0 l1 l2 (edgeCompute i j e obs false) := by
  intro m hm
  unfold edgeCompute
  rcases hp : (m.edge i j).pqr with _ | l
  · simp only
    rcases hv : edgeIntegral e obs false with x | ⟨q, d⟩
    · exact hm
    · have hd : d = none := by simpa using edgeIntegral_opt hv
      subst hd
      simp only
      have h2 := (hm.newEdgePqr hi j q).clearDpqr i j
      generalize (m.newEdgePqr i j q).newEdgeDpqr i j none = m1 at h2
      unfold setTwinPqr
      rcases ht : e.twin with _ | ⟨i', j'⟩
      · exact h2
      · have hi' : i' ≠ 0 := by
          rintro rfl
          have := hm.tw i j e j' hi he ht
          rw [hp] at this
          cases this
        simp only
        rcases (m1.edge i j).pqr with _ | l
        · simp only [h2.nod.1]
          exact h2
        · have h3 := h2.newEdgePqr hi' j' (m1.va l).neg
          simp only [h3.nod.1]
          exact h3
  · exact hm

theorem stale_addPqr {i : Nat} (hi : i ≠ 0) (j : Nat) : KeepsStale p q0 q1 q2 l0 l1 l2 (addPqr i j : Act S Unit) := by
  intro m hm
  unfold addPqr
  split
  · next l l' hl hl' =>
    obtain ⟨n0, n1, n2⟩ := hm.sepF i l hi hl
    refine ⟨hm.nod, hm.f0, hm.e0, hm.e1, hm.e2, ?_, ?_, ?_, hm.lt0, hm.lt1, hm.lt2, hm.sepE, hm.sepF, hm.tw⟩
    · simp only [Mem.setV, if_neg n0.symm]; exact hm.v0
    · simp only [Mem.setV, if_neg n1.symm]; exact hm.v1
    · simp only [Mem.setV, if_neg n2.symm]; exact hm.v2
  · exact hm
  · exact hm.setFace hi (hm.nod.2 i) (fun l hl => hm.sepE i j l hi hl)

theorem stale_addDpqr {i : Nat} (hi : i ≠ 0) (j : Nat) : KeepsStale p q0 q1 q2 l0 l1 l2 (addDpqr i j : Act S Unit) := by
  intro m hm
  unfold addDpqr
  split
  · exact ⟨hm.nod, hm.f0, hm.e0, hm.e1, hm.e2, hm.v0, hm.v1, hm.v2, hm.lt0, hm.lt1, hm.lt2, hm.sepE, hm.sepF, hm.tw⟩
  · exact hm
  · exact hm.setFace hi (hm.nod.1 i j) (fun l hl => hm.sepF i l hi hl)

theorem stale_faceEdges {i : Nat} (hi : i ≠ 0) (obs : V3 S) (es : List (Edge S)) : ∀ j, (∀ k e, es[k]? = some e → p.edgeAt i (j + k) = some e) →
    KeepsStale p q0 q1 q2 l0 l1 l2 (faceEdges i obs false j es) := by
  induction es with
  | nil => intro j _ m hm; exact hm
  | cons e es ih =>
    intro j he
    unfold faceEdges
    exact (stale_edgeCompute hi (he 0 e rfl) obs).bind fun _ => (stale_addPqr hi j).bind fun _ => (stale_addDpqr hi j).bind fun _ =>
      ih (j + 1) (fun k e' hk => by have := he (k + 1) e' hk; rwa [show j + (k + 1) = j + 1 + k by omega] at this)

theorem stale_start {i : Nat} (hi : i ≠ 0) (f : Face S) (obs : V3 S) : KeepsStale p q0 q1 q2 l0 l1 l2 (getDotPoint1 i f obs) ∧
    KeepsStale p q0 q1 q2 l0 l1 l2 (getSign i : Act S Unit) ∧ KeepsStale p q0 q1 q2 l0 l1 l2 (getOmega i f obs false) := by
  refine ⟨fun m hm => hm.setFace hi (hm.nod.2 i) (fun l hl => hm.sepF i l hi hl), ?_, ?_⟩
  · intro m hm
    unfold getSign
    split
    · exact hm.setFace hi (hm.nod.2 i) (fun l hl => hm.sepF i l hi hl)
    · exact hm
  · intro m hm
    unfold getOmega
    split
    · exact hm
    · exact hm
    · have h1 := hm.setFace (i := i) (c := { (m.face i) with omega := some zero, domega := some V3.zeros }) hi (hm.nod.2 i) (fun l hl => hm.sepF i l hi hl)
      simp only
      split
      · split
        · exact h1
        · exact h1.setFace hi (h1.nod.2 i) (fun l hl => h1.sepF i l hi hl)
      · exact h1

theorem stale_faceGravity {i : Nat} (hi : i ≠ 0) {f : Face S} (hf : p.faces[i]? = some f) (obs : V3 S) (ρ Gc : S) :
    KeepsStale p q0 q1 q2 l0 l1 l2 (faceGravity i f obs ρ Gc false) := by
  obtain ⟨h1, h2, h3⟩ := stale_start (p := p) (q0 := q0) (q1 := q1) (q2 := q2) (l0 := l0) (l1 := l1) (l2 := l2) hi f obs
  unfold faceGravity
  refine h1.bind fun _ => h2.bind fun _ => h3.bind fun _ => (stale_faceEdges hi obs f.edges 0 ?_).bind fun _ => ?_
  · intro k e hk
    unfold Poly.edgeAt
    rw [Nat.zero_add, hf]
    exact hk
  · intro m hm
    unfold faceFinish
    simp only
    split
    · exact hm.setFace hi (hm.nod.2 i) (fun l hl => hm.sepF i l hi hl)
    · exact hm

theorem stale_polyFaces (obs : V3 S) (ρ Gc : S) (fs : List (Face S)) : ∀ i G T, i ≠ 0 → (∀ k f, fs[k]? = some f → p.faces[i + k]? = some f) →
    KeepsStale p q0 q1 q2 l0 l1 l2 (polyFaces obs ρ Gc false i fs G T) := by
  induction fs with
  | nil => intro i G T _ _ m hm; exact hm
  | cons f fs ih =>
    intro i G T hi hf
    exact (stale_faceGravity hi (hf 0 f rfl) obs ρ Gc).bind fun v => ih _ _ _ (by omega)
      (fun k f' hk => by have := hf (k + 1) f' hk; rwa [show i + (k + 1) = i + 1 + k by omega] at this)

/-- the part of `Face.get_gravity` before the loop over the edges -/
theorem face_steps {i : Nat} {f : Face S} {obs : V3 S} {w : S × V3 S} (hom : omegaValue f obs false = .ok w) (ρ Gc : S) (m : Mem S) :
    faceGravity i f obs ρ Gc false m = Act.bind (faceEdges i obs false 0 f.edges) (fun _ => faceFinish i f ρ Gc false)
      (m.setFace i { (m.face i) with dp1 := some (f.height obs), sign := some (npSign (f.height obs)), omega := some w.1, domega := some w.2 }) := by
  let c0 : FaceC S := { (m.face i) with dp1 := some (f.height obs) }
  let m1 := m.setFace i c0
  have e1 : getDotPoint1 i f obs m = (.ok (), m1) := rfl
  let c1 : FaceC S := { c0 with sign := some (npSign (f.height obs)) }
  let m2 := m1.setFace i c1
  have e2 : getSign i m1 = (.ok (), m2) := by
    simp only [getSign, m1, m2, Mem.setFace, if_true, c0, c1]
  have e3 : getOmega i f obs false m2 = (.ok (), m.setFace i { (m.face i) with dp1 := some (f.height obs), sign := some (npSign (f.height obs)), omega := some w.1, domega := some w.2 }) := by
    simp only [omegaValue] at hom
    simp only [getOmega, m2, m1, Mem.setFace, if_true, c1, c0]
    by_cases hb : (eps <. abs (f.height obs)) = true
    · simp only [hb, if_true] at hom ⊢
      rw [hom]
      refine congrArg (Prod.mk _) ?_
      simp only [Mem.mk.injEq, true_and]
      funext k
      by_cases hk : k = i <;> simp [hk]
    · simp only [hb] at hom ⊢
      cases hom
      refine congrArg (Prod.mk _) ?_
      simp only [Mem.mk.injEq, true_and]
      funext k
      by_cases hk : k = i <;> simp [hk]
  unfold faceGravity
  simp only [bind]
  rw [act_bind_ok e1, act_bind_ok e2, act_bind_ok e3]

/-- a face without an earlier value, in a new object: its values are cached -/
theorem stale_first {f : Face S} (hf : p.faces[0]? = some f) {a b c : Edge S} (he : f.edges = [a, b, c]) (hw : p.WellTwinned)
    {obs : V3 S} (ha : edgeIntegral a obs false = .ok (q0, none)) (hb : edgeIntegral b obs false = .ok (q1, none))
    (hc : edgeIntegral c obs false = .ok (q2, none)) {w : S × V3 S} (hom : omegaValue f obs false = .ok w) (ρ Gc : S) :
    ∃ l0 l1 l2 m, faceGravity 0 f obs ρ Gc false Mem.fresh =
      (.ok (faceField f.un (f.height obs) w.1 w.2 ((q0.add q1).add q2) M3.zeros ρ Gc false), m) ∧ l0 ≠ l1 ∧ l0 ≠ l2 ∧ Stale p q0 q1 q2 l0 l1 l2 m := by
  have hE : ∀ j, p.edgeAt 0 j = [a, b, c][j]? := by intro j; unfold Poly.edgeAt; rw [hf]; simp [he]
  obtain ⟨i0, j0, e0, t0, g0, r0, n0⟩ := hw 0 0 a (hE 0)
  obtain ⟨i1, j1, e1, t1, g1, r1, n1⟩ := hw 0 1 b (hE 1)
  obtain ⟨i2, j2, e2, t2, g2, r2, n2⟩ := hw 0 2 c (hE 2)
  refine ⟨0, 2, 4, ?_⟩
  rw [face_steps hom, he]
  simp [faceEdges, bind, Act.bind, edgeCompute, Mem.setFace, Mem.fresh, ha, hb, hc, setTwinPqr, t0, t1, t2, Mem.newEdgePqr, Mem.newEdgeDpqr, Mem.setEdge,
    Mem.setV, n0.symm, n1.symm, n2.symm, n0, n1, n2, addPqr, addDpqr, if_true, true_and, false_and, if_false, and_self, Act.pure, faceFinish, apply_ite EdgeC.dpqr, apply_ite EdgeC.pqr]
  refine ⟨⟨?_, ?_⟩, ?_, ?_, ?_, ?_, ?_, ?_, ?_, ?_, ?_, ?_, ?_, ?_, ?_⟩
  · intro i j
    simp only
    (repeat' split) <;> rfl
  · intro i
    simp only
    (repeat' split) <;> rfl
  · rfl
  · simp [n0.symm, n1.symm, n2.symm]
  · simp [n0.symm, n1.symm, n2.symm]
  · simp [n0.symm, n1.symm, n2.symm]
  · rfl
  · rfl
  · rfl
  · exact (by decide : 0 < 6)
  · exact (by decide : 2 < 6)
  · exact (by decide : 4 < 6)
  · intro i j l hi hl
    simp only [hi, false_and, if_false] at hl
    split at hl
    · cases hl; decide
    split at hl
    · cases hl; decide
    split at hl
    · cases hl; decide
    · cases hl
  · intro i l hi hl
    simp only [hi, if_false] at hl
    cases hl
  · intro i j e j' hi hee ht
    obtain ⟨i', j'', e', h1, h2, h3, -⟩ := hw i j e hee
    rw [ht] at h1
    cases h1
    rw [hE] at h2
    rcases j' with _ | _ | _ | j'
    · cases h2; rw [t0] at h3; cases h3
      simp only [hi, false_and, if_false, and_self, if_true]
      (repeat' split) <;> rfl
    · cases h2; rw [t1] at h3; cases h3
      simp only [hi, false_and, if_false, and_self, if_true]
      (repeat' split) <;> rfl
    · cases h2; rw [t2] at h3; cases h3
      simp only [and_self, if_true]
      rfl
    · simp at h2

/-- the later query: the first face uses the values of the earlier station, one of them three times -/
theorem stale_second {m : Mem S} (hs : Stale p q0 q1 q2 l0 l1 l2 m) (h1 : l0 ≠ l1) (h2 : l0 ≠ l2) {f : Face S} {a b c : Edge S} (he : f.edges = [a, b, c])
    {obs : V3 S} {w : S × V3 S} (hom : omegaValue f obs false = .ok w) (ρ Gc : S) :
    ∃ m', NoD m' ∧ faceGravity 0 f obs ρ Gc false m =
      (.ok (faceField f.un (f.height obs) w.1 w.2 (((((q0.add q1).add q2).add ((q0.add q1).add q2)).add q1).add q2) M3.zeros ρ Gc false), m') := by
  have hk := (keeps_faceGravity 0 f obs ρ Gc m hs.nod).1
  refine ⟨(faceGravity 0 f obs ρ Gc false m).2, hk, ?_⟩
  refine Prod.ext ?_ rfl
  rw [face_steps hom, he]
  simp [faceEdges, bind, Act.bind, edgeCompute, Mem.setFace, hs.e0, hs.e1, hs.e2, hs.f0, hs.v0, hs.v1, hs.v2, h1.symm, h2.symm,
    Mem.setV, addPqr, addDpqr, Act.pure, faceFinish, hs.nod.1, hs.nod.2]

/-- a loop over edges that can be computed returns, whatever is cached, and the face has a value afterwards -/
theorem faceEdges_any {i : Nat} {obs : V3 S} (es : List (Edge S)) : ∀ {j : Nat} {m : Mem S}, NoD m →
    (∀ e ∈ es, e.twin.isSome = true ∧ ∃ v, edgeIntegral e obs false = .ok v) → (es ≠ [] ∨ (m.face i).pqr.isSome = true) →
    ∃ m', faceEdges i obs false j es m = (.ok (), m') ∧ NoD m' ∧ ∃ l, m'.face i = { (m.face i) with pqr := some l } := by
  induction es with
  | nil =>
    intro j m hm _ h
    rcases h with h | h
    · exact absurd rfl h
    · refine ⟨m, rfl, hm, ?_⟩
      obtain ⟨l, hl⟩ := Option.isSome_iff_exists.mp h
      exact ⟨l, by rw [← hl]⟩
  | cons e es ih =>
    intro j m hm he _
    obtain ⟨htw, v, hv⟩ := he e (by simp)
    have k1 := keeps_edgeCompute i j e obs m hm
    have ok1 : ∃ m1, edgeCompute i j e obs false m = (.ok (), m1) ∧ m1.face = m.face := by
      unfold edgeCompute
      rcases (m.edge i j).pqr with _ | l
      · simp only [hv]
        obtain ⟨⟨i', j'⟩, ht⟩ := Option.isSome_iff_exists.mp htw
        obtain ⟨q, d⟩ := v
        have hd : d = none := by simpa using edgeIntegral_opt hv
        subst hd
        simp only [setTwinPqr, ht]
        refine ⟨_, rfl, ?_⟩
        (repeat' split) <;> simp [Mem.newEdgePqr, Mem.newEdgeDpqr, Mem.setEdge, Mem.setV, Mem.setM]
      · exact ⟨m, rfl, rfl⟩
    obtain ⟨m1, e1, f1⟩ := ok1
    have c1 := edgeCompute_caches e1
    rw [e1] at k1
    obtain ⟨l', hl'⟩ := Option.isSome_iff_exists.mp c1
    have ok2 : ∃ m2 l, (addPqr i j : Act S Unit) m1 = (.ok (), m2) ∧ m2.face i = { (m.face i) with pqr := some l } ∧ NoD m2 := by
      have k2 := keeps_addPqr i j m1 k1.1
      unfold addPqr at k2 ⊢
      rw [hl'] at k2 ⊢
      rcases hp : (m1.face i).pqr with _ | l
      · rw [hp] at k2
        refine ⟨_, l', rfl, ?_, k2.1⟩
        simp [Mem.setFace, f1]
      · rw [hp] at k2
        refine ⟨_, l, rfl, ?_, k2.1⟩
        simp only [Mem.setV]
        rw [f1] at hp ⊢
        rw [← hp]
    obtain ⟨m2, l, e2, f2, n2⟩ := ok2
    have ok3 : (addDpqr i j : Act S Unit) m2 = (.ok (), m2.setFace i { (m2.face i) with dpqr := none }) := by
      unfold addDpqr
      rw [n2.1, n2.2]
    have n3 := keeps_setFace (i := i) (c := { (m2.face i) with dpqr := none }) n2 rfl
    obtain ⟨m4, e4, n4, l4, f4⟩ := ih (j := j + 1) n3.1 (fun e' he' => he e' (by simp [he'])) (.inr (by simp [Mem.setFace, f2]))
    refine ⟨m4, ?_, n4, l4, ?_⟩
    · unfold faceEdges
      rw [bind_ok' e1, bind_ok' e2, bind_ok' ok3, e4]
    · rw [f4]
      have := hm.2 i
      simp only [Mem.setFace, if_true, f2, this]

/-- a face whose edges can be computed gives an answer, whatever is cached: the formula with some value of the line integrals -/
theorem faceGravity_any {i : Nat} {f : Face S} {obs : V3 S} {w : S × V3 S} (hom : omegaValue f obs false = .ok w) (ρ Gc : S) {m : Mem S} (hm : NoD m)
    (he : ∀ e ∈ f.edges, e.twin.isSome = true ∧ ∃ v, edgeIntegral e obs false = .ok v) (hne : f.edges ≠ []) :
    ∃ P m', NoD m' ∧ faceGravity i f obs ρ Gc false m = (.ok (faceField f.un (f.height obs) w.1 w.2 P M3.zeros ρ Gc false), m') := by
  have hk := (keeps_faceGravity i f obs ρ Gc m hm).1
  have h1 := keeps_setFace (i := i) (c := { (m.face i) with dp1 := some (f.height obs), sign := some (npSign (f.height obs)), omega := some w.1, domega := some w.2 }) hm (hm.2 i)
  obtain ⟨m', e1, n1, l, f1⟩ := faceEdges_any f.edges (i := i) (obs := obs) (j := 0) h1.1 he (.inl hne)
  refine ⟨m'.va l, (faceGravity i f obs ρ Gc false m).2, hk, Prod.ext ?_ rfl⟩
  rw [face_steps hom, act_bind_ok e1]
  simp [faceFinish, f1, Mem.setFace]

end Geec
