import Verif.Lemmas.Reset
/-
Comparison of a run with `gradient=True` and a run with `gradient=False`.
-/
namespace Geec
open Arith
variable {S : Type} [Arith S]
set_option linter.unusedSectionVars false

/-- `m` is reached with gradient, `m'` without: same values except derivatives -/
structure GSim (m m' : Mem S) : Prop where
  vn : m'.vn = m.vn
  va : m'.va = m.va
  epqr : ∀ i j, (m'.edge i j).pqr = (m.edge i j).pqr
  edpqr : ∀ i j, (m'.edge i j).dpqr = none
  dp1 : ∀ i, (m'.face i).dp1 = (m.face i).dp1
  sign : ∀ i, (m'.face i).sign = (m.face i).sign
  omega : ∀ i, (m'.face i).omega = (m.face i).omega
  domega : ∀ i, (m'.face i).domega.isSome = (m.face i).domega.isSome
  pqr : ∀ i, (m'.face i).pqr = (m.face i).pqr
  dpqr : ∀ i, (m'.face i).dpqr = none

def GAct {α β : Type} (Q : α → β → Prop) (a : Act S α) (a' : Act S β) : Prop :=
  ∀ m m', GSim m m' → ∀ x, (a m).1 = .ok x →
    ∃ y, (a' m').1 = .ok y ∧ Q x y ∧ GSim (a m).2 (a' m').2

theorem gAct_bind {α β γ δ : Type} {Q : α → β → Prop} {Q' : γ → δ → Prop} {a : Act S α} {a' : Act S β}
    {f : α → Act S γ} {f' : β → Act S δ} (ha : GAct Q a a') (hf : ∀ x y, Q x y → GAct Q' (f x) (f' y)) :
    GAct Q' (Act.bind a f) (Act.bind a' f') := by
  intro m m' h x hx
  have h1 := ha m m' h
  unfold Act.bind at hx ⊢
  rcases hm : a m with ⟨r, m1⟩
  rcases hm' : a' m' with ⟨r', m1'⟩
  rw [hm] at hx h1
  rw [hm'] at h1
  cases r with
  | error e => cases hx
  | ok r =>
    obtain ⟨y, hy, hq, hg⟩ := h1 r rfl
    simp only at hy
    subst hy
    exact hf r y hq m1 m1' hg x hx

theorem lineIntegral_noGrad {cj : S} {Lj : V3 S} {lj : S} {Rj : V3 S} {rj b2 bj : S} {r : V3 S × Option (M3 S)}
    (h : lineIntegralAlongEdge cj Lj lj Rj rj b2 bj true = .ok r) :
    lineIntegralAlongEdge cj Lj lj Rj rj b2 bj false = .ok (r.1, none) := by
  unfold lineIntegralAlongEdge at h ⊢
  simp only at h ⊢
  split
  · rename_i hc
    rw [if_pos hc] at h
    rcases ht : numbaDiv (sqrt (lj *. lj +. bj +. rj *. rj) +. lj +. b2) cj with e | t
    · rw [ht] at h; cases h
    · rw [ht] at h
      cases h; rfl
  · rename_i hc
    rw [if_neg hc] at h
    rcases ht : numbaDiv (abs (lj -. rj)) rj with e | t
    · rw [ht] at h; cases h
    · rw [ht] at h
      rcases hq : numbaDiv (lj -. rj) (abs (lj -. rj)) with e | q
      · simp only [bind, Except.bind, if_true, hq] at h; cases h
      · simp only [bind, Except.bind, if_true, hq] at h; cases h; rfl

theorem lineIntegral_false {cj : S} {Lj : V3 S} {lj : S} {Rj : V3 S} {rj b2 bj : S} {r : V3 S × Option (M3 S)}
    (h : lineIntegralAlongEdge cj Lj lj Rj rj b2 bj false = .ok r) : r.2 = none := by
  unfold lineIntegralAlongEdge at h
  simp only at h
  split at h
  · rcases ht : numbaDiv (sqrt (lj *. lj +. bj +. rj *. rj) +. lj +. b2) cj with e | t
    · rw [ht] at h; cases h
    · rw [ht] at h
      cases h; rfl
  · rcases ht : numbaDiv (abs (lj -. rj)) rj with e | t
    · rw [ht] at h; cases h
    · rw [ht] at h; cases h; rfl

theorem edgeIntegral_noGrad {e : Edge S} {obs : V3 S} {r : V3 S × Option (M3 S)}
    (h : edgeIntegral e obs true = .ok r) : edgeIntegral e obs false = .ok (r.1, none) := by
  unfold edgeIntegral at h ⊢
  simp only at h ⊢
  revert h
  generalize hl : (lineIntegralAlongEdge _ _ _ _ _ _ _ true : Except PyErr (V3 S × Option (M3 S))) = l
  intro h
  rcases l with e | l
  · cases h
  · rw [lineIntegral_noGrad hl]
    cases h
    rfl

theorem gAct_setTwin (i j : Nat) (tw : Option (Nat × Nat)) :
    GAct (fun _ _ => True) (setTwinPqr i j tw : Act S Unit) (setTwinPqr i j tw) := by
  intro m m' h x hx
  rcases tw with _ | ⟨i', j'⟩
  · cases hx
  · refine ⟨(), rfl, trivial, ?_⟩
    have h1 : GSim
        (match (m.edge i j).pqr with | some l => m.newEdgePqr i' j' (m.va l).neg | none => m)
        (match (m'.edge i j).pqr with | some l => m'.newEdgePqr i' j' (m'.va l).neg | none => m') := by
      rw [h.epqr]
      rcases hp : (m.edge i j).pqr with _ | l
      · exact h
      · obtain ⟨vn, va, epqr, edpqr, dp1, sign, omega, domega, pqr, dpqr⟩ := h
        simp only
        constructor <;> (try simp only [Mem.newEdgePqr, Mem.setV, Mem.setEdge]) <;> try assumption
        · rw [vn]
        · rw [vn, va]
        · intro a b
          by_cases hh : a = i' ∧ b = j'
          · simp [hh, vn]
          · simp only [hh, if_false]; exact epqr a b
        · intro a b
          by_cases hh : a = i' ∧ b = j'
          · simp [hh, edpqr]
          · simp only [hh, if_false]; exact edpqr a b
    have key : ∀ n n' : Mem S, GSim n n' → GSim
        (match (n.edge i j).dpqr with | some l => n.newEdgeDpqr i' j' (some (n.ma l).neg) | none => n)
        (match (n'.edge i j).dpqr with | some l => n'.newEdgeDpqr i' j' (some (n'.ma l).neg) | none => n') := by
      intro n n' h
      rw [h.edpqr]
      rcases hp : (n.edge i j).dpqr with _ | l
      · exact h
      · obtain ⟨vn, va, epqr, edpqr, dp1, sign, omega, domega, pqr, dpqr⟩ := h
        simp only
        constructor <;> (try simp only [Mem.newEdgeDpqr, Mem.setM, Mem.setEdge]) <;> try assumption
        intro a b
        by_cases hh : a = i' ∧ b = j'
        · simp [hh, epqr]
        · simp only [hh, if_false]; exact epqr a b
    exact key _ _ h1

theorem gAct_edgeCompute (i j : Nat) (e : Edge S) (obs : V3 S) :
    GAct (fun _ _ => True) (edgeCompute i j e obs true) (edgeCompute i j e obs false) := by
  intro m m' h x
  unfold edgeCompute
  rw [h.epqr]
  rcases (m.edge i j).pqr with _ | l
  · simp only
    rcases he : edgeIntegral e obs true with err | r
    · intro hx; cases hx
    · rw [edgeIntegral_noGrad he]
      refine gAct_setTwin _ _ _ _ _ ?_ x
      obtain ⟨vn, va, epqr, edpqr, dp1, sign, omega, domega, pqr, dpqr⟩ := h
      have h2 : GSim (m.newEdgePqr i j r.1) ((m'.newEdgePqr i j r.1).newEdgeDpqr i j none) := by
        constructor <;> (try simp only [Mem.newEdgePqr, Mem.newEdgeDpqr, Mem.setV, Mem.setEdge]) <;> try assumption
        · rw [vn]
        · rw [vn, va]
        · intro a b
          by_cases hh : a = i ∧ b = j
          · simp [hh, vn]
          · simp only [hh, if_false]; exact epqr a b
        · intro a b
          by_cases hh : a = i ∧ b = j
          · simp [hh]
          · simp only [hh, if_false]; exact edpqr a b
      obtain ⟨vn, va, epqr, edpqr, dp1, sign, omega, domega, pqr, dpqr⟩ := h2
      revert vn va epqr edpqr dp1 sign omega domega pqr dpqr
      generalize (m'.newEdgePqr i j r.1).newEdgeDpqr i j none = n'
      generalize (m.newEdgePqr i j r.1) = n
      intro vn va epqr edpqr dp1 sign omega domega pqr dpqr
      rcases r.2 with _ | d
      · constructor <;> (try simp only [Mem.newEdgeDpqr, Mem.setEdge]) <;> try assumption
        intro a b
        by_cases hh : a = i ∧ b = j
        · simp [hh, epqr]
        · simp only [hh, if_false]; exact epqr a b
      · constructor <;> (try simp only [Mem.newEdgeDpqr, Mem.setM, Mem.setEdge]) <;> try assumption
        intro a b
        by_cases hh : a = i ∧ b = j
        · simp [hh, epqr]
        · simp only [hh, if_false]; exact epqr a b
  · intro _; exact ⟨(), rfl, trivial, h⟩

theorem GSim.setFace {m m' : Mem S} (h : GSim m m') (i : Nat) {c c' : FaceC S}
    (h1 : c'.dp1 = c.dp1) (h2 : c'.sign = c.sign) (h3 : c'.omega = c.omega)
    (h4 : c'.domega.isSome = c.domega.isSome) (h5 : c'.pqr = c.pqr) (h6 : c'.dpqr = none) :
    GSim (m.setFace i c) (m'.setFace i c') := by
  obtain ⟨vn, va, epqr, edpqr, dp1, sign, omega, domega, pqr, dpqr⟩ := h
  constructor <;> (try simp only [Mem.setFace]) <;> try assumption
  all_goals
    intro i'
    by_cases hh : i' = i
    · simp [*]
    · simp [*]

theorem gAct_addPqr (i j : Nat) : GAct (fun _ _ => True) (addPqr i j : Act S Unit) (addPqr i j) := by
  intro m m' h x
  unfold addPqr
  rw [h.epqr, h.pqr]
  rcases hf : (m.face i).pqr with _ | l
  · intro _
    exact ⟨(), rfl, trivial, h.setFace i (h.dp1 i) (h.sign i) (h.omega i) (h.domega i) rfl (h.dpqr i)⟩
  · rcases he : (m.edge i j).pqr with _ | l'
    · intro hx; cases hx
    · intro _
      refine ⟨(), rfl, trivial, ?_⟩
      obtain ⟨vn, va, epqr, edpqr, dp1, sign, omega, domega, pqr, dpqr⟩ := h
      constructor <;> (try simp only [Mem.setV]) <;> try assumption
      rw [va]

theorem gAct_addDpqr (i j : Nat) : GAct (fun _ _ => True) (addDpqr i j : Act S Unit) (addDpqr i j) := by
  intro m m' h x
  unfold addDpqr
  rw [h.edpqr, h.dpqr]
  intro hx
  refine ⟨(), rfl, trivial, ?_⟩
  have h' : GSim m (m'.setFace i { (m'.face i) with dpqr := none }) := by
    obtain ⟨vn, va, epqr, edpqr, dp1, sign, omega, domega, pqr, dpqr⟩ := h
    constructor <;> (try simp only [Mem.setFace]) <;> try assumption
    all_goals
      intro i'
      by_cases hh : i' = i
      · simp [*]
      · simp [*]
  revert h'
  simp only
  generalize m'.setFace i { (m'.face i) with dpqr := none } = n'
  intro h'
  revert hx
  rcases hf : (m.face i).dpqr with _ | l
  · intro _
    obtain ⟨vn, va, epqr, edpqr, dp1, sign, omega, domega, pqr, dpqr⟩ := h'
    constructor <;> (try simp only [Mem.setFace]) <;> try assumption
    all_goals
      intro i'
      by_cases hh : i' = i
      · simp [*]
      · simp [*]
  · rcases he : (m.edge i j).dpqr with _ | l'
    · intro hx; cases hx
    · intro _
      obtain ⟨vn, va, epqr, edpqr, dp1, sign, omega, domega, pqr, dpqr⟩ := h'
      constructor <;> (try simp only [Mem.setM]) <;> assumption

theorem gAct_faceEdges (i : Nat) (obs : V3 S) (es : List (Edge S)) : ∀ j,
    GAct (fun _ _ => True) (faceEdges i obs true j es) (faceEdges i obs false j es) := by
  induction es with
  | nil => intro j m m' h x _; exact ⟨(), rfl, trivial, h⟩
  | cons e es ih =>
    intro j
    refine gAct_bind (gAct_edgeCompute i j e obs) fun _ _ _ => ?_
    refine gAct_bind (gAct_addPqr i j) fun _ _ _ => ?_
    refine gAct_bind (gAct_addDpqr i j) fun _ _ _ => ?_
    exact ih _

/-- one step of the loop of `omegaKernel` -/
def omegaStep (points : List (V3 S)) (n : Nat) (dots : Nat → S) (cr : List (V3 S)) (nm : Nat → S)
    (unitv : List (V3 S)) (gradient : Bool) (acc : S × V3 S) (i : Nat) : Except PyErr (S × V3 S) :=
  match acc with
  | (w, dw) => do
    let inout := dots i
    let (A1, A2) := getA1A2 i inout n unitv
    let perp := getPerp i inout n points A1
    let b := dot A1 A2
    let angle ← getAngle inout b perp
    if gradient then
      let dangle ← getDangle i inout b perp A1 A2 n (fun k => crossDp (at3 points k)) cr nm unitv
      return (w +. angle, V3.add dw dangle)
    else
      return (w +. angle, dw)

theorem omegaStep_noGrad {points : List (V3 S)} {n : Nat} {dots : Nat → S} {cr : List (V3 S)} {nm : Nat → S}
    {unitv : List (V3 S)} {w : S} {dw dw' : V3 S} {i : Nat} {r : S × V3 S}
    (h : omegaStep points n dots cr nm unitv true (w, dw) i = .ok r) :
    omegaStep points n dots cr nm unitv false (w, dw') i = .ok (r.1, dw') := by
  unfold omegaStep at h ⊢
  simp only [bind, Except.bind] at h ⊢
  split at h
  · cases h
  · simp only [if_true] at h
    split at h
    · cases h
    · cases h; rfl

theorem omegaFold_noGrad {points : List (V3 S)} {n : Nat} {dots : Nat → S} {cr : List (V3 S)} {nm : Nat → S}
    {unitv : List (V3 S)} (l : List Nat) : ∀ {w : S} {dw dw' : V3 S} {r : S × V3 S},
    l.foldlM (omegaStep points n dots cr nm unitv true) (w, dw) = .ok r →
    l.foldlM (omegaStep points n dots cr nm unitv false) (w, dw') = .ok (r.1, dw') := by
  induction l with
  | nil => intro w dw dw' r h; cases h; rfl
  | cons i l ih =>
    intro w dw dw' r h
    rw [List.foldlM_cons] at h ⊢
    rcases hs : omegaStep points n dots cr nm unitv true (w, dw) i with e | ⟨w1, dw1⟩
    · rw [hs] at h; cases h
    · rw [hs] at h
      rw [omegaStep_noGrad hs]
      exact ih h

theorem omegaKernel_eq (pts : List (V3 S)) (un obs : V3 S) (sign : S) (gradient : Bool) :
    omegaKernel pts un obs sign gradient =
    (let n := pts.length
     let points := pts.map (fun p => p.sub obs)
     let dots := fun i => mdot un (at3 points i)
     let cr := (List.range n).map (fun i => cross (at3 points i) (at3 points ((i + 1) % n)))
     let nm := fun i => mnorm (at3 cr i)
     let unitv := (List.range n).map (fun i => (at3 cr i).sdiv (nm i))
     match (List.range n).foldlM (omegaStep points n dots cr nm unitv gradient) (zero, V3.zeros) with
     | .error e => .error e
     | .ok (w, dw) => .ok (Arith.neg sign *. (w -. Arith.ofNat (n - 2) *. pi), dw.smul (Arith.neg sign))) := by
  unfold omegaKernel omegaStep
  simp only [bind, Except.bind]
  split <;> rename_i h
  · simp only [h]
  · rename_i v; rcases v with ⟨w, dw⟩
    simp only [h]; rfl

theorem omegaKernel_noGrad {pts : List (V3 S)} {un obs : V3 S} {sign : S} {r : S × V3 S}
    (h : omegaKernel pts un obs sign true = .ok r) :
    ∃ dw, omegaKernel pts un obs sign false = .ok (r.1, dw) := by
  rw [omegaKernel_eq] at h ⊢
  simp only at h ⊢
  split at h
  · cases h
  · rename_i w dw hh
    rw [omegaFold_noGrad (dw' := V3.zeros) _ hh]
    cases h
    exact ⟨_, rfl⟩

theorem gAct_getOmega (i : Nat) (f : Face S) (obs : V3 S) :
    GAct (fun _ _ => True) (getOmega i f obs true) (getOmega i f obs false) := by
  intro m m' h x
  unfold getOmega
  rw [h.dp1, h.sign]
  rcases (m.face i).dp1 with _ | d
  · intro hx; cases hx
  rcases (m.face i).sign with _ | s
  · intro hx; cases hx
  have h1 : GSim
      (m.setFace i { (m.face i) with omega := some zero, domega := some V3.zeros })
      (m'.setFace i { (m'.face i) with omega := some zero, domega := some V3.zeros }) :=
    h.setFace i (h.dp1 i) (h.sign i) rfl rfl (h.pqr i) (h.dpqr i)
  simp only
  split
  · rcases ho : omegaKernel f.points f.un obs s true with err | ⟨w, dw⟩
    · intro hx; cases hx
    · obtain ⟨dw', hd⟩ := omegaKernel_noGrad ho
      rw [hd]
      intro _
      exact ⟨(), rfl, trivial, h1.setFace i (h1.dp1 i) (h1.sign i) rfl rfl (h1.pqr i) (h1.dpqr i)⟩
  · intro _; exact ⟨(), rfl, trivial, h1⟩

theorem gAct_faceFinish (i : Nat) (f : Face S) (density Gc : S) :
    GAct (fun x y => y.1 = x.1 ∧ y.2 = M3.zeros) (faceFinish i f density Gc true) (faceFinish i f density Gc false) := by
  intro m m' h x
  unfold faceFinish
  simp only [h.dp1, h.omega, h.pqr, h.va, h.dpqr]
  have hd := h.domega i
  rcases h1 : (m.face i).dp1 with _ | d
  · intro hx; cases hx
  rcases h2 : (m.face i).omega with _ | w
  · intro hx; cases hx
  rcases h3 : (m.face i).domega with _ | dw
  · intro hx; cases hx
  rcases h3' : (m'.face i).domega with _ | dw'
  · rw [h3, h3'] at hd; cases hd
  rcases h4 : (m.face i).pqr with _ | l
  · intro hx; cases hx
  rcases h5 : (m.face i).dpqr with _ | l'
  · intro hx; cases hx
  simp only
  intro hx
  cases hx
  refine ⟨_, rfl, ⟨rfl, rfl⟩, h.setFace i ?_ ?_ ?_ ?_ ?_ ?_⟩ <;>
    simp [h.sign]

theorem gAct_faceGravity (i : Nat) (f : Face S) (obs : V3 S) (density Gc : S) :
    GAct (fun x y => y.1 = x.1 ∧ y.2 = M3.zeros)
      (faceGravity i f obs density Gc true) (faceGravity i f obs density Gc false) := by
  unfold faceGravity
  refine gAct_bind (Q := fun _ _ => True) (a := getDotPoint1 i f obs) ?_ fun _ _ _ => ?_
  · intro m m' h x _
    exact ⟨(), rfl, trivial, h.setFace i rfl (h.sign i) (h.omega i) (h.domega i) (h.pqr i) (h.dpqr i)⟩
  refine gAct_bind (Q := fun _ _ => True) (a := getSign i) ?_ fun _ _ _ => ?_
  · intro m m' h x
    unfold getSign
    rw [h.dp1]
    rcases h1 : (m.face i).dp1 with _ | d
    · intro hx; cases hx
    · intro _
      exact ⟨(), rfl, trivial, h.setFace i (h.dp1 i) rfl (h.omega i) (h.domega i) (h.pqr i) (h.dpqr i)⟩
  refine gAct_bind (gAct_getOmega i f obs) fun _ _ _ => ?_
  refine gAct_bind (gAct_faceEdges i obs f.edges 0) fun _ _ _ => ?_
  exact gAct_faceFinish i f density Gc

theorem gAct_polyFaces (obs : V3 S) (density Gc : S) (fs : List (Face S)) : ∀ i G T T',
    GAct (fun x y => y.1 = x.1) (polyFaces obs density Gc true i fs G T)
      (polyFaces obs density Gc false i fs G T') := by
  induction fs with
  | nil => intro i G T T' m m' h x hx; cases hx; exact ⟨_, rfl, rfl, h⟩
  | cons f fs ih =>
    intro i G T T'
    refine gAct_bind (gAct_faceGravity i f obs density Gc) fun x y hxy => ?_
    rcases x with ⟨g, t⟩
    rcases y with ⟨g', t'⟩
    obtain ⟨h1, h2⟩ := hxy
    simp only at h1
    subst h1
    exact ih _ _ _ _

theorem gSim_fresh : GSim (Mem.fresh : Mem S) Mem.fresh := by constructor <;> intros <;> rfl

theorem getGravity_fst (p : Poly S) (obs : V3 S) (density Gc : S) (gr : Bool) (m : Mem S) :
    (getGravity p obs density Gc gr m).1 = (polyFaces obs density Gc gr 0 p.faces V3.zeros M3.zeros m).1 := by
  show (Act.bind _ _ m).1 = _
  unfold Act.bind
  rcases polyFaces obs density Gc gr 0 p.faces V3.zeros M3.zeros m with ⟨_ | r', m1⟩ <;> rfl

/-! ### shape of the tensor -/

def M3.Symm (t : M3 S) : Prop := t.transpose = t

/-- every value returned by `a` satisfies `Q` -/
def Post {α : Type} (Q : α → Prop) (a : Act S α) : Prop := ∀ m x, (a m).1 = .ok x → Q x

theorem post_bind {α β : Type} {Q : α → Prop} {Q' : β → Prop} {a : Act S α} {f : α → Act S β}
    (ha : Post Q a) (hf : ∀ x, Q x → Post Q' (f x)) : Post Q' (Act.bind a f) := by
  intro m x hx
  unfold Act.bind at hx
  rcases hm : a m with ⟨r | r, m1⟩
  · rw [hm] at hx; cases hx
  · rw [hm] at hx
    exact hf r (ha m r (by rw [hm])) m1 x hx

theorem post_true {α : Type} (a : Act S α) : Post (fun _ => True) a := fun _ _ _ => trivial

theorem faceFinish_val {i : Nat} {f : Face S} {density Gc : S} {gr : Bool} {m : Mem S} {x : V3 S × M3 S}
    (h : (faceFinish i f density Gc gr m).1 = .ok x) :
    ∃ dp1 w dw v d, x = faceField f.un dp1 w dw v d density Gc gr := by
  unfold faceFinish at h
  simp only at h
  split at h
  · split at h
    · cases h
    · cases h; exact ⟨_, _, _, _, _, rfl⟩
    · cases h; exact ⟨_, _, _, _, _, rfl⟩
  · cases h

theorem post_faceGravity {Q : V3 S × M3 S → Prop} {i : Nat} {f : Face S} {obs : V3 S} {density Gc : S} {gr : Bool}
    (h : ∀ dp1 w dw v d, Q (faceField f.un dp1 w dw v d density Gc gr)) :
    Post Q (faceGravity i f obs density Gc gr) := by
  unfold faceGravity
  refine post_bind (post_true _) fun _ _ => ?_
  refine post_bind (post_true _) fun _ _ => ?_
  refine post_bind (post_true _) fun _ _ => ?_
  refine post_bind (post_true _) fun _ _ => ?_
  intro m x hx
  obtain ⟨dp1, w, dw, v, d, rfl⟩ := faceFinish_val hx
  exact h _ _ _ _ _

/-- an invariant of the accumulated tensor -/
theorem post_polyFaces {Q : M3 S → Prop} {obs : V3 S} {density Gc : S} {gr : Bool}
    (h : ∀ un dp1 w dw v d, Q (faceField un dp1 w dw v d density Gc gr).2)
    (hadd : ∀ a b, Q a → Q b → Q (a.add b)) (fs : List (Face S)) : ∀ i G T, Q T →
    Post (fun x => Q x.2) (polyFaces obs density Gc gr i fs G T) := by
  induction fs with
  | nil => intro i G T hT m x hx; cases hx; exact hT
  | cons f fs ih =>
    intro i G T hT
    refine post_bind (post_faceGravity (Q := fun x => Q x.2) (fun _ _ _ _ _ => h _ _ _ _ _ _)) fun x hx => ?_
    rcases x with ⟨g, t⟩
    exact ih _ _ _ (hadd _ _ hT hx)

end Geec
