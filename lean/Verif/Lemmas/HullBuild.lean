import Verif.Lemmas.Closed
import Mathlib.Tactic.Tauto
/-
Structure of the faces made by `_get_faces` and of the twins found by `_get_edge_twin`, for any arithmetic.
-/
namespace Geec
open Arith
variable {S : Type} [Arith S]
set_option linter.unusedSectionVars false

/-- the oriented sides of a simplex -/
def cyc (s : Nat × Nat × Nat) : List (Nat × Nat) := [(s.1, s.2.1), (s.2.1, s.2.2), (s.2.2, s.1)]

/-- the face made for a simplex `s` (already in its final order) -/
def faceOf (pts : List (V3 S)) (s : Nat × Nat × Nat) (un : V3 S) (nb : List Nat) (tf : Nat × Nat → Nat) : Face S where
  points := [at3 pts s.1, at3 pts s.2.1, at3 pts s.2.2]
  simplex := [s.1, s.2.1, s.2.2]
  un := un
  neighbors := nb
  edges := (cyc s).map fun pr => mkEdge (at3 pts pr.1) (at3 pts pr.2) pr (tf pr)

/-- same corners -/
def SameCorners (s t : Nat × Nat × Nat) : Prop :=
  ∀ i, (i = s.1 ∨ i = s.2.1 ∨ i = s.2.2) ↔ (i = t.1 ∨ i = t.2.1 ∨ i = t.2.2)

theorem sameCorners_reverse (s : Nat × Nat × Nat) : SameCorners s (reverseTail s) := by
  intro i; simp only [reverseTail]; tauto

theorem containsPair_iff (s : Nat × Nat × Nat) (p : Nat × Nat) : containsPair s p = true ↔
    (p.1 = s.1 ∨ p.1 = s.2.1 ∨ p.1 = s.2.2) ∧ (p.2 = s.1 ∨ p.2 = s.2.1 ∨ p.2 = s.2.2) := by
  simp only [containsPair, Bool.and_eq_true, Bool.or_eq_true, decide_eq_true_eq, or_assoc]

theorem containsPair_congr {s t : Nat × Nat × Nat} (h : SameCorners s t) (p : Nat × Nat) :
    containsPair s p = containsPair t p := by
  rw [Bool.eq_iff_iff, containsPair_iff, containsPair_iff, h p.1, h p.2]

/-- the first neighbour with a property -/
def firstWith (nb : List Nat) (P : Nat → Bool) : Except PyErr Nat :=
  match nb.find? P with
  | some n => .ok n
  | none => .error .indexError

theorem getTwinface_eq (nb : List Nat) (f : Nat → Nat × Nat × Nat) (pr : Nat × Nat) :
    getTwinface nb (nb.map f) pr = firstWith nb (fun n => containsPair (f n) pr) := by
  unfold getTwinface firstWith
  have : ((nb.zip (nb.map f)).filter (fun ns => containsPair ns.2 pr)).head? =
      (nb.find? (fun n => containsPair (f n) pr)).map (fun n => (n, f n)) := by
    induction nb with
    | nil => rfl
    | cons n nb ih =>
      by_cases hc : containsPair (f n) pr = true
      · simp [hc]
      · simp only [List.map_cons, List.zip_cons_cons, List.filter_cons, hc, List.find?_cons]
        exact ih
  rw [this]
  rcases nb.find? (fun n => containsPair (f n) pr) <;> rfl

theorem mapM_ok_of {α β : Type} {l : List α} {f : α → Except PyErr β} {g : α → β} (h : ∀ a ∈ l, f a = .ok (g a)) :
    l.mapM f = .ok (l.map g) := by
  induction l with
  | nil => rfl
  | cons a l ih =>
    rw [List.mapM_cons, h a (by simp), ih (fun b hb => h b (by simp [hb]))]
    rfl

theorem getEdges_ok {pts : List (V3 S)} {s : Nat × Nat × Nat} {nb : List Nat} {f : Nat → Nat × Nat × Nat} {tf : Nat × Nat → Nat}
    (h : ∀ pr ∈ cyc s, firstWith nb (fun n => containsPair (f n) pr) = .ok (tf pr)) :
    getEdges pts s nb (nb.map f) = .ok ((cyc s).map fun pr => mkEdge (at3 pts pr.1) (at3 pts pr.2) pr (tf pr)) := by
  unfold getEdges
  apply mapM_ok_of
  intro pr hpr
  rw [getTwinface_eq, h pr hpr]
  rfl

/-- the faces of a hull whose simplices can all be oriented and whose sides all have a neighbour -/
theorem buildFaces_ok {pts : List (V3 S)} {inHull : V3 S → Bool} {c : V3 S} {sims0 : List (Nat × Nat × Nat)}
    {un : Nat → V3 S} {sm : Nat → Nat × Nat × Nat} {tf : Nat → Nat × Nat → Nat} (nbs0 : List (List Nat))
    (ho : ∀ k, k < nbs0.length → orient pts inHull c (sims0.getD k (0, 0, 0)) = .ok (un k, sm k))
    (hsc : ∀ k, k < nbs0.length → SameCorners (sims0.getD k (0, 0, 0)) (sm k))
    (ht : ∀ k nb, nbs0[k]? = some nb → ∀ pr ∈ cyc (sm k),
      firstWith nb (fun n => containsPair (sims0.getD n (0, 0, 0)) pr) = .ok (tf k pr)) :
    ∀ (nbs : List (List Nat)) (k : Nat) (sims : List (Nat × Nat × Nat)), k + nbs.length = nbs0.length →
      (∀ j, nbs[j]? = nbs0[k + j]?) → (∀ n, SameCorners (sims0.getD n (0, 0, 0)) (sims.getD n (0, 0, 0))) →
      (∀ n, k ≤ n → sims.getD n (0, 0, 0) = sims0.getD n (0, 0, 0)) →
      ∃ faces, buildFaces pts inHull c k nbs sims = .ok faces ∧ faces.length = nbs.length ∧
        ∀ j nb, nbs[j]? = some nb → faces[j]? = some (faceOf pts (sm (k + j)) (un (k + j)) nb (tf (k + j))) := by
  intro nbs
  induction nbs with
  | nil => intro k sims _ _ _ _; exact ⟨[], rfl, rfl, by simp⟩
  | cons nb nbs ih =>
    intro k sims hlen hj hsc' heq
    simp only [List.length_cons] at hlen
    have hk : k < nbs0.length := by omega
    have hnb : nbs0[k]? = some nb := by have := hj 0; simpa using this.symm
    have h1 : orient pts inHull c (sims.getD k (0, 0, 0)) = .ok (un k, sm k) := by rw [heq k (Nat.le_refl k)]; exact ho k hk
    have hset : ∀ n, (sims.set k (sm k)).getD n (0, 0, 0) = if n = k ∧ k < sims.length then sm k else sims.getD n (0, 0, 0) := by
      intro n
      simp only [List.getD_eq_getElem?_getD, List.getElem?_set]
      by_cases hn : k = n
      · subst hn
        by_cases hl : k < sims.length
        · simp [hl]
        · simp [hl]
      · have : ¬ n = k := fun h => hn h.symm
        simp [hn, this]
    have hsc2 : ∀ n, SameCorners (sims0.getD n (0, 0, 0)) ((sims.set k (sm k)).getD n (0, 0, 0)) := by
      intro n
      rw [hset]
      split
      · next hn => rw [hn.1]; exact hsc k hk
      · exact hsc' n
    have hedges : getEdges pts (sm k) nb (nb.map (fun n => (sims.set k (sm k)).getD n (0, 0, 0))) =
        .ok ((cyc (sm k)).map fun pr => mkEdge (at3 pts pr.1) (at3 pts pr.2) pr (tf k pr)) := by
      apply getEdges_ok
      intro pr hpr
      rw [← ht k nb hnb pr hpr]
      congr 1
      funext n
      exact (containsPair_congr (hsc2 n) pr).symm
    obtain ⟨faces, hf1, hf2, hf3⟩ := ih (k + 1) (sims.set k (sm k)) (by omega)
      (fun j => by have := hj (j + 1); rw [List.getElem?_cons_succ] at this; rw [this]; congr 1; omega) hsc2
      (fun n hn => by rw [hset, if_neg (by omega)]; exact heq n (by omega))
    refine ⟨faceOf pts (sm k) (un k) nb (tf k) :: faces, ?_, by simp [hf2], ?_⟩
    · unfold buildFaces
      rw [h1]
      simp only [bind, Except.bind]
      rw [hedges, hf1]
      rfl
    · intro j nb' hj'
      cases j with
      | zero => simp only [List.getElem?_cons_zero, Option.some.injEq] at hj' ⊢; rw [hj']; rfl
      | succ j =>
        rw [List.getElem?_cons_succ] at hj' ⊢
        rw [hf3 j nb' hj']
        have : k + 1 + j = k + (j + 1) := by omega
        rw [this]

/-- `τ` gives the true twin of every edge -/
structure TwinOf (faces : List (Face S)) (τ : Nat → Nat → Nat × Nat) : Prop where
  found : ∀ (i : Nat) f, faces[i]? = some f → ∀ (j : Nat) e, f.edges[j]? = some e →
    e.twinface = (τ i j).1 ∧ ∃ ft et, faces[(τ i j).1]? = some ft ∧ ft.edges[(τ i j).2]? = some et ∧
      findTwin ft.edges e = some (τ i j).2
  invol : ∀ (i : Nat) f, faces[i]? = some f → ∀ (j : Nat) e, f.edges[j]? = some e → τ (τ i j).1 (τ i j).2 = (i, j)

/-- partial progress: entries are right, and those in `D` are present -/
structure Progress (faces : List (Face S)) (τ : Nat → Nat → Nat × Nat) (D : Nat → Nat → Prop) (tw : TwinMap) : Prop where
  right : ∀ i j t, tw.get i j = some t → t = τ i j
  present : ∀ (i : Nat) f, faces[i]? = some f → ∀ (j : Nat) e, f.edges[j]? = some e → D i j → (tw.get i j).isSome

theorem twinStep_progress {faces : List (Face S)} {τ : Nat → Nat → Nat × Nat} (hτ : TwinOf faces τ)
    {D : Nat → Nat → Prop} {tw : TwinMap} (hp : Progress faces τ D tw) {i j : Nat} {f : Face S} {e : Edge S}
    (hf : faces[i]? = some f) (he : f.edges[j]? = some e) : Progress faces τ (Add D i j) (twinStep faces tw i j e) := by
  obtain ⟨h1, ft, et, h2, h3, h4⟩ := hτ.found i f hf j e he
  have hinv := hτ.invol i f hf j e he
  unfold twinStep
  rcases hg : tw.get i j with _ | t
  · simp only [h1, h2, h4]
    constructor
    · intro a b t ht
      simp only at ht
      split at ht
      · next hab => cases ht; rw [hab.1, hab.2, hinv]
      · split at ht
        · next hab => cases ht; rw [hab.1, hab.2]
        · exact hp.right a b t ht
    · intro a f' hf' b e' he' hD
      simp only
      split
      · rfl
      · split
        · rfl
        · next h5 h6 =>
          rcases hD with hD | hD
          · exact hp.present a f' hf' b e' he' hD
          · exact absurd hD h6
  · constructor
    · exact hp.right
    · intro a f' hf' b e' he' hD
      rcases hD with hD | ⟨rfl, rfl⟩
      · exact hp.present a f' hf' b e' he' hD
      · rw [hg]; rfl

theorem twinEdges_progress {faces : List (Face S)} {τ : Nat → Nat → Nat × Nat} (hτ : TwinOf faces τ) {i : Nat} {f : Face S}
    (hf : faces[i]? = some f) (es : List (Edge S)) : ∀ j tw, (∀ k, es[k]? = f.edges[j + k]?) →
    Progress faces τ (Upto i j) tw → Progress faces τ (Upto i (j + es.length)) (twinEdges faces i j es tw) := by
  induction es with
  | nil => intro j tw _ hp; exact hp
  | cons e es ih =>
    intro j tw hes hp
    have he : f.edges[j]? = some e := by have := hes 0; simpa using this.symm
    have h1 := twinStep_progress hτ hp hf he
    rw [add_upto] at h1
    have := ih (j + 1) _ (fun k => by have := hes (k + 1); rw [List.getElem?_cons_succ] at this; rw [this]; congr 1; omega) h1
    rw [List.length_cons, Nat.add_comm es.length 1, ← Nat.add_assoc]
    exact this

theorem twinFaces_progress {faces : List (Face S)} {τ : Nat → Nat → Nat × Nat} (hτ : TwinOf faces τ) (fs : List (Face S)) :
    ∀ i tw, (∀ k, fs[k]? = faces[i + k]?) → Progress faces τ (Upto i 0) tw →
    Progress faces τ (Upto (i + fs.length) 0) (twinFaces faces i fs tw) := by
  induction fs with
  | nil => intro i tw _ hp; exact hp
  | cons f fs ih =>
    intro i tw hfs hp
    have hf : faces[i]? = some f := by have := hfs 0; simpa using this.symm
    have h1 := twinEdges_progress hτ hf f.edges 0 tw (fun k => by rw [Nat.zero_add]) hp
    have h2 : Progress faces τ (Upto (i + 1) 0) (twinEdges faces i 0 f.edges tw) := by
      refine ⟨h1.right, fun a f' hf' b e' he' hD => h1.present a f' hf' b e' he' ?_⟩
      simp only [Upto] at hD ⊢
      by_cases ha : a = i
      · subst ha
        rw [hf] at hf'
        cases hf'
        have := (List.getElem?_eq_some_iff.mp he').1
        omega
      · omega
    have := ih (i + 1) _ (fun k => by have := hfs (k + 1); rw [List.getElem?_cons_succ] at this; rw [this]; congr 1; omega) h2
    rw [List.length_cons, Nat.add_comm fs.length 1, ← Nat.add_assoc]
    exact this

/-- `_get_edge_twin` finds the twin of every edge -/
theorem getEdgeTwin_ok {faces : List (Face S)} {τ : Nat → Nat → Nat × Nat} (hτ : TwinOf faces τ) (i : Nat) {f : Face S}
    (hf : faces[i]? = some f) :
    (getEdgeTwin faces)[i]? = some { f with edges := f.edges.mapIdx (fun j e => { e with twin := some (τ i j) }) } := by
  have h0 : Progress faces τ (Upto 0 0) ⟨fun _ _ => none⟩ := by
    refine ⟨fun i j t h => (by cases h), ?_⟩
    intro i f _ j e _ hD
    simp [Upto] at hD
  have h1 := twinFaces_progress hτ faces 0 _ (fun k => by rw [Nat.zero_add]) h0
  unfold getEdgeTwin
  simp only [List.getElem?_mapIdx, hf, Option.map_some, Option.some.injEq]
  congr 1
  apply List.ext_getElem?
  intro j
  simp only [List.getElem?_mapIdx]
  rcases he : f.edges[j]? with _ | e
  · rfl
  · simp only [Option.map_some, Option.some.injEq]
    have hD : Upto (0 + faces.length) 0 i j := by
      left
      have := (List.getElem?_eq_some_iff.mp hf).1
      omega
    obtain ⟨t, ht⟩ := Option.isSome_iff_exists.mp (h1.present i f hf j e he hD)
    rw [ht, h1.right i j t ht]

theorem getEdgeTwin_length (faces : List (Face S)) : (getEdgeTwin faces).length = faces.length := by
  simp [getEdgeTwin]

end Geec
