import Verif.Model.Heap
import Mathlib.Tactic.SplitIfs

import Mathlib.Order.Nat
/-
What the methods of a dataset do to the heap, in terms of what they do to values.
-/
namespace Geec
open Arith
variable {S : Type} [Arith S]

/-- nothing but the array `a` and the CRS object `k` is written -/
structure Frame (a k : Nat) (h h' : Heap S) : Prop where
  arr : ∀ b, b < h.next → b ≠ a → h'.arr b = h.arr b
  crs : ∀ j, j ≠ k → h'.crs j = h.crs j
  next : h.next ≤ h'.next

/-- `F` does on references what `f` does on values -/
def RefinesH (f : CrsFn S) (F : HeapFn S) : Prop := ∀ a k (h : Heap S), a < h.next →
  match f (h.arr a) (h.crs k) with
  | (.error e, c) => ∃ h', F a k h = (.error e, h') ∧ h'.crs k = c ∧ h'.arr a = h.arr a ∧ Frame a k h h'
  | (.ok x, c) => ∃ a' h', F a k h = (.ok a', h') ∧ h'.arr a' = x ∧ h'.crs k = c ∧ a' < h'.next ∧ (a' = a ∨ h.next ≤ a') ∧ Frame a k h h'

/-- the same for functions that never write into the array they are given -/
def RefinesNew (f : CrsFn S) (F : HeapFn S) : Prop := ∀ a k (h : Heap S), a < h.next →
  match f (h.arr a) (h.crs k) with
  | (.error e, c) => ∃ h', F a k h = (.error e, h') ∧ h'.crs k = c ∧ h'.arr a = h.arr a ∧ Frame a k h h'
  | (.ok x, c) => ∃ a' h', F a k h = (.ok a', h') ∧ h'.arr a' = x ∧ h'.crs k = c ∧ a' < h'.next ∧ h.next ≤ a' ∧ h'.arr a = h.arr a ∧ Frame a k h h'

omit [Arith S] in
theorem RefinesNew.refines {f : CrsFn S} {F : HeapFn S} (hr : RefinesNew f F) : RefinesH f F := by
  intro a k h ha
  have := hr a k h ha
  rcases hf : f (h.arr a) (h.crs k) with ⟨e | x, c⟩
  · rw [hf] at this; exact this
  · rw [hf] at this
    obtain ⟨a', h', h1, h2, h3, h4, h5, -, h6⟩ := this
    exact ⟨a', h', h1, h2, h3, h4, .inr h5, h6⟩

omit [Arith S] in
theorem Frame.refl (a k : Nat) (h : Heap S) : Frame a k h h := ⟨fun _ _ _ => rfl, fun _ _ => rfl, le_rfl⟩

theorem refines_id : RefinesH (S := S) crsId idH := by
  intro a k h ha
  exact ⟨a, h, rfl, rfl, rfl, ha, .inl rfl, Frame.refl a k h⟩

theorem refines_wrap : RefinesH (S := S) (fun c crs => (.ok (wrap180 c), crs)) wrap180H := by
  intro a k h ha
  refine ⟨a, _, rfl, ?_, rfl, ha, .inl rfl, ⟨?_, fun _ _ => rfl, le_rfl⟩⟩
  · simp [Heap.setArr]
  · intro b _ hb; simp [Heap.setArr, hb]

theorem refines_height (g : Geodesy S) : RefinesH (ellipsoidHeight g) (ellipsoidHeightH g) := by
  intro a k h ha
  unfold ellipsoidHeight ellipsoidHeightH
  rcases latLonErrs g (h.arr a).rows with _ | e
  · dsimp only
    split_ifs with hi
    · exact ⟨h, rfl, rfl, rfl, Frame.refl a k h⟩
    · refine ⟨a, _, rfl, ?_, ?_, ha, .inl rfl, ⟨?_, ?_, le_rfl⟩⟩
      · simp [Heap.setArr, Heap.setCrs]
      · simp [Heap.setArr, Heap.setCrs]
      · intro b _ hb; simp [Heap.setArr, Heap.setCrs, hb]
      · intro j hj; simp [Heap.setArr, Heap.setCrs, hj]
  · exact ⟨h, rfl, rfl, rfl, Frame.refl a k h⟩

/-- value version of `convertH` -/
def convertV (f : Crs S → V3 S → Except PyErr (V3 S)) (upd : Crs S → Crs S) : CrsFn S := fun c crs =>
  match mapRows (f crs) c with
  | .error e => (.error e, crs)
  | .ok c' => (.ok c', upd crs)

theorem refines_convert (f : Crs S → V3 S → Except PyErr (V3 S)) (upd : Crs S → Crs S) : RefinesNew (convertV f upd) (convertH f upd) := by
  intro a k h ha
  unfold convertV convertH
  rcases mapRows (f (h.crs k)) (h.arr a) with e | c
  · exact ⟨h, rfl, rfl, rfl, Frame.refl a k h⟩
  · refine ⟨_, _, rfl, ?_, ?_, ?_, ?_, ?_, ⟨?_, ?_, ?_⟩⟩
    · simp [Heap.alloc, Heap.setCrs]
    · simp [Heap.alloc, Heap.setCrs]
    · simp [Heap.alloc, Heap.setCrs]
    · simp [Heap.alloc]
    · simp [Heap.alloc, Heap.setCrs, ha.ne]
    · intro b hb _; simp [Heap.alloc, Heap.setCrs, hb.ne]
    · intro j hj; simp [Heap.alloc, Heap.setCrs, hj]
    · simp [Heap.alloc, Heap.setCrs]

theorem refines_ellpsToEcef (g : Geodesy S) : RefinesNew (ellpsToEcef g) (ellpsToEcefH g) := refines_convert _ _

theorem refines_ecefToWgs84 (g : Geodesy S) : RefinesNew (ecefToWgs84 g) (ecefToWgs84H g) := refines_convert _ _

theorem refines_ecefToEnu (g : Geodesy S) (lon0 lat0 alt0 : S) : RefinesNew (ecefToEnu g lon0 lat0 alt0) (ecefToEnuH g lon0 lat0 alt0) := refines_convert _ _

theorem refines_wgs84ToEnu (g : Geodesy S) (lon0 lat0 alt0 : S) : RefinesNew (wgs84ToEnu g lon0 lat0 alt0) (wgs84ToEnuH g lon0 lat0 alt0) := refines_convert _ _

theorem refines_enuToEcef (g : Geodesy S) : RefinesNew (enuToEcef g) (enuToEcefH g) := by
  intro a k h ha
  unfold enuToEcef enuToEcefH
  rcases (h.crs k).enu with _ | e
  · exact ⟨h, rfl, rfl, rfl, Frame.refl a k h⟩
  · exact refines_convert (fun crs => g.enu2ecef crs.ellps e.lat0 e.lon0 e.alt0) (fun crs => { crs with name := .ECEF, ellps := none, enu := none }) a k h ha

omit [Arith S] in
theorem RefinesNew.then {f₁ f₂ : CrsFn S} {F₁ F₂ : HeapFn S} (h₁ : RefinesNew f₁ F₁) (h₂ : RefinesNew f₂ F₂) : RefinesNew (f₁.then f₂) (F₁.then F₂) := by
  intro a k h ha
  have k1 := h₁ a k h ha
  unfold CrsFn.then HeapFn.then
  rcases e1 : f₁ (h.arr a) (h.crs k) with ⟨e | x, c⟩
  · rw [e1] at k1
    obtain ⟨h', q1, q2, q3, q4⟩ := k1
    rw [q1]
    exact ⟨h', rfl, q2, q3, q4⟩
  · rw [e1] at k1
    obtain ⟨a', h', q1, q2, q3, q4, q5, q6, q7⟩ := k1
    rw [q1]
    have k2 := h₂ a' k h' q4
    rw [q2, q3] at k2
    have hne : a ≠ a' := by omega
    have hlt : a < h'.next := by have := q7.next; omega
    dsimp only
    rcases e2 : f₂ x c with ⟨e | y, d⟩
    · rw [e2] at k2
      obtain ⟨h'', r1, r2, r3, r4⟩ := k2
      refine ⟨h'', r1, r2, (r4.arr a hlt hne).trans q6, ⟨?_, fun j hj => (r4.crs j hj).trans (q7.crs j hj), q7.next.trans r4.next⟩⟩
      intro b hb hba
      exact (r4.arr b (by have := q7.next; omega) (by omega)).trans (q7.arr b hb hba)
    · rw [e2] at k2
      obtain ⟨a'', h'', r1, r2, r3, r4, r5, r6, r7⟩ := k2
      refine ⟨a'', h'', r1, r2, r3, r4, by have := q7.next; omega, (r7.arr a hlt hne).trans q6, ⟨?_, fun j hj => (r7.crs j hj).trans (q7.crs j hj), q7.next.trans r7.next⟩⟩
      intro b hb hba
      exact (r7.arr b (by have := q7.next; omega) (by omega)).trans (q7.arr b hb hba)

theorem refines_ellpsToWgs84 (g : Geodesy S) : RefinesH (ellpsToWgs84 g) (ellpsToWgs84H g) := by
  intro a k h ha
  unfold ellpsToWgs84 ellpsToWgs84H
  split_ifs with hi
  · exact ⟨a, h, rfl, rfl, rfl, ha, .inl rfl, Frame.refl a k h⟩
  · exact ((refines_ellpsToEcef g).then (refines_ecefToWgs84 g)).refines a k h ha

/-- every method is one transformation, chosen by the name of the CRS -/
theorem op_refines (g : Geodesy S) (op : Op S) (d : Dataset S) :
    ∃ f, op.run g d = d.apply f ∧ RefinesH f (op.fn g d.crs.name) := by
  rcases d with ⟨c, ⟨name, l, e, v⟩⟩
  cases op with
  | lon180 =>
    cases name
    · exact ⟨_, rfl, refines_id⟩
    · exact ⟨_, rfl, refines_wrap⟩
    · exact ⟨_, rfl, refines_wrap⟩
    · exact ⟨_, rfl, refines_id⟩
  | height =>
    cases name
    · exact ⟨_, rfl, refines_id⟩
    · exact ⟨_, rfl, refines_height g⟩
    · exact ⟨_, rfl, refines_height g⟩
    · exact ⟨_, rfl, refines_id⟩
  | ecef =>
    cases name
    · exact ⟨_, rfl, refines_id⟩
    · exact ⟨_, rfl, (refines_ellpsToEcef g).refines⟩
    · exact ⟨_, rfl, (refines_enuToEcef g).refines⟩
    · exact ⟨_, rfl, refines_id⟩
  | wgs84 =>
    cases name
    · exact ⟨_, rfl, refines_id⟩
    · exact ⟨_, rfl, refines_ellpsToWgs84 g⟩
    · exact ⟨_, rfl, ((refines_enuToEcef g).then (refines_ecefToWgs84 g)).refines⟩
    · exact ⟨_, rfl, (refines_ecefToWgs84 g).refines⟩
  | enu lon0 lat0 alt0 =>
    cases name
    · exact ⟨_, rfl, refines_id⟩
    · exact ⟨_, rfl, (refines_wgs84ToEnu g lon0 lat0 alt0).refines⟩
    · exact ⟨_, rfl, refines_id⟩
    · exact ⟨_, rfl, (refines_ecefToEnu g lon0 lat0 alt0).refines⟩

/-- all arrays exist -/
def DsWorld.Valid (w : DsWorld S) : Prop := ∀ n, n < w.size → (w.obj n).arr < w.heap.next

/-- what one call does: the dataset it is called on changes as the value model says; nothing but its array and its CRS object is written -/
theorem call_spec (g : Geodesy S) {w : DsWorld S} (hw : w.Valid) {n : Nat} (hn : n < w.size) (op : Op S) :
    (w.call g n op).1 = (op.run g (w.value n)).1 ∧ (w.call g n op).2.value n = (op.run g (w.value n)).2 ∧
    (w.call g n op).2.Valid ∧ (w.call g n op).2.size = w.size ∧ (∀ m, m ≠ n → (w.call g n op).2.obj m = w.obj m) ∧ ((w.call g n op).2.obj n).crs = (w.obj n).crs ∧
    (((w.call g n op).2.obj n).arr = (w.obj n).arr ∨ w.heap.next ≤ ((w.call g n op).2.obj n).arr) ∧
    Frame (w.obj n).arr (w.obj n).crs w.heap (w.call g n op).2.heap := by
  obtain ⟨f, h1, h2⟩ := op_refines g op (w.value n)
  have h3 := h2 (w.obj n).arr (w.obj n).crs w.heap (hw n hn)
  rw [h1]
  unfold Dataset.apply DsWorld.call
  unfold DsWorld.value at h3 h2 ⊢
  dsimp only at h3 h2 ⊢
  rcases e1 : f (w.heap.arr (w.obj n).arr) (w.heap.crs (w.obj n).crs) with ⟨e | x, c⟩
  · rw [e1] at h3
    obtain ⟨h', q1, q2, q3, q4⟩ := h3
    rw [q1]
    dsimp only
    refine ⟨rfl, ?_, fun m hm => (hw m hm).trans_le q4.next, rfl, fun _ _ => rfl, by trivial, .inl rfl, q4⟩
    rw [q2, q3]
  · rw [e1] at h3
    obtain ⟨a', h', q1, q2, q3, q4, q5, q6⟩ := h3
    rw [q1]
    dsimp only
    refine ⟨rfl, ?_, ?_, rfl, fun m hm => if_neg hm, by simp, by simpa using q5, q6⟩
    · simp [q2, q3]
    · intro m hm'
      show (if m = n then _ else _ : DsObj).arr < _
      split_ifs with hm
      · exact q4
      · exact (hw m hm').trans_le q6.next

end Geec
