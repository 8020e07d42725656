import Verif.Lemmas.Heap
import Mathlib.Tactic.NormNum
import Mathlib.Tactic.IntervalCases
/-
C77-C80: datasets, masses and observers as objects that can share arrays and CRS objects.
-/
namespace Geec
open Arith
variable {S : Type} [Arith S]

/-- no two datasets share an array or a CRS object -/
structure DsWorld.Separate (w : DsWorld S) : Prop where
  valid : w.Valid
  arr : ∀ m n, m < w.size → n < w.size → m ≠ n → (w.obj m).arr ≠ (w.obj n).arr
  crs : ∀ m n, m < w.size → n < w.size → m ≠ n → (w.obj m).crs ≠ (w.obj n).crs

/-- a call on one dataset, with nothing shared -/
theorem call_separate (g : Geodesy S) {w : DsWorld S} (hw : w.Separate) {n : Nat} (hn : n < w.size) (op : Op S) :
    (w.call g n op).2.Separate ∧ (w.call g n op).2.size = w.size ∧ ∀ m, m < w.size → m ≠ n → (w.call g n op).2.value m = w.value m := by
  obtain ⟨-, -, h3, hs, h4, h5, h6, h7⟩ := call_spec g hw.valid hn op
  refine ⟨⟨h3, ?_, ?_⟩, hs, ?_⟩
  · rw [hs]
    have key : ∀ m, m < w.size → m ≠ n → (w.obj m).arr ≠ ((w.call g n op).2.obj n).arr := by
      intro m hm' hm
      rcases h6 with h6 | h6
      · rw [h6]; exact hw.arr m n hm' hn hm
      · have := hw.valid m hm'; omega
    intro m k hm' hk' hmk
    by_cases hm : m = n
    · subst hm
      rw [h4 k (Ne.symm hmk)]
      exact (key k hk' (Ne.symm hmk)).symm
    · rw [h4 m hm]
      by_cases hk : k = n
      · subst hk; exact key m hm' hm
      · rw [h4 k hk]; exact hw.arr m k hm' hk' hmk
  · rw [hs]
    have key : ∀ m, ((w.call g n op).2.obj m).crs = (w.obj m).crs := by
      intro m
      by_cases hm : m = n
      · subst hm; exact h5
      · rw [h4 m hm]
    intro m k hm' hk' hmk
    rw [key, key]; exact hw.crs m k hm' hk' hmk
  · intro m hm' hm
    unfold DsWorld.value
    rw [h4 m hm, h7.arr _ (hw.valid m hm') (hw.arr m n hm' hn hm), h7.crs _ (hw.crs m n hm' hn hm)]

/-- **C77** (the part that holds) Datasets that share neither array nor CRS object are independent: after any program of method calls on any datasets, in
any order and with exceptions caught, each dataset is what its own calls make of it. -/
theorem C77_partial (g : Geodesy S) (prog : List (Nat × Op S)) : ∀ {w : DsWorld S}, w.Separate → (∀ c ∈ prog, c.1 < w.size) → ∀ n, n < w.size →
    (DsWorld.runAll g prog w).value n = (prog.filter (fun c => c.1 = n)).foldl (fun d c => (c.2.run g d).2) (w.value n) := by
  induction prog with
  | nil => intro w _ _ n _; rfl
  | cons c prog ih =>
    intro w hw hp n hn'
    obtain ⟨k, op⟩ := c
    have hk : k < w.size := hp (k, op) (by simp)
    obtain ⟨h1, hs, h2⟩ := call_separate g hw hk op
    show (DsWorld.runAll g prog (w.call g k op).2).value n = _
    rw [ih h1 (fun c hc => by rw [hs]; exact hp c (by simp [hc])) n (by rw [hs]; exact hn')]
    by_cases hn : k = n
    · subst hn
      rw [List.filter_cons_of_pos (by simp), List.foldl_cons, (call_spec g hw.valid hk op).2.1]
    · rw [List.filter_cons_of_neg (by simpa using hn), h2 n hn' (Ne.symm hn)]

omit [Arith S] in
theorem convertH_array (f : Crs S → V3 S → Except PyErr (V3 S)) (upd : Crs S → Crs S) (a k b : Nat) (h : Heap S)
    (hb : b < h.next) : (convertH f upd a k h).2.arr b = h.arr b ∧ h.next ≤ (convertH f upd a k h).2.next := by
  unfold convertH
  split
  · exact ⟨rfl, le_rfl⟩
  · simp [Heap.alloc, Heap.setCrs, Nat.ne_of_lt hb]

omit [Arith S] in
theorem then_array {F₁ F₂ : HeapFn S} (h1 : ∀ a k b (h : Heap S), b < h.next → (F₁ a k h).2.arr b = h.arr b ∧ h.next ≤ (F₁ a k h).2.next)
    (h2 : ∀ a k b (h : Heap S), b < h.next → (F₂ a k h).2.arr b = h.arr b ∧ h.next ≤ (F₂ a k h).2.next) (a k b : Nat) (h : Heap S)
    (hb : b < h.next) : (F₁.then F₂ a k h).2.arr b = h.arr b ∧ h.next ≤ (F₁.then F₂ a k h).2.next := by
  have h3 := h1 a k b h hb
  unfold HeapFn.then
  rcases hf : F₁ a k h with ⟨e | a', h'⟩
  · rw [hf] at h3
    exact h3
  · rw [hf] at h3
    have h4 := h2 a' k b h' (lt_of_lt_of_le hb h3.2)
    exact ⟨h4.1.trans h3.1, h3.2.trans h4.2⟩

omit [Arith S] in
theorem enuToEcefH_array (g : Geodesy S) (a k b : Nat) (h : Heap S) (hb : b < h.next) :
    (enuToEcefH g a k h).2.arr b = h.arr b ∧ h.next ≤ (enuToEcefH g a k h).2.next := by
  unfold enuToEcefH
  split
  · exact ⟨rfl, le_rfl⟩
  · exact convertH_array _ _ a k b h hb

/-- the methods that change the coordinate system write no existing array -/
theorem fn_array (g : Geodesy S) (op : Op S) (h1 : op ≠ .lon180) (h2 : op ≠ .height) (nm : CRSName) (a k b : Nat) (h : Heap S)
    (hb : b < h.next) : (op.fn g nm a k h).2.arr b = h.arr b := by
  cases op with
  | lon180 => exact absurd rfl h1
  | height => exact absurd rfl h2
  | ecef =>
    cases nm
    · rfl
    · exact (convertH_array _ _ a k b h hb).1
    · exact (enuToEcefH_array g a k b h hb).1
    · rfl
  | wgs84 =>
    cases nm
    · rfl
    · show (ellpsToWgs84H g a k h).2.arr b = _
      unfold ellpsToWgs84H
      split
      · rfl
      · exact (then_array (convertH_array _ _) (convertH_array _ _) a k b h hb).1
    · exact (then_array (enuToEcefH_array g) (convertH_array _ _) a k b h hb).1
    · exact (convertH_array _ _ a k b h hb).1
  | enu lon0 lat0 alt0 =>
    cases nm
    · rfl
    · exact (convertH_array _ _ a k b h hb).1
    · rfl
    · exact (convertH_array _ _ a k b h hb).1

/-- `to_lon180` and `to_ellipsoid_height` keep the array of the dataset and write into it -/
theorem call_in_place (g : Geodesy S) (w : DsWorld S) (n : Nat) (op : Op S) (h : op = .lon180 ∨ op = .height) :
    ((w.call g n op).2.obj n).arr = (w.obj n).arr := by
  unfold DsWorld.call
  have key : ∀ nm, (∃ e h', op.fn g nm (w.obj n).arr (w.obj n).crs w.heap = (.error e, h')) ∨
      ∃ h', op.fn g nm (w.obj n).arr (w.obj n).crs w.heap = (.ok (w.obj n).arr, h') := by
    intro nm
    rcases h with rfl | rfl
    · cases nm <;> exact .inr ⟨_, rfl⟩
    · have hh : (∃ e h', ellipsoidHeightH g (w.obj n).arr (w.obj n).crs w.heap = (.error e, h')) ∨
          ∃ h', ellipsoidHeightH g (w.obj n).arr (w.obj n).crs w.heap = (.ok (w.obj n).arr, h') := by
        unfold ellipsoidHeightH
        split
        · exact .inl ⟨_, _, rfl⟩
        · split_ifs
          · exact .inl ⟨_, _, rfl⟩
          · exact .inr ⟨_, rfl⟩
      cases nm
      · exact .inr ⟨_, rfl⟩
      · exact hh
      · exact hh
      · exact .inr ⟨_, rfl⟩
  rcases key (w.heap.crs (w.obj n).crs).name with ⟨e, h', hk⟩ | ⟨h', hk⟩
  · simp [hk]
  · simp [hk]

/-- **C77, exactly.** A method call on one dataset leaves another one as it was if and only if: where they share the CRS
object, the call does not change the CRS of its own dataset; and where they share the array, the call is not a
`to_lon180` or `to_ellipsoid_height` that changes the coordinates of its own dataset. -/
theorem C77_exact (g : Geodesy S) {w : DsWorld S} (hw : w.Valid) {m n : Nat} (hm : m < w.size) (hn : n < w.size) (hmn : m ≠ n) (op : Op S) :
    (w.call g n op).2.value m = w.value m ↔
      ((w.obj m).crs = (w.obj n).crs → (op.run g (w.value n)).2.crs = (w.value n).crs) ∧
      ((w.obj m).arr = (w.obj n).arr → op = .lon180 ∨ op = .height → (op.run g (w.value n)).2.coords = (w.value n).coords) := by
  obtain ⟨h1, h2, h3, hs, h4, h5, h6, h7⟩ := call_spec g hw hn op
  have hc : (w.call g n op).2.heap.crs (w.obj n).crs = (op.run g (w.value n)).2.crs := by
    rw [← h2]; unfold DsWorld.value; dsimp only; rw [h5]
  have hcrs : ((w.call g n op).2.value m).crs = (w.value m).crs ↔
      ((w.obj m).crs = (w.obj n).crs → (op.run g (w.value n)).2.crs = (w.value n).crs) := by
    show (w.call g n op).2.heap.crs ((w.call g n op).2.obj m).crs = w.heap.crs (w.obj m).crs ↔ _
    rw [h4 m hmn]
    by_cases h : (w.obj m).crs = (w.obj n).crs
    · rw [h, hc]; simp [DsWorld.value]
    · simp [h, h7.crs _ h]
  have harr : ((w.call g n op).2.value m).coords = (w.value m).coords ↔
      ((w.obj m).arr = (w.obj n).arr → op = .lon180 ∨ op = .height → (op.run g (w.value n)).2.coords = (w.value n).coords) := by
    show (w.call g n op).2.heap.arr ((w.call g n op).2.obj m).arr = w.heap.arr (w.obj m).arr ↔ _
    rw [h4 m hmn]
    by_cases h : (w.obj m).arr = (w.obj n).arr
    · rw [h]
      by_cases ho : op = .lon180 ∨ op = .height
      · have : (w.call g n op).2.heap.arr (w.obj n).arr = (op.run g (w.value n)).2.coords := by
          rw [← h2]; unfold DsWorld.value; dsimp only; rw [call_in_place g w n op ho]
        rw [this]
        simp only [ho, forall_const]
        rfl
      · have : (w.call g n op).2.heap.arr (w.obj n).arr = w.heap.arr (w.obj n).arr := by
          have h8 := fn_array g op (fun h => ho (.inl h)) (fun h => ho (.inr h)) (w.heap.crs (w.obj n).crs).name (w.obj n).arr
            (w.obj n).crs (w.obj n).arr w.heap (hw n hn)
          unfold DsWorld.call
          dsimp only
          revert h8
          rcases op.fn g (w.heap.crs (w.obj n).crs).name (w.obj n).arr (w.obj n).crs w.heap with ⟨e | x, h'⟩
          · exact id
          · exact id
        simp [this, ho]
    · simp [h, h7.arr _ (hw m hm) h]
  rw [← hcrs, ← harr]
  constructor
  · intro h; rw [h]; exact ⟨rfl, rfl⟩
  · rintro ⟨ha, hb⟩
    cases hx : (w.call g n op).2.value m
    cases hy : w.value m
    rw [hx, hy] at ha hb
    simp_all

/-- **C77** A shared CRS object: two datasets in geographic coordinates with arrays of their own, but one CRS object.  When the first is converted to ECEF, the
second is declared ECEF too while it still holds longitudes and latitudes, and its own `to_ecef` does not convert it any more. -/
theorem C77_shared_crs (g : Geodesy S) {w : DsWorld S} (hw : w.Valid) {m n : Nat} (hm : m < w.size) (hn : n < w.size) (hmn : m ≠ n) (ha : (w.obj m).arr ≠ (w.obj n).arr)
    (hc : (w.obj m).crs = (w.obj n).crs) (hname : (w.value n).crs.name = .ELLPS) (hok : (w.call g n .ecef).1 = .ok ()) :
    ((w.call g n .ecef).2.value m).crs.name = .ECEF ∧ ((w.call g n .ecef).2.value m).coords = (w.value m).coords ∧
    ((w.call g n .ecef).2.call g m .ecef).1 = .ok () ∧ (((w.call g n .ecef).2.call g m .ecef).2.value m).coords = (w.value m).coords := by
  obtain ⟨h1, h2, h3, hs, h4, h5, h6, h7⟩ := call_spec g hw hn .ecef
  have hcrs : ((w.call g n .ecef).2.value m).crs = ((w.call g n .ecef).2.value n).crs := by
    unfold DsWorld.value; dsimp only; rw [h5, h4 m hmn, hc]
  have hname' : ((w.call g n .ecef).2.value m).crs.name = .ECEF := by
    rw [hcrs, h2]
    rw [h1] at hok
    generalize w.value n = d at hname hok
    rcases d with ⟨c, ⟨nm, l, e, v⟩⟩
    dsimp only at hname
    subst hname
    simp only [Op.run, Dataset.toEcef, Dataset.apply, ellpsToEcef] at hok ⊢
    revert hok
    rcases mapRows (g.geodetic2ecef l) c with x | x
    · intro h; cases h
    · intro _; rfl
  have hco : ((w.call g n .ecef).2.value m).coords = (w.value m).coords := by
    unfold DsWorld.value; dsimp only
    rw [h4 m hmn, h7.arr _ (hw m hm) ha]
  obtain ⟨k1, k2, -⟩ := call_spec g h3 (hs.symm ▸ hm) .ecef
  have hid : Op.run g .ecef ((w.call g n .ecef).2.value m) = (.ok (), (w.call g n .ecef).2.value m) := by
    generalize (w.call g n .ecef).2.value m = d at hname'
    rcases d with ⟨c, ⟨nm, l, e, v⟩⟩
    dsimp only at hname'
    subst hname'
    rfl
  rw [hid] at k1 k2
  exact ⟨hname', hco, k1, by rw [k2]; exact hco⟩

/-- **C77** A shared array: two datasets with CRS objects of their own (both above the geoid `v`) on one array.  After `to_ellipsoid_height` on each, the geoid
height has been added twice. -/
theorem C77_shared_array (g : Geodesy S) {w : DsWorld S} (hw : w.Valid) {m n : Nat} (hm : m < w.size) (hn : n < w.size) (hmn : m ≠ n) (ha : (w.obj m).arr = (w.obj n).arr)
    (hc : (w.obj m).crs ≠ (w.obj n).crs) (h1 : (w.value n).crs.name = .ELLPS) (h2 : (w.value m).crs.name = .ELLPS) {v : VDatum}
    (v1 : (w.value n).crs.vdatum = v) (v2 : (w.value m).crs.vdatum = v) (hf : (w.value n).coords.intDtype = false)
    (hg : latLonErrs g (w.value n).coords.rows = none)
    (hg' : latLonErrs g ((w.value n).coords.rows.map (fun p => { p with z := p.z +. geoidHeight g v p.y p.x })) = none) :
    (((w.call g n .height).2.call g m .height).2.value m).coords.rows =
      (w.value n).coords.rows.map (fun p => { p with z := (p.z +. geoidHeight g v p.y p.x) +. geoidHeight g v p.y p.x }) := by
  obtain ⟨q1, q2, q3, hs, q4, q5, q6, q7⟩ := call_spec g hw hn .height
  have hrun : ∀ d : Dataset S, d.crs.name = .ELLPS → d.crs.vdatum = v → d.coords.intDtype = false → latLonErrs g d.coords.rows = none →
      (Op.run g .height d).1 = .ok () ∧ (Op.run g .height d).2.coords.rows = d.coords.rows.map (fun p => { p with z := p.z +. geoidHeight g v p.y p.x }) ∧
      (Op.run g .height d).2.coords.intDtype = false := by
    intro d a1 a2 a3 a4
    rcases d with ⟨⟨rows, i⟩, ⟨nm, l, e, v'⟩⟩
    dsimp only at a1 a2 a3 a4
    subst a1 a2 a3
    simp only [Op.run, Dataset.toEllipsoidHeight, Dataset.apply, ellipsoidHeight, a4]
    simp
  obtain ⟨r1, r2, r3⟩ := hrun (w.value n) h1 v1 hf hg
  obtain ⟨s1, s2, -⟩ := call_spec g q3 (hs.symm ▸ hm) .height
  -- the array of the first dataset is still the shared one: the addition is done in place
  have same : ((w.call g n .height).2.obj n).arr = (w.obj n).arr := by
    unfold DsWorld.call
    have e1 : (w.heap.crs (w.obj n).crs).name = .ELLPS := h1
    have e2 : latLonErrs g (w.heap.arr (w.obj n).arr).rows = none := hg
    have e3 : (w.heap.arr (w.obj n).arr).intDtype = false := hf
    simp [e1, Op.fn, ellipsoidHeightH, e2, e3]
  have hval : (w.call g n .height).2.value m = ⟨((w.call g n .height).2.value n).coords, (w.value m).crs⟩ := by
    unfold DsWorld.value; dsimp only
    rw [q4 m hmn, ha, same, q7.crs _ hc]
  rw [s2, hval, q2]
  rw [(hrun ⟨(Op.run g .height (w.value n)).2.coords, (w.value m).crs⟩ h2 v2 r3 (by rw [r2]; exact hg')).2.1]
  rw [r2, List.map_map]
  rfl

/-- **C77** The array that the caller handed to `Dataset(coords=a, ...)` is overwritten by `to_lon180`. -/
theorem C77_caller_array (g : Geodesy S) {w : DsWorld S} {n : Nat} (hname : (w.value n).crs.name = .ELLPS) :
    (w.call g n .lon180).2.heap.arr (w.obj n).arr = wrap180 (w.heap.arr (w.obj n).arr) := by
  have e1 : (w.heap.crs (w.obj n).crs).name = .ELLPS := hname
  unfold DsWorld.call
  simp [e1, Op.fn, wrap180H, Heap.setArr]

/-! ### C78 failed transformations -/

theorem mapM_total_h {α β : Type} {f : α → Except PyErr β} (hf : ∀ a, ∃ b, f a = .ok b) (l : List α) : ∃ r, l.mapM f = .ok r := by
  induction l with
  | nil => exact ⟨[], rfl⟩
  | cons a l ih =>
    obtain ⟨b, hb⟩ := hf a
    obtain ⟨r, hr⟩ := ih
    refine ⟨b :: r, ?_⟩
    rw [List.mapM_cons, hb, hr]
    rfl

/-- one dataset -/
theorem run_atomic (g : Geodesy S) (ht : ∀ x, ∃ y, g.ecef2geodetic x = .ok y) (op : Op S) (d : Dataset S) {e : PyErr} (he : (op.run g d).1 = .error e) :
    (op.run g d).2 = d := by
  have hm : ∀ c, ∃ c', mapRows g.ecef2geodetic c = .ok c' := by
    intro c
    obtain ⟨r, hr⟩ := mapM_total_h ht c.rows
    exact ⟨⟨r, false⟩, by unfold mapRows; rw [hr]; rfl⟩
  rcases d with ⟨c, ⟨nm, l, en, v⟩⟩
  have conv : ∀ (f : V3 S → Except PyErr (V3 S)) (upd : Crs S), (Dataset.apply (fun c crs => match mapRows f c with
      | .error e => (.error e, crs) | .ok c' => (.ok c', upd)) ⟨c, ⟨nm, l, en, v⟩⟩).1 = .error e →
      (Dataset.apply (fun c crs => match mapRows f c with | .error e => (.error e, crs) | .ok c' => (.ok c', upd)) ⟨c, ⟨nm, l, en, v⟩⟩).2 = ⟨c, ⟨nm, l, en, v⟩⟩ := by
    intro f upd
    unfold Dataset.apply
    dsimp only
    rcases mapRows f c with x | x
    · intro _; rfl
    · intro h; cases h
  revert he
  cases op with
  | lon180 => intro he; cases he
  | height =>
    have key : ∀ crs : Crs S, (Dataset.apply (ellipsoidHeight g) ⟨c, crs⟩).1 = .error e → (Dataset.apply (ellipsoidHeight g) ⟨c, crs⟩).2 = ⟨c, crs⟩ := by
      intro crs
      unfold Dataset.apply ellipsoidHeight
      dsimp only
      rcases latLonErrs g c.rows with _ | x
      · dsimp only
        split_ifs
        · intro _; rfl
        · intro h; cases h
      · intro _; rfl
    cases nm
    · intro he; cases he
    · exact key _
    · exact key _
    · intro he; cases he
  | ecef =>
    cases nm
    · intro he; cases he
    · exact conv _ _
    · rcases en with _ | en
      · intro _; rfl
      · exact conv (g.enu2ecef l en.lat0 en.lon0 en.alt0) _
    · intro he; cases he
  | wgs84 =>
    cases nm
    · intro he; cases he
    · simp only [Op.run, Dataset.toWgs84, Dataset.apply, ellpsToWgs84, CrsFn.then, ellpsToEcef, ecefToWgs84]
      split_ifs
      · intro he; cases he
      · rcases mapRows (g.geodetic2ecef l) c with x | x
        · intro _; rfl
        · obtain ⟨c', hc'⟩ := hm x
          simp only [hc']
          intro he; cases he
    · simp only [Op.run, Dataset.toWgs84, Dataset.apply, enuToWgs84, CrsFn.then, enuToEcef, ecefToWgs84]
      rcases en with _ | en
      · intro _; rfl
      · dsimp only
        rcases mapRows (g.enu2ecef l en.lat0 en.lon0 en.alt0) c with x | x
        · intro _; rfl
        · obtain ⟨c', hc'⟩ := hm x
          simp only [hc']
          intro he; cases he
    · exact conv _ _
  | enu lon0 lat0 alt0 =>
    cases nm
    · intro he; cases he
    · exact conv _ _
    · intro he; cases he
    · exact conv _ _

/-- **C78** A transformation that raises changes nothing: not the dataset it was called on, nor any other dataset -- shared or not -- provided the geodesy
library converts every geocentric position to geographic coordinates. -/
theorem C78_atomic (g : Geodesy S) (ht : ∀ x, ∃ y, g.ecef2geodetic x = .ok y) {w : DsWorld S} (hw : w.Valid) {n : Nat} (hn : n < w.size) (op : Op S) {e : PyErr}
    (he : (w.call g n op).1 = .error e) {m : Nat} (hm : m < w.size) : (w.call g n op).2.value m = w.value m := by
  obtain ⟨h1, h2, h3, hs, h4, h5, h6, h7⟩ := call_spec g hw hn op
  rw [h1] at he
  rw [run_atomic g ht op _ he] at h2
  have hobj : (w.call g n op).2.obj = w.obj := by
    have he' : (w.call g n op).1 = .error e := h1.trans he
    unfold DsWorld.call at he' ⊢
    dsimp only at he' ⊢
    revert he'
    rcases op.fn g (w.heap.crs (w.obj n).crs).name (w.obj n).arr (w.obj n).crs w.heap with ⟨x | x, h⟩
    · intro _; rfl
    · intro h; cases h
  have ha : (w.call g n op).2.heap.arr (w.obj n).arr = w.heap.arr (w.obj n).arr := by
    have := congrArg Dataset.coords h2
    unfold DsWorld.value at this; rw [hobj] at this; exact this
  have hc : (w.call g n op).2.heap.crs (w.obj n).crs = w.heap.crs (w.obj n).crs := by
    have := congrArg Dataset.crs h2
    unfold DsWorld.value at this; rw [hobj] at this; exact this
  unfold DsWorld.value
  rw [hobj]
  congr 1
  · by_cases h : (w.obj m).arr = (w.obj n).arr
    · rw [h]; exact ha
    · exact h7.arr _ (hw m hm) h
  · by_cases h : (w.obj m).crs = (w.obj n).crs
    · rw [h]; exact hc
    · exact h7.crs _ h

/-- **C78** The proviso is needed: if the second half of the conversion to WGS84 raises, the dataset is left declared as ECEF with its old coordinates. -/
theorem C78_proviso (g : Geodesy S) (d : Dataset S) (hn : d.crs.name = .ELLPS) (hw : isWgs84 g d.crs.ellps = false) {c : Coords S} {e : PyErr}
    (h1 : mapRows (g.geodetic2ecef d.crs.ellps) d.coords = .ok c) (h2 : mapRows g.ecef2geodetic c = .error e) :
    (Op.run g .wgs84 d).1 = .error e ∧ (Op.run g .wgs84 d).2.coords = d.coords ∧ (Op.run g .wgs84 d).2.crs.name = .ECEF := by
  rcases d with ⟨c0, ⟨nm, l, en, v⟩⟩
  dsimp only at hn hw h1
  subst hn
  simp [Op.run, Dataset.toWgs84, Dataset.apply, ellpsToWgs84, CrsFn.then, ellpsToEcef, ecefToWgs84, hw, h1, h2]

/-! ### C79 loops over the masses -/

/-- **C79** The functions of mass.py on a list of different masses that share nothing.  If the function returns, every dataset of the list has been converted
once and no other dataset is touched.  If it raises, the masses before the one that raised have been converted, and the masses after it have not. -/
theorem C79_loop (g : Geodesy S) (op : Op S) (ns : List Nat) : ∀ {w : DsWorld S}, w.Separate → (∀ n ∈ ns, n < w.size) → ns.Nodup →
    (∀ m, m < w.size → m ∉ ns → (w.loop g op ns).2.value m = w.value m) ∧
    ((w.loop g op ns).1 = .ok () → ∀ n ∈ ns, (op.run g (w.value n)).1 = .ok () ∧ (w.loop g op ns).2.value n = (op.run g (w.value n)).2) ∧
    (∀ e, (w.loop g op ns).1 = .error e → ∃ pre n post, ns = pre ++ n :: post ∧
      (∀ k ∈ pre, (op.run g (w.value k)).1 = .ok () ∧ (w.loop g op ns).2.value k = (op.run g (w.value k)).2) ∧
      (op.run g (w.value n)).1 = .error e ∧ (w.loop g op ns).2.value n = (op.run g (w.value n)).2 ∧
      (∀ k ∈ post, (w.loop g op ns).2.value k = w.value k)) := by
  induction ns with
  | nil =>
    intro w _ _ _
    exact ⟨fun _ _ _ => rfl, fun _ n hn => absurd hn (by simp), fun e he => absurd he (by simp [DsWorld.loop])⟩
  | cons n ns ih =>
    intro w hw hlt hnd
    have hn' : n < w.size := hlt n (by simp)
    obtain ⟨hn, hnd⟩ := List.nodup_cons.mp hnd
    obtain ⟨k1, hs, k2⟩ := call_separate g hw hn' op
    obtain ⟨s1, s2, -⟩ := call_spec g hw.valid hn' op
    obtain ⟨i1, i2, i3⟩ := ih k1 (fun m hm => by rw [hs]; exact hlt m (by simp [hm])) hnd
    unfold DsWorld.loop
    rcases hcall : w.call g n op with ⟨e | u, w'⟩
    · rw [hcall] at k2 s1 s2
      dsimp only
      refine ⟨fun m hm' hm => k2 m hm' (fun h => hm (by simp [h])), fun h => absurd h (by simp), ?_⟩
      intro e' he'
      obtain rfl := Except.error.inj he'
      exact ⟨[], n, ns, rfl, by simp, s1.symm, s2, fun k hk => k2 k (hlt k (by simp [hk])) (fun h => hn (h ▸ hk))⟩
    · rw [hcall] at k2 s1 s2 i1 i2 i3 hs
      dsimp only at *
      have keep : ∀ m ∈ ns, w'.value m = w.value m := fun m hm => k2 m (hlt m (by simp [hm])) (fun h => hn (h ▸ hm))
      refine ⟨?_, ?_, ?_⟩
      · intro m hm' hm
        rw [i1 m (by rw [hs]; exact hm') (fun h => hm (by simp [h])), k2 m hm' (fun h => hm (by simp [h]))]
      · intro hok m hm
        rcases List.mem_cons.mp hm with rfl | hm
        · exact ⟨s1.symm, by rw [i1 m (by rw [hs]; exact hn') hn, s2]⟩
        · rw [← keep m hm]; exact i2 hok m hm
      · intro e he
        obtain ⟨pre, x, post, q1, q2, q3, q4, q5⟩ := i3 e he
        subst q1
        refine ⟨n :: pre, x, post, rfl, ?_, ?_, ?_, ?_⟩
        · intro k hk
          rcases List.mem_cons.mp hk with rfl | hk
          · exact ⟨s1.symm, by rw [i1 k (by rw [hs]; exact hn') hn, s2]⟩
          · rw [← keep k (by simp [hk])]; exact q2 k hk
        · rw [← keep x (by simp)]; exact q3
        · rw [← keep x (by simp)]; exact q4
        · intro k hk
          rw [← keep k (by simp [hk])]; exact q5 k hk

/-- **C79** What `geec run` gets from these loops (the function on values used in the model of the command) is what the loops over objects do. -/
theorem C79_masses (g : Geodesy S) (op : Op S) (ρ Gc : Nat → S) (ns : List Nat) : ∀ {w : DsWorld S}, w.Separate → (∀ n ∈ ns, n < w.size) → ns.Nodup →
    massesMap (op.run g) (ns.map fun n => ⟨ρ n, Gc n, w.value n⟩) =
      match w.loop g op ns with
      | (.ok (), w') => .ok (ns.map fun n => ⟨ρ n, Gc n, w'.value n⟩)
      | (.error e, _) => .error e := by
  induction ns with
  | nil => intro w _ _ _; rfl
  | cons n ns ih =>
    intro w hw hlt hnd
    have hn' : n < w.size := hlt n (by simp)
    obtain ⟨hn, hnd⟩ := List.nodup_cons.mp hnd
    obtain ⟨k1, hs, k2⟩ := call_separate g hw hn' op
    obtain ⟨s1, s2, -⟩ := call_spec g hw.valid hn' op
    have ih := ih k1 (fun m hm => by rw [hs]; exact hlt m (by simp [hm])) hnd
    have hl := (C79_loop g op ns k1 (fun m hm => by rw [hs]; exact hlt m (by simp [hm])) hnd).1 n (by rw [hs]; exact hn') hn
    unfold massesMap at ih ⊢
    rw [List.map_cons, List.mapM_cons]
    unfold DsWorld.loop
    rcases hcall : w.call g n op with ⟨e | u, w'⟩
    · rw [hcall] at s1
      dsimp only at s1
      rcases hr : op.run g (w.value n) with ⟨r, d⟩
      rw [hr] at s1
      dsimp only at s1
      subst s1
      rfl
    · rw [hcall] at s1 s2 k2 ih hl hs
      dsimp only at s1 s2 k2 ih hl ⊢
      rcases hr : op.run g (w.value n) with ⟨r, d⟩
      rw [hr] at s1 s2
      dsimp only at s1 s2
      subst s1
      have keep : (ns.map fun n => (⟨ρ n, Gc n, w'.value n⟩ : Mass S)) = ns.map fun n => ⟨ρ n, Gc n, w.value n⟩ :=
        List.map_congr_left fun m hm => by rw [k2 m (hlt m (by simp [hm])) (fun h => hn (h ▸ hm))]
      rw [keep] at ih
      rw [ih]
      rcases hloop : w'.loop g op ns with ⟨e | u', w''⟩
      · rfl
      · rw [hloop] at hl
        dsimp only at hl
        show Except.ok _ = Except.ok _
        rw [List.map_cons, hl, s2]

/-- any program of method calls on the masses of a list; exceptions are caught and the caller carries on -/
def massRunAll (g : Geodesy S) : List (Nat × Op S) → List (MassObj S) → DsWorld S → List (MassObj S) × DsWorld S
  | [], ms, w => (ms, w)
  | (i, op) :: rest, ms, w =>
    match ms[i]? with
    | none => massRunAll g rest ms w
    | some m => massRunAll g rest (ms.set i (m.call g op w).2.1) (m.call g op w).2.2

/-- **C79** The methods of `Mass`, in any program of calls: a call has the outcome of the method of the dataset, no call changes the density, the gravity
constant or the dataset of any mass, and in the end the dataset of each mass is what its own calls make of it, in their order. -/
theorem C79_methods (g : Geodesy S) (prog : List (Nat × Op S)) : ∀ {ms : List (MassObj S)} {w : DsWorld S}, w.Separate → (∀ m ∈ ms, m.dataset < w.size) →
    (ms.map (·.dataset)).Nodup →
    (∀ m ∈ ms, ∀ op, (m.call g op w).1 = (op.run g (w.value m.dataset)).1) ∧ (massRunAll g prog ms w).1 = ms ∧
    ∀ k m, ms[k]? = some m → (massRunAll g prog ms w).2.value m.dataset =
      (prog.filterMap fun c => if c.1 = k then some c.2 else none).foldl (fun d op => (op.run g d).2) (w.value m.dataset) := by
  induction prog with
  | nil =>
    intro ms w hw hlt hnd
    exact ⟨fun m hm op => (call_spec g hw.valid (hlt m hm) op).1, rfl, fun _ _ _ => rfl⟩
  | cons c rest ih =>
    intro ms w hw hlt hnd
    obtain ⟨i, op⟩ := c
    refine ⟨fun m hm op => (call_spec g hw.valid (hlt m hm) op).1, ?_⟩
    rcases hi : ms[i]? with _ | m
    · obtain ⟨-, h1, h2⟩ := ih hw hlt hnd
      simp only [massRunAll, hi]
      refine ⟨h1, fun k m hk => ?_⟩
      have hik : i ≠ k := by rintro rfl; rw [hi] at hk; cases hk
      rw [h2 k m hk]
      simp only [List.filterMap_cons, if_neg hik]
    · have hm := List.mem_of_getElem? hi
      obtain ⟨k1, k2, k3⟩ := call_separate g hw (hlt m hm) op
      obtain ⟨-, s2, -⟩ := call_spec g hw.valid (hlt m hm) op
      have hset : ms.set i (m.call g op w).2.1 = ms := by
        have hlen := (List.getElem?_eq_some_iff.mp hi)
        obtain ⟨hl, he⟩ := hlen
        show ms.set i m = ms
        rw [← he]; exact List.set_getElem_self hl
      obtain ⟨-, h1, h2⟩ := ih (ms := ms) (w := (m.call g op w).2.2) k1 (fun m' hm' => by
        show _ < (w.call g m.dataset op).2.size
        rw [k2]; exact hlt m' hm') hnd
      simp only [massRunAll, hi, hset]
      refine ⟨h1, fun k m' hk => ?_⟩
      rw [h2 k m' hk]
      by_cases hik : i = k
      · subst hik
        obtain rfl := Option.some.inj (hi.symm.trans hk)
        simp only [List.filterMap_cons, if_true, List.foldl_cons]
        show List.foldl _ ((w.call g m.dataset op).2.value m.dataset) _ = _
        rw [s2]
      · simp only [List.filterMap_cons, if_neg hik]
        show List.foldl _ ((w.call g m.dataset op).2.value m'.dataset) _ = _
        rw [k3 _ (hlt m' (List.mem_of_getElem? hk)) ?_]
        intro he
        obtain ⟨a1, b1⟩ := List.getElem?_eq_some_iff.mp hi
        obtain ⟨a2, b2⟩ := List.getElem?_eq_some_iff.mp hk
        refine hik ((List.Nodup.getElem_inj_iff hnd (hi := by simpa using a1) (hj := by simpa using a2)).mp ?_)
        rw [List.getElem_map, List.getElem_map, b1, b2, he]


/-! ### C80 the labels of an observer -/

/-- Cartesian datasets remain Cartesian, and no other dataset becomes Cartesian -/
theorem run_cart (g : Geodesy S) (op : Op S) (d : Dataset S) : ((op.run g d).2.crs.name = .CART ↔ d.crs.name = .CART) := by
  rcases d with ⟨c, ⟨nm, l, en, v⟩⟩
  have conv : ∀ (f : V3 S → Except PyErr (V3 S)) (upd : Crs S), nm ≠ .CART → upd.name ≠ .CART →
      (Dataset.apply (fun c crs => match mapRows f c with | .error e => (.error e, crs) | .ok c' => (.ok c', upd)) ⟨c, ⟨nm, l, en, v⟩⟩).2.crs.name ≠ .CART := by
    intro f upd h1 h2
    unfold Dataset.apply
    dsimp only
    rcases mapRows f c with x | x
    · exact h1
    · exact h2
  cases op with
  | lon180 => cases nm <;> exact Iff.rfl
  | height =>
    have key : ∀ crs : Crs S, (Dataset.apply (ellipsoidHeight g) ⟨c, crs⟩).2.crs.name = crs.name := by
      intro crs
      unfold Dataset.apply ellipsoidHeight
      dsimp only
      rcases latLonErrs g c.rows with _ | x
      · dsimp only
        split_ifs <;> rfl
      · rfl
    cases nm
    · exact Iff.rfl
    · exact iff_of_eq (congrArg (· = CRSName.CART) (key _))
    · exact iff_of_eq (congrArg (· = CRSName.CART) (key _))
    · exact Iff.rfl
  | ecef =>
    cases nm
    · exact Iff.rfl
    · exact iff_of_false (conv _ _ (by simp) (by simp)) (by simp)
    · rcases en with _ | en
      · exact Iff.rfl
      · exact iff_of_false (conv (g.enu2ecef l en.lat0 en.lon0 en.alt0) _ (by simp) (by simp)) (by simp)
    · exact Iff.rfl
  | wgs84 =>
    cases nm
    · exact Iff.rfl
    · refine iff_of_false ?_ (by simp)
      simp only [Op.run, Dataset.toWgs84, Dataset.apply, ellpsToWgs84, CrsFn.then, ellpsToEcef, ecefToWgs84]
      split_ifs
      · simp
      · rcases mapRows (g.geodetic2ecef l) c with x | x
        · simp
        · rcases h : mapRows g.ecef2geodetic x with y | y <;> simp [h]
    · refine iff_of_false ?_ (by simp)
      simp only [Op.run, Dataset.toWgs84, Dataset.apply, enuToWgs84, CrsFn.then, enuToEcef, ecefToWgs84]
      rcases en with _ | en
      · simp
      · dsimp only
        rcases mapRows (g.enu2ecef l en.lat0 en.lon0 en.alt0) c with x | x
        · simp
        · rcases h : mapRows g.ecef2geodetic x with y | y <;> simp [h]
    · exact iff_of_false (conv _ _ (by simp) (by simp)) (by simp)
  | enu lon0 lat0 alt0 =>
    cases nm
    · exact Iff.rfl
    · exact iff_of_false (conv _ _ (by simp) (by simp)) (by simp)
    · exact Iff.rfl
    · exact iff_of_false (conv _ _ (by simp) (by simp)) (by simp)

omit [Arith S] in
/-- what the labels depend on -/
theorem labels_congr {d d' : Dataset S} (h : d.crs.name = .CART ↔ d'.crs.name = .CART) :
    (mkObserver d).coordsName = (mkObserver d').coordsName ∧ (mkObserver d).coordsUnit = (mkObserver d').coordsUnit := by
  unfold mkObserver
  rcases h1 : d.crs.name <;> rcases h2 : d'.crs.name <;> simp_all

/-- **C80** The labels of an observer are never stale: after any sequence of method calls (with exceptions caught) they are the labels that a new observer on the
same dataset would be given. -/
theorem C80_labels (g : Geodesy S) (ops : List (Op S)) : ∀ {w : DsWorld S}, w.Valid → ∀ {n : Nat}, n < w.size → ∀ {ob : ObserverObj}, ob.dataset = n →
    ob.coordsName = (mkObserver (w.value n)).coordsName → ob.coordsUnit = (mkObserver (w.value n)).coordsUnit →
    (ob.runAll g ops w).1 = ob ∧ ob.coordsName = (mkObserver ((ob.runAll g ops w).2.value n)).coordsName ∧
    ob.coordsUnit = (mkObserver ((ob.runAll g ops w).2.value n)).coordsUnit := by
  induction ops with
  | nil => intro w _ n _ ob _ h1 h2; exact ⟨rfl, h1, h2⟩
  | cons op ops ih =>
    intro w hw n hn ob hob h1 h2
    obtain ⟨-, q2, q3, hs, -⟩ := call_spec g hw hn op
    have hl := labels_congr (run_cart g op (w.value n))
    show (ob.runAll g ops (w.call g ob.dataset op).2).1 = ob ∧ ob.coordsName = (mkObserver ((ob.runAll g ops (w.call g ob.dataset op).2).2.value n)).coordsName ∧
      ob.coordsUnit = (mkObserver ((ob.runAll g ops (w.call g ob.dataset op).2).2.value n)).coordsUnit
    rw [hob]
    exact ih q3 (hs.symm ▸ hn) hob (by rw [q2, hl.1]; exact h1) (by rw [q2, hl.2]; exact h2)

/-- **C80** (the part that holds) After a `to_wgs84` that returns, an observer labelled in degrees is in geographic coordinates on WGS84, whatever was done to it
before; this is the last thing `geec run` does before it writes. -/
theorem C80_partial (g : Geodesy S) (hg : ∀ e, g.ellEq e e = true) (ops : List (Op S)) {w : DsWorld S} (hw : w.Valid) {n : Nat} (hn : n < w.size)
    (hok : (((newObserver w n).runAll g ops w).2.call g n .wgs84).1 = .ok ()) :
    let r := ((newObserver w n).runAll g (ops ++ [.wgs84]) w)
    (r.1.coordsUnit = ["(degree_east)", "(degree_north)", "(m)"] ↔ (r.2.value n).crs.name ≠ .CART) ∧
    ((r.2.value n).crs.name ≠ .CART → (r.2.value n).crs.name = .ELLPS ∧ isWgs84 g (r.2.value n).crs.ellps = true ∧ (r.2.value n).crs.enu = none) := by
  intro r
  constructor
  · obtain ⟨k1, k2, k3⟩ := C80_labels g (ops ++ [.wgs84]) hw hn (ob := newObserver w n) rfl rfl rfl
    have : r.1.coordsUnit = (mkObserver (r.2.value n)).coordsUnit := by
      show ((newObserver w n).runAll g (ops ++ [.wgs84]) w).1.coordsUnit = _
      rw [k1]; exact k3
    rw [this]
    unfold mkObserver
    rcases (r.2.value n).crs.name <;> simp
  · have valid : ∀ (ops : List (Op S)) {w : DsWorld S}, w.Valid → n < w.size → ∀ ob : ObserverObj, ob.dataset = n →
        (ob.runAll g ops w).2.Valid ∧ n < (ob.runAll g ops w).2.size ∧ (ob.runAll g (ops ++ [.wgs84]) w).2 = ((ob.runAll g ops w).2.call g n .wgs84).2 := by
      intro ops
      induction ops with
      | nil => intro w hw hn ob hob; refine ⟨hw, hn, ?_⟩; show (w.call g ob.dataset .wgs84).2 = _; rw [hob]; rfl
      | cons op ops ih =>
        intro w hw hn ob hob
        obtain ⟨-, -, q3, hs, -⟩ := call_spec g hw hn op
        have := ih q3 (hs.symm ▸ hn) ob hob
        show (ob.runAll g ops (w.call g ob.dataset op).2).2.Valid ∧ n < (ob.runAll g ops (w.call g ob.dataset op).2).2.size ∧
          (ob.runAll g (ops ++ [.wgs84]) (w.call g ob.dataset op).2).2 = ((ob.runAll g ops (w.call g ob.dataset op).2).2.call g n .wgs84).2
        rw [hob]; exact this
    obtain ⟨v1, v2, v3⟩ := valid ops hw hn (newObserver w n) rfl
    obtain ⟨q1, q2, -⟩ := call_spec g v1 v2 .wgs84
    rw [q1] at hok
    show (((newObserver w n).runAll g (ops ++ [.wgs84]) w).2.value n).crs.name ≠ .CART → _
    have hval : r.2.value n = (Op.run g .wgs84 (((newObserver w n).runAll g ops w).2.value n)).2 := by
      show ((newObserver w n).runAll g (ops ++ [.wgs84]) w).2.value n = _
      rw [v3, q2]
    rw [hval]
    generalize ((newObserver w n).runAll g ops w).2.value n = d at hok
    rcases d with ⟨c, ⟨nm, l, en, v⟩⟩
    have hw84 : isWgs84 g (some (wgs84 g)) = true := hg _
    revert hok
    cases nm
    · intro _ h; exact absurd rfl h
    · simp only [Op.run, Dataset.toWgs84, Dataset.apply, ellpsToWgs84, CrsFn.then, ellpsToEcef, ecefToWgs84]
      split_ifs with h
      · intro _ _
        rw [Bool.and_eq_true] at h
        exact ⟨rfl, h.2, by simpa using h.1⟩
      · rcases mapRows (g.geodetic2ecef l) c with x | x
        · intro h; cases h
        · dsimp only
          rcases mapRows g.ecef2geodetic x with y | y
          · intro h; cases h
          · intro _ _; exact ⟨rfl, hw84, rfl⟩
    · simp only [Op.run, Dataset.toWgs84, Dataset.apply, enuToWgs84, CrsFn.then, enuToEcef, ecefToWgs84]
      rcases en with _ | en
      · intro h; cases h
      · dsimp only
        rcases mapRows (g.enu2ecef l en.lat0 en.lon0 en.alt0) c with x | x
        · intro h; cases h
        · dsimp only
          rcases mapRows g.ecef2geodetic x with y | y
          · intro h; cases h
          · intro _ _; exact ⟨rfl, hw84, rfl⟩
    · simp only [Op.run, Dataset.toWgs84, Dataset.apply, ecefToWgs84]
      rcases mapRows g.ecef2geodetic c with y | y
      · intro h; cases h
      · intro _ _; exact ⟨rfl, hw84, rfl⟩

/-! ### a world with two datasets, for examples -/
noncomputable section

/-- Two datasets, one point each, in geographic coordinates above EGM96; `a` and `k` are the array and the CRS object of the second. -/
def twoSets (a k : Nat) : DsWorld ℝ where
  size := 2
  obj := fun n => if n = 0 then ⟨0, 0⟩ else ⟨a, k⟩
  heap := ⟨fun i => ⟨[⟨200 + i, 45, 1⟩], false⟩, fun _ => ⟨.ELLPS, some ⟨"wgs84", "WGS-84", 7, 6⟩, none, .EGM96⟩, 2⟩

theorem twoSets_valid {a k : Nat} (ha : a < 2) : (twoSets a k).Valid := by
  intro n _
  unfold twoSets; dsimp only
  split_ifs
  · exact Nat.zero_lt_two
  · exact ha

theorem twoSets_separate : (twoSets 1 1).Separate := by
  refine ⟨twoSets_valid (by norm_num), ?_, ?_⟩ <;>
  · intro m n hm hn hmn
    have hm : m < 2 := hm
    have hn : n < 2 := hn
    interval_cases m <;> interval_cases n <;> first | exact absurd rfl hmn | simp [twoSets]

/-- **C77** is false without the proviso: there are two datasets, with a lawful geodesy library, such that a method call on one changes the other. -/
theorem C77_false : ¬ ∀ (g : Geodesy ℝ), g.Lawful → ∀ w : DsWorld ℝ, w.Valid → ∀ (m n : Nat), m < w.size → n < w.size → m ≠ n → ∀ op : Op ℝ,
    (w.call g n op).2.value m = w.value m := by
  intro h
  have := h toyGeo toyGeo_lawful (twoSets 1 0) (twoSets_valid (by norm_num)) 1 0 (by simp [twoSets]) (by simp [twoSets]) (by norm_num) .ecef
  have h2 := (C77_shared_crs toyGeo (w := twoSets 1 0) (twoSets_valid (by norm_num)) (m := 1) (n := 0) (by simp [twoSets]) (by simp [twoSets]) (by norm_num)
    (by simp [twoSets]) (by simp [twoSets]) (by simp [twoSets, DsWorld.value]) (by simp [twoSets, DsWorld.call, Op.fn, ellpsToEcefH, convertH, mapRows, toyGeo])).1
  rw [this] at h2
  simp [twoSets, DsWorld.value] at h2

-- C77_partial: both datasets are converted, the second is wrapped in between; each is what its own calls make of it
example : (DsWorld.runAll toyGeo [(0, .ecef), (1, .lon180), (0, .wgs84), (1, .ecef)] (twoSets 1 1)).value 1 =
    ((Op.run toyGeo .ecef ((Op.run toyGeo .lon180 ((twoSets 1 1).value 1)).2)).2) :=
  C77_partial toyGeo _ twoSets_separate (by simp [twoSets]) 1 (by simp [twoSets])

-- C77_shared_array: at longitude 200 the toy geoid is 200 m high; after two calls it has been added twice
example : ((((twoSets 0 1).call toyGeo 0 .height).2.call toyGeo 1 .height).2.value 1).coords.rows = [⟨200, 45, (1 + 200) + 200⟩] := by
  have h := C77_shared_array toyGeo (w := twoSets 0 1) (twoSets_valid (by norm_num)) (m := 1) (n := 0) (by simp [twoSets]) (by simp [twoSets]) (by norm_num)
    (by simp [twoSets]) (by simp [twoSets]) (by simp [twoSets, DsWorld.value]) (by simp [twoSets, DsWorld.value]) (v := .EGM96)
    (by simp [twoSets, DsWorld.value]) (by simp [twoSets, DsWorld.value]) (by simp [twoSets, DsWorld.value])
    (by norm_num [twoSets, DsWorld.value, latLonErrs, toyGeo, abs_of_pos]) (by norm_num [twoSets, DsWorld.value, latLonErrs, toyGeo, abs_of_pos])
  rw [h]
  simp [twoSets, DsWorld.value, geoidHeight, toyGeo]
  rfl

-- C77_exact: two datasets on one array with CRS objects of their own; `to_ecef` on one leaves the other as it was, `to_lon180` does not
example : ((twoSets 0 1).call toyGeo 0 .ecef).2.value 1 = (twoSets 0 1).value 1 ∧
    ((twoSets 0 1).call toyGeo 0 .lon180).2.value 1 ≠ (twoSets 0 1).value 1 := by
  have hv := twoSets_valid (a := 0) (k := 1) (by norm_num)
  refine ⟨(C77_exact toyGeo hv (by simp [twoSets]) (by simp [twoSets]) (by norm_num) _).mpr ⟨by simp [twoSets], by simp⟩, fun h => ?_⟩
  have h1 := ((C77_exact toyGeo hv (m := 1) (n := 0) (by simp [twoSets]) (by simp [twoSets]) (by norm_num) _).mp h).2
    (by simp [twoSets]) (.inl rfl)
  have h2 : wrap180 ((twoSets 0 1).heap.arr 0) = (twoSets 0 1).heap.arr 0 := h1
  have h3 := congrArg Coords.rows h2
  simp [twoSets, wrap180, wrapLon] at h3
  have h4 : (200 : ℝ) - ((360 : ℕ) : ℝ) = 200 :=
    h3 (show (@Arith.lt ℝ realArith (@Arith.ofNat ℝ realArith 180) 200) = true from decide_eq_true (show ((180 : ℕ) : ℝ) < 200 by norm_num))
  norm_num at h4

-- C77_caller_array: 200 becomes -160 in the caller's array
example : (((twoSets 1 1).call toyGeo 0 .lon180).2.heap.arr 0).rows = [⟨-160, 45, 1⟩] := by
  have h := C77_caller_array toyGeo (w := twoSets 1 1) (n := 0) (by simp [twoSets, DsWorld.value])
  have h' := congrArg Coords.rows h
  refine h'.trans ?_
  simp [twoSets, wrap180, wrapLon]
  rw [if_pos (show (@Arith.lt ℝ realArith (@Arith.ofNat ℝ realArith 180) 200) = true from decide_eq_true (show ((180 : ℕ) : ℝ) < 200 by norm_num))]
  show (200 : ℝ) - ((360 : ℕ) : ℝ) = -160
  norm_num

-- C77_shared_crs: the second dataset is declared ECEF and is not converted
example : (((twoSets 1 0).call toyGeo 0 .ecef).2.value 1).crs.name = .ECEF ∧ (((twoSets 1 0).call toyGeo 0 .ecef).2.value 1).coords = ((twoSets 1 0).value 1).coords := by
  have h := C77_shared_crs toyGeo (w := twoSets 1 0) (twoSets_valid (by norm_num)) (m := 1) (n := 0) (by simp [twoSets]) (by simp [twoSets]) (by norm_num)
    (by simp [twoSets]) (by simp [twoSets]) (by simp [twoSets, DsWorld.value]) (by simp [twoSets, DsWorld.call, Op.fn, ellpsToEcefH, convertH, mapRows, toyGeo])
  exact ⟨h.1, h.2.1⟩

/-- one dataset with a latitude beyond the pole -/
def badSet : DsWorld ℝ where
  size := 1
  obj := fun _ => ⟨0, 0⟩
  heap := ⟨fun _ => ⟨[⟨200, 45, 1⟩, ⟨200, 100, 1⟩], false⟩, fun _ => ⟨.ELLPS, some ⟨"airy", "Airy", 5, 4⟩, none, .EGM96⟩, 1⟩

-- C78_atomic: the heights cannot be converted, and the dataset is as before
example : (badSet.call toyGeo 0 .height).1 = .error .valueError ∧ (badSet.call toyGeo 0 .height).2.value 0 = badSet.value 0 := by
  have h : (badSet.call toyGeo 0 .height).1 = .error .valueError := by
    norm_num [badSet, DsWorld.call, Op.fn, ellipsoidHeightH, latLonErrs, toyGeo, abs_of_pos]
  exact ⟨h, C78_atomic toyGeo (fun x => ⟨_, rfl⟩) (fun n _ => Nat.one_pos) Nat.one_pos .height h Nat.one_pos⟩

-- C78_proviso: a library that cannot convert back
example : (Op.run { toyGeo with ecef2geodetic := fun _ => .error .valueError } .wgs84 (badSet.value 0)).2.crs.name = .ECEF :=
  (C78_proviso { toyGeo with ecef2geodetic := fun _ => .error .valueError } (badSet.value 0) rfl
    (by simp [badSet, DsWorld.value, isWgs84, wgs84, toyGeo, findModel]) (c := ⟨[⟨205, 45, 1⟩, ⟨205, 100, 1⟩], false⟩) (e := .valueError)
    (by norm_num [badSet, DsWorld.value, mapRows, toyGeo, Bind.bind, Except.bind, Pure.pure, Except.pure])
    (by simp [mapRows, Bind.bind, Except.bind])).2.2

-- C79_loop: both masses are converted
example : ((twoSets 1 1).loop toyGeo .ecef [0, 1]).1 = .ok () → (((twoSets 1 1).loop toyGeo .ecef [0, 1]).2.value 1).crs.name = .ECEF := by
  intro h
  rw [((C79_loop toyGeo .ecef [0, 1] twoSets_separate (by simp [twoSets]) (by simp)).2.1 h 1 (by simp)).2]
  simp [Op.run, Dataset.toEcef, Dataset.apply, twoSets, DsWorld.value, ellpsToEcef, mapRows, toyGeo]

-- C79_masses, with the densities of the two masses
example : ∃ ms, massesMap (Op.run toyGeo .ecef) ([0, 1].map fun n => ⟨if n = 0 then 2670 else 1000, 1, (twoSets 1 1).value n⟩) = .ok ms := by
  rw [C79_masses toyGeo .ecef (fun n => if n = 0 then 2670 else 1000) (fun _ => 1) [0, 1] twoSets_separate (by simp [twoSets]) (by simp)]
  have : ((twoSets 1 1).loop toyGeo .ecef [0, 1]).1 = .ok () := by
    simp [DsWorld.loop, DsWorld.call, Op.fn, twoSets, ellpsToEcefH, convertH, mapRows, toyGeo, Heap.alloc, Heap.setCrs]
  rcases h : (twoSets 1 1).loop toyGeo .ecef [0, 1] with ⟨e | u, w'⟩
  · rw [h] at this; cases this
  · exact ⟨_, rfl⟩

-- C79_methods: the second mass is converted twice, the first once, and both keep their densities
example : (massRunAll toyGeo [(1, .ecef), (0, .ecef), (1, .wgs84)] [⟨2670, 1, 0⟩, ⟨1000, 1, 1⟩] (twoSets 1 1)).1 = [⟨2670, 1, 0⟩, ⟨1000, 1, 1⟩] ∧
    (massRunAll toyGeo [(1, .ecef), (0, .ecef), (1, .wgs84)] [⟨2670, 1, 0⟩, ⟨1000, 1, 1⟩] (twoSets 1 1)).2.value 1 =
      (Op.run toyGeo .wgs84 (Op.run toyGeo .ecef ((twoSets 1 1).value 1)).2).2 := by
  obtain ⟨-, h1, h2⟩ := C79_methods toyGeo [(1, .ecef), (0, .ecef), (1, .wgs84)] (ms := [⟨2670, 1, 0⟩, ⟨1000, 1, 1⟩]) twoSets_separate
    (by simp [twoSets]) (by simp)
  exact ⟨h1, h2 1 ⟨1000, 1, 1⟩ rfl⟩

/-- **C80** in full is false: after `to_ecef` an observer in geocentric metres is still labelled as longitudes and latitudes in degrees. -/
theorem C80_false : ¬ ∀ (g : Geodesy ℝ), g.Lawful → ∀ w : DsWorld ℝ, w.Valid → ∀ n, n < w.size → ∀ ops : List (Op ℝ),
    ((newObserver w n).runAll g ops w).1.coordsUnit = ["(degree_east)", "(degree_north)", "(m)"] →
    (((newObserver w n).runAll g ops w).2.value n).crs.name = .ELLPS := by
  intro h
  have h1 := h toyGeo toyGeo_lawful (twoSets 1 1) (twoSets_valid (by norm_num)) 0 (by simp [twoSets]) [.ecef]
    (by simp [ObserverObj.runAll, ObserverObj.call, newObserver, mkObserver, twoSets, DsWorld.value])
  simp [ObserverObj.runAll, ObserverObj.call, newObserver, DsWorld.call, Op.fn, twoSets, DsWorld.value, ellpsToEcefH, convertH, mapRows, toyGeo, Heap.alloc,
    Heap.setCrs] at h1

-- C80_labels and C80_partial: to ECEF, to a local frame, and back
example : (((newObserver (twoSets 1 1) 0).runAll toyGeo [.ecef, .enu 1 2 3, .wgs84] (twoSets 1 1)).2.value 0).crs.name = .ELLPS := by
  have h := C80_partial toyGeo toyGeo_lawful.eq_refl [.ecef, .enu 1 2 3] (w := twoSets 1 1) (twoSets_valid (by norm_num)) (n := 0) (by simp [twoSets])
    (by simp [ObserverObj.runAll, ObserverObj.call, newObserver, DsWorld.call, Op.fn, twoSets, ellpsToEcefH, ecefToEnuH, enuToWgs84H, HeapFn.then, enuToEcefH,
          ecefToWgs84H, convertH, mapRows, toyGeo, Heap.alloc, Heap.setCrs])
  refine (h.2 ?_).1
  refine h.1.mp ?_
  rw [(C80_labels toyGeo _ (twoSets_valid (by norm_num)) (n := 0) (by simp [twoSets]) rfl rfl rfl).1]
  simp [newObserver, mkObserver, twoSets, DsWorld.value]

end
end Geec
