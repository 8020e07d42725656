import Verif.Props.Flags
import Verif.Props.History
import Verif.Model.RealArith
/-
C06, C07, C08, C48 and the station parts of C04, C05.
-/
namespace Geec
open Arith
variable {S : Type} [Arith S]

/-- All objects of the store were built by the constructor and hold no cached value (new objects, or objects whose
calls so far have all returned, see C01). -/
structure World.Ready (w : World S) : Prop where
  built : ∀ k, ∃ h inHull, mkPoly h inHull = .ok (w.poly k)
  clean : ∀ k, Clean (w.mem k)

/-- the store of new objects -/
def World.new (poly : Nat → Poly S) : World S := ⟨poly, fun _ => Mem.fresh⟩

theorem World.new_ready (poly : Nat → Poly S) (h : ∀ k, ∃ h inHull, mkPoly h inHull = .ok (poly k)) :
    (World.new poly).Ready := ⟨h, fun _ => clean_fresh⟩

/-- the same for objects whose edges' twins are edges of the same object (as for all constructed ones) -/
structure World.Sound (w : World S) : Prop where
  inside : ∀ k, (w.poly k).TwinsInside
  clean : ∀ k, Clean (w.mem k)

theorem World.Ready.sound {w : World S} (h : w.Ready) : w.Sound :=
  ⟨fun k => by obtain ⟨_, _, hb⟩ := h.built k; exact mkPoly_inside hb, h.clean⟩

/-- left-to-right sum of answers onto what the station holds -/
def accumulate (s : Station S) : List (V3 S × M3 S) → Station S
  | [] => s
  | (G, T) :: rs => accumulate { s with G := s.G.add G, T := s.T.add T } rs

theorem stationLoop_ok (density Gc : S) (gr : Bool) (ids : List Nat) : ∀ (s : Station S) (w : World S), w.Sound →
    ∀ rs, ids.map (fun k => (Call.mk s.coord density Gc gr).onNew (w.poly k)) = rs.map .ok →
    ∃ w', stationLoop density Gc gr ids s w = (.ok (), accumulate s rs, w') ∧ w'.Sound ∧ w'.poly = w.poly := by
  induction ids with
  | nil =>
    intro s w hw rs hrs
    cases rs with
    | nil => exact ⟨w, rfl, hw, rfl⟩
    | cons r rs => cases hrs
  | cons k ids ih =>
    intro s w hw rs hrs
    cases rs with
    | nil => cases hrs
    | cons r rs =>
      simp only [List.map_cons, List.cons.injEq] at hrs
      obtain ⟨h1, h2⟩ := hrs
      have h3 : (getGravity (w.poly k) s.coord density Gc gr (w.mem k)).1 = .ok r := by
        rw [getGravity_of_clean (hw.clean k)]; exact h1
      have h4 := clean_after (hw.inside k) (hw.clean k) _ _ _ _ h3
      rcases r with ⟨G, T⟩
      simp only [stationLoop, World.getGravity, h3]
      obtain ⟨w', h5, h6, h7⟩ := ih { s with G := s.G.add G, T := s.T.add T }
        { w with mem := fun j => if j = k then (getGravity (w.poly k) s.coord density Gc gr (w.mem k)).2 else w.mem j }
        ⟨hw.inside, fun j => by
          by_cases hj : j = k
          · simp only [hj, if_true]; exact h4
          · simp only [hj, if_false]; exact hw.clean j⟩ rs h2
      exact ⟨w', h5, h6, h7⟩

theorem polyIds_map (ids : List Nat) : polyIds (ids.map PyObj.poly) = some ids := by
  induction ids with
  | nil => rfl
  | cons k ids ih => simp [polyIds, ih]

/-- **C06.** `compute_gravity` on a list of bodies (possibly with repetitions) adds to the station the answers of the
bodies, in list order; every body ends up ready for other queries. -/
theorem C06_station_accumulates (density Gc : S) (gr : Bool) (ids : List Nat) (s : Station S) (w : World S)
    (hw : w.Ready) (rs : List (V3 S × M3 S))
    (hrs : ids.map (fun k => (Call.mk s.coord density Gc gr).onNew (w.poly k)) = rs.map .ok) :
    ∃ w', computeGravity (.list (ids.map .poly)) density Gc gr s w = (.ok (), accumulate s rs, w') ∧
      w'.Ready ∧ w'.poly = w.poly := by
  simp only [computeGravity, polyIds_map]
  obtain ⟨w', h1, h2, h3⟩ := stationLoop_ok density Gc gr ids s w hw.sound rs hrs
  exact ⟨w', h1, ⟨by rw [h3]; exact hw.built, h2.clean⟩, h3⟩

/-- **C06**, concatenation: one call on `a ++ b` is a call on `a` followed, if it returns, by a call on `b`
(any state, any outcome). -/
theorem C06_concatenation (density Gc : S) (gr : Bool) (a b : List Nat) (s : Station S) (w : World S) :
    computeGravity (.list ((a ++ b).map .poly)) density Gc gr s w =
      match computeGravity (.list (a.map .poly)) density Gc gr s w with
      | (.ok (), s', w') => computeGravity (.list (b.map .poly)) density Gc gr s' w'
      | (.error e, s', w') => (.error e, s', w') := by
  simp only [computeGravity, polyIds_map]
  induction a generalizing s w with
  | nil => rfl
  | cons k a ih =>
    simp only [List.cons_append, stationLoop]
    rcases w.getGravity k s.coord density Gc gr with ⟨e | ⟨G, T⟩, w'⟩
    · rfl
    · exact ih _ _

/-- an acceptable argument of `compute_gravity`, as documented: a polyhedron or a list of polyhedra -/
def Acceptable (arg : PyObj) : Prop :=
  (∃ k, arg = .poly k) ∨ ∃ l, arg = .list l ∧ ∀ x ∈ l, ∃ k, x = .poly k

theorem polyIds_none {l : List PyObj} (h : ¬ ∀ x ∈ l, ∃ k, x = .poly k) : polyIds l = none := by
  induction l with
  | nil => exact absurd (by simp) h
  | cons x l ih =>
    cases x with
    | poly k =>
      have : ¬ ∀ x ∈ l, ∃ k, x = .poly k := by
        intro h'; apply h; intro x hx
        rcases List.mem_cons.mp hx with rfl | hx
        · exact ⟨k, rfl⟩
        · exact h' x hx
      simp [polyIds, ih this]
    | list _ => rfl
    | tuple _ => rfl
    | other => rfl

/-- **C07.** An argument that is neither a polyhedron nor a list of polyhedra raises `TypeError` and changes nothing:
neither the station nor any body. -/
theorem C07_wrong_argument (arg : PyObj) (h : ¬ Acceptable arg) (density Gc : S) (gr : Bool)
    (s : Station S) (w : World S) :
    computeGravity arg density Gc gr s w = (.error .typeError, s, w) := by
  cases arg with
  | poly k => exact absurd (Or.inl ⟨k, rfl⟩) h
  | list l =>
    have : polyIds l = none := polyIds_none fun h' => h (Or.inr ⟨l, rfl, h'⟩)
    simp [computeGravity, this]
  | tuple l => rfl
  | other => rfl

/-- **C07.** A bare polyhedron behaves as a one-element list. -/
theorem C07_bare_polyhedron (k : Nat) (density Gc : S) (gr : Bool) (s : Station S) (w : World S) :
    computeGravity (.poly k) density Gc gr s w = computeGravity (.list [.poly k]) density Gc gr s w := rfl

/-- a tuple of polyhedra and a list with a non-polyhedron at the end are not acceptable -/
example : ¬ Acceptable (.tuple [.poly 0, .poly 1]) ∧ ¬ Acceptable (.list [.poly 0, .other]) := by
  constructor
  · rintro (⟨k, h⟩ | ⟨l, h, _⟩) <;> cases h
  · rintro (⟨k, h⟩ | ⟨l, h, h'⟩)
    · cases h
    · cases h; obtain ⟨k, hk⟩ := h' .other (by simp); cases hk

theorem stationLoop_frame (density Gc : S) (gr : Bool) (ids : List Nat) : ∀ (s : Station S) (w : World S),
    let r := stationLoop density Gc gr ids s w
    r.2.1.coord = s.coord ∧ r.2.2.poly = w.poly ∧ ∀ k, k ∉ ids → r.2.2.mem k = w.mem k := by
  induction ids with
  | nil => intro s w; exact ⟨rfl, rfl, fun _ _ => rfl⟩
  | cons k ids ih =>
    intro s w
    simp only [stationLoop]
    rcases hr : w.getGravity k s.coord density Gc gr with ⟨e | ⟨G, T⟩, w'⟩
    · have hw' : w' = (w.getGravity k s.coord density Gc gr).2 := by rw [hr]
      subst hw'
      refine ⟨rfl, rfl, fun j hj => ?_⟩
      have : j ≠ k := by rintro rfl; simp at hj
      simp [World.getGravity, this]
    · have hw' : w' = (w.getGravity k s.coord density Gc gr).2 := by rw [hr]
      obtain ⟨h1, h2, h3⟩ := ih { s with G := s.G.add G, T := s.T.add T } w'
      refine ⟨h1, ?_, fun j hj => ?_⟩
      · show _ = w.poly
        rw [h2, hw']; rfl
      · simp only [List.mem_cons, not_or] at hj
        rw [h3 j hj.2, hw']
        simp [World.getGravity, hj.1]

/-- **C48.** Whatever happens (return or exception), `compute_gravity` leaves the geometry of all bodies and the
coordinates of the station as they were, and does not touch the caches of bodies that are not listed.
(`get_gravity` on its own has no access to any geometry other than the one it reads: the model keeps geometry and
caches apart, and the methods write only the attributes listed in `EdgeC` and `FaceC`.) -/
theorem C48_geometry_unmodified (ids : List Nat) (density Gc : S) (gr : Bool) (s : Station S) (w : World S) :
    let r := computeGravity (.list (ids.map .poly)) density Gc gr s w
    r.2.1.coord = s.coord ∧ r.2.2.poly = w.poly ∧ ∀ k, k ∉ ids → r.2.2.mem k = w.mem k := by
  simp only [computeGravity, polyIds_map]
  exact stationLoop_frame density Gc gr ids s w

/-- an invariant of the tensor of a station -/
theorem stationLoop_tensor {Q : M3 S → Prop} {density Gc : S} {gr : Bool}
    (hQ : ∀ p obs m G T, (getGravity p obs density Gc gr m).1 = .ok (G, T) → ∀ T0 : M3 S, Q T0 → Q (T0.add T))
    (ids : List Nat) : ∀ (s : Station S) (w : World S), Q s.T →
    Q (stationLoop density Gc gr ids s w).2.1.T := by
  induction ids with
  | nil => intro s w h; exact h
  | cons k ids ih =>
    intro s w h
    simp only [stationLoop]
    rcases hr : w.getGravity k s.coord density Gc gr with ⟨e | ⟨G, T⟩, w'⟩
    · exact h
    · have h1 : (w.getGravity k s.coord density Gc gr).1 = .ok (G, T) := by rw [hr]
      exact ih _ _ (hQ _ _ _ G T h1 _ h)

theorem computeGravity_tensor {Q : M3 S → Prop} {density Gc : S} {gr : Bool}
    (hQ : ∀ p obs m G T, (getGravity p obs density Gc gr m).1 = .ok (G, T) → ∀ T0 : M3 S, Q T0 → Q (T0.add T))
    (arg : PyObj) (s : Station S) (w : World S) (h : Q s.T) : Q (computeGravity arg density Gc gr s w).2.1.T := by
  unfold computeGravity
  simp only
  split
  · exact h
  · exact stationLoop_tensor hQ _ _ _ h

/-- **C04**, station: without gradient `compute_gravity` leaves `Station.T` unchanged (any state of the bodies, any
outcome), if `a + 0 = a`. -/
theorem C04_station_tensor_unchanged (h0 : ∀ a : S, a +. zero = a) (arg : PyObj) (density Gc : S) (s : Station S)
    (w : World S) : (computeGravity arg density Gc false s w).2.1.T = s.T := by
  refine computeGravity_tensor (Q := fun T => T = s.T) ?_ arg s w rfl
  intro p obs m G T h T0 h1
  rw [C04_no_gradient_zero_tensor (h0 zero) p obs density Gc m h]
  subst h1
  simp [M3.zeros, M3.add, V3.zeros, V3.add, h0]

/-- **C05**, station: the tensor of a station stays symmetric. -/
theorem C05_station_tensor_symmetric (arg : PyObj) (density Gc : S) (gr : Bool) (s : Station S) (w : World S)
    (h : s.T.transpose = s.T) :
    (computeGravity arg density Gc gr s w).2.1.T.transpose = (computeGravity arg density Gc gr s w).2.1.T := by
  refine computeGravity_tensor (Q := M3.Symm) ?_ arg s w h
  intro p obs m G T h T0 h1
  have h2 := C05_tensor_symmetric p obs density Gc gr m h
  refine h1.add ?_
  rcases T with ⟨⟨a0, a1, a2⟩, ⟨a3, a4, a5⟩, ⟨a6, a7, a8⟩⟩
  simp only at h2
  obtain ⟨rfl, rfl, rfl⟩ := h2
  rfl

/-- a new station has a symmetric tensor -/
example : (Station.new (⟨zero, one, two⟩ : V3 S)).T.transpose = (Station.new (⟨zero, one, two⟩ : V3 S)).T := rfl

theorem stationLoop_returns {density Gc : S} {gr : Bool} (ids : List Nat) : ∀ {s s' : Station S} {w w' : World S},
    w.Sound → stationLoop density Gc gr ids s w = (.ok (), s', w') →
    ∃ rs : List (V3 S × M3 S), ids.map (fun k => (Call.mk s.coord density Gc gr).onNew (w.poly k)) = rs.map .ok := by
  induction ids with
  | nil => intro s s' w w' _ _; exact ⟨[], rfl⟩
  | cons k ids ih =>
    intro s s' w w' hw h
    have h1 : (w.getGravity k s.coord density Gc gr).1 = (Call.mk s.coord density Gc gr).onNew (w.poly k) :=
      getGravity_of_clean (hw.clean k) _ _ _ _ _
    simp only [stationLoop] at h
    rcases hr : w.getGravity k s.coord density Gc gr with ⟨e | ⟨G, T⟩, w1⟩
    · rw [hr] at h; cases h
    · rw [hr] at h
      simp only at h
      have hw1 : w1 = (w.getGravity k s.coord density Gc gr).2 := by rw [hr]
      have h2 : (w.getGravity k s.coord density Gc gr).1 = .ok (G, T) := by rw [hr]
      have h4 := clean_after (hw.inside k) (hw.clean k) _ _ _ _ h2
      have hready : w1.Sound := by
        subst hw1
        refine ⟨hw.inside, fun j => ?_⟩
        by_cases hj : j = k
        · simp only [World.getGravity, hj, if_true]; exact h4
        · simp only [World.getGravity, hj, if_false]; exact hw.clean j
      obtain ⟨rs, h5⟩ := ih hready h
      refine ⟨(G, T) :: rs, ?_⟩
      simp only [List.map_cons, ← h1, h2]
      congr 1
      rw [← h5, hw1]; rfl

theorem accumulate_swap (hc : ∀ a b : S, a +. b = b +. a) (ha : ∀ a b c : S, a +. b +. c = a +. (b +. c))
    {l l' : List (V3 S × M3 S)} (h : l.Perm l') : ∀ s : Station S, accumulate s l = accumulate s l' := by
  have hv : ∀ a b c : V3 S, (a.add b).add c = (a.add c).add b := by
    intro a b c
    simp only [V3.add, ha, hc b.x, hc b.y, hc b.z]
  have hm : ∀ a b c : M3 S, (a.add b).add c = (a.add c).add b := by
    intro a b c
    simp only [M3.add, hv a.r0 b.r0, hv a.r1 b.r1, hv a.r2 b.r2]
  induction h with
  | nil => intro s; rfl
  | cons x _ ih => intro s; exact ih _
  | swap x y l =>
    intro s
    simp only [accumulate]
    rw [hv s.G y.1, hm s.T y.2]
  | trans _ _ ih1 ih2 => intro s; rw [ih1, ih2]

theorem ok_of_perm {α : Type} {f : α → Except PyErr (V3 S × M3 S)} {ids ids' : List α} (h : ids.Perm ids') :
    ∀ {rs : List (V3 S × M3 S)}, ids.map f = rs.map .ok → ∃ rs' : List (V3 S × M3 S), rs.Perm rs' ∧ ids'.map f = rs'.map .ok := by
  induction h with
  | nil => intro rs h; exact ⟨rs, .refl _, h⟩
  | cons x _ ih =>
    intro rs h
    rcases rs with _ | ⟨r, rs⟩
    · cases h
    · simp only [List.map_cons, List.cons.injEq] at h
      obtain ⟨rs', h1, h2⟩ := ih h.2
      exact ⟨r :: rs', h1.cons r, by simp [h.1, h2]⟩
  | swap x y l =>
    intro rs h
    rcases rs with _ | ⟨r, _ | ⟨r', rs⟩⟩
    · cases h
    · simp at h
    · simp only [List.map_cons, List.cons.injEq] at h
      exact ⟨r' :: r :: rs, .swap _ _ _, by simp [h.1, h.2.1, h.2.2]⟩
  | trans _ _ ih1 ih2 =>
    intro rs h
    obtain ⟨rs1, h1, h2⟩ := ih1 h
    obtain ⟨rs2, h3, h4⟩ := ih2 h2
    exact ⟨rs2, h1.trans h3, h4⟩

/-- **C08.** In exact arithmetic, if `compute_gravity` returns for a list of bodies, it returns for any permutation of
the list, with the same station. -/
theorem C08_order_of_bodies (ids ids' : List Nat) (hperm : ids.Perm ids') (density Gc : ℝ) (gr : Bool)
    (s s' : Station ℝ) (w w' : World ℝ) (hw : w.Ready)
    (h : computeGravity (.list (ids.map .poly)) density Gc gr s w = (.ok (), s', w')) :
    ∃ w'', computeGravity (.list (ids'.map .poly)) density Gc gr s w = (.ok (), s', w'') := by
  have h0 := h
  simp only [computeGravity, polyIds_map] at h0
  obtain ⟨rs, hrs⟩ := stationLoop_returns ids hw.sound h0
  obtain ⟨rs', hp, hrs'⟩ := ok_of_perm hperm hrs
  obtain ⟨w1, h1, _⟩ := C06_station_accumulates density Gc gr ids s w hw rs hrs
  obtain ⟨w2, h2, _⟩ := C06_station_accumulates density Gc gr ids' s w hw rs' hrs'
  refine ⟨w2, ?_⟩
  rw [h] at h1
  rw [h2, ← accumulate_swap (fun a b : ℝ => add_comm a b) (fun a b c : ℝ => add_assoc a b c) hp s]
  cases h1
  rfl

section
attribute [local instance] toyArith

/-- the hypotheses of C06 hold for a list in which the same body occurs twice -/
example : ∃ rs : List (V3 Rat × M3 Rat), [0, 0].map (fun k => (Call.mk (⟨3, 5, 7⟩ : V3 Rat) 2 1 true).onNew ((World.new fun _ => Toy.poly).poly k))
    = rs.map .ok := by
  have : ((Call.mk (⟨3, 5, 7⟩ : V3 Rat) 2 1 true).onNew Toy.poly).isOk := by decide +kernel
  rcases h : (Call.mk (⟨3, 5, 7⟩ : V3 Rat) 2 1 true).onNew Toy.poly with e | r
  · rw [h] at this; cases this
  · exact ⟨[r, r], by simp [World.new, h]⟩
end

end Geec
