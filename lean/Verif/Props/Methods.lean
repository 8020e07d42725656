import Verif.Model.Methods
import Verif.Props.Failure
/-
C70, C71: other public methods between gravity queries.
-/
namespace Geec
open Arith
variable {S : Type} [Arith S]
set_option linter.unusedSectionVars false

theorem within_edgesReset {p : Poly S} {i : Nat} (es : List (Edge S)) : ∀ (j : Nat) (m : Mem S), Within p m →
    Within p (edgesReset i j es m) := by
  induction es with
  | nil => intro j m h; exact h
  | cons e es ih =>
    intro j m h
    refine ih _ _ ⟨fun i' j' hn => ?_, h.face⟩
    simp only [edgeReset, Mem.setEdge]
    split
    · rfl
    · exact h.edge i' j' hn

theorem within_faceReset {p : Poly S} {i : Nat} (hi : i < p.faces.length) (f : Face S) {m : Mem S} (h : Within p m) : Within p (faceReset i f m) :=
  within_edgesReset _ _ _ (h.setFace hi _)

theorem within_method {p : Poly S} (ht : p.TwinsInside) (x : Method S) {m : Mem S} (h : Within p m) : Within p (x.run p m).2 := by
  cases x with
  | gravity obs ρ Gc gr =>
    show Within p (getGravity p obs ρ Gc gr m).2
    have h1 := within_polyFaces ht obs ρ Gc gr p.faces 0 V3.zeros M3.zeros (by simp) m h
    show Within p (Act.bind _ _ m).2
    unfold Act.bind
    rcases hh : polyFaces obs ρ Gc gr 0 p.faces V3.zeros M3.zeros m with ⟨_ | r', m1⟩ <;> rw [hh] at h1
    · exact h1
    · exact within_of_clean (clean_polyReset h1)
  | reset => exact within_of_clean (clean_polyReset h)
  | faceGravity i obs ρ Gc gr =>
    rcases hf : p.faces[i]? with _ | f <;> simp only [Method.run, hf]
    · exact h
    · exact within_faceGravity ht hf obs ρ Gc gr m h
  | faceReset i =>
    rcases hf : p.faces[i]? with _ | f <;> simp only [Method.run, hf]
    · exact h
    · exact within_faceReset (List.getElem?_eq_some_iff.mp hf).1 f h
  | edgeReset i j =>
    rcases hf : (p.faces[i]?).bind (fun f => f.edges[j]?) with _ | e <;> simp only [Method.run, hf]
    · exact h
    · obtain ⟨f, hf, he⟩ := Option.bind_eq_some_iff.mp hf
      exact h.setEdge ⟨f, e, hf, he⟩ _

theorem within_methods {p : Poly S} (ht : p.TwinsInside) (xs : List (Method S)) : ∀ m, Within p m → Within p (runMethods p xs m) := by
  induction xs with
  | nil => intro m h; exact h
  | cons x xs ih => intro m h; exact ih _ (within_method ht x h)

/-- **C70** `Polyhedron.reset` repairs an object: after any sequence of public method calls on the polyhedron, its faces
and its edges, whether they returned or raised, and one `reset`, a query gives exactly what it gives on a new
object.  In any arithmetic. -/
theorem C70_reset_repairs {h : Hull S} {inHull : V3 S → Bool} {p : Poly S} (hp : mkPoly h inHull = .ok p)
    (before : List (Method S)) (c : Call S) :
    (c.run p (Method.run p .reset (runMethods p before Mem.fresh)).2).1 = c.onNew p :=
  getGravity_of_clean (clean_polyReset (within_methods (mkPoly_inside hp) before _ (within_of_clean clean_fresh))) p _ _ _ _

/-- **C70**, for a whole session: whatever happened before the `reset`, the session after it is the one of a new object, as
long as its calls return. -/
theorem C70_session {h : Hull S} {inHull : V3 S → Bool} {p : Poly S} (hp : mkPoly h inHull = .ok p)
    (before : List (Method S)) (cs : List (Call S)) (hok : ∀ c ∈ cs, returned (c.onNew p)) :
    (runCalls p cs (Method.run p .reset (runMethods p before Mem.fresh)).2).1 = cs.map (Call.onNew p) := by
  have hc : Clean (Method.run p .reset (runMethods p before Mem.fresh)).2 :=
    clean_polyReset (within_methods (mkPoly_inside hp) before _ (within_of_clean clean_fresh))
  generalize (Method.run p .reset (runMethods p before Mem.fresh)).2 = m at hc
  induction cs generalizing m with
  | nil => rfl
  | cons c cs ih =>
    have h1 : (c.run p m).1 = c.onNew p := getGravity_of_clean hc p _ _ _ _
    have h2 : Clean (c.run p m).2 := by
      have := hok c (by simp)
      rw [← h1] at this
      rcases hx : (c.run p m).1 with e | v
      · rw [hx] at this; exact this.elim
      · exact clean_after (mkPoly_inside hp) hc _ _ _ _ hx
    simp only [runCalls, List.map_cons, h1, ih (fun c hc => hok c (by simp [hc])) _ h2]

/-- **C71** For every body: a query of its first face alone, without gradient, makes every later query of the body with
gradient raise, at every station. -/
theorem C71_poisoned {p : Poly S} {f : Face S} (hf : p.faces[0]? = some f) {obs : V3 S} {ρ Gc : S} {v : V3 S × M3 S}
    (hv : (Method.run p (.faceGravity 0 obs ρ Gc false) Mem.fresh).1 = .ok (some v)) (obs' : V3 S) (ρ' Gc' : S) :
    ∃ x, ((⟨obs', ρ', Gc', true⟩ : Call S).run p (Method.run p (.faceGravity 0 obs ρ Gc false) Mem.fresh).2).1 = .error x := by
  unfold Method.run at hv ⊢
  simp only [hf] at hv ⊢
  rcases hg : faceGravity 0 f obs ρ Gc false (Mem.fresh : Mem S) with ⟨e | v', m1⟩
  · rw [hg] at hv; cases hv
  · obtain ⟨hn, hc⟩ := faceGravity_cached ⟨fun _ _ => rfl, fun _ => rfl⟩ hg
    refine (poisoned_raises ⟨hn.2 0, fun f' hf' j hj => ⟨?_, hn.1 0 j⟩⟩ (fun h0 => by rw [h0] at hf; cases hf) obs' ρ' Gc').1
    rw [hf] at hf'
    cases hf'
    exact hc j hj

/-- the first face of a body gives an answer where the body does -/
theorem first_face_ok {p : Poly S} {f : Face S} (hf : p.faces[0]? = some f) {obs : V3 S} {ρ Gc : S} {gr : Bool} {v : V3 S × M3 S}
    (hv : Call.onNew p ⟨obs, ρ, Gc, gr⟩ = .ok v) : ∃ v', (Method.run p (.faceGravity 0 obs ρ Gc gr) Mem.fresh).1 = .ok (some v') := by
  unfold Method.run
  simp only [hf]
  unfold Call.onNew Call.run getGravity at hv
  rcases hfs : p.faces with _ | ⟨f', fs⟩
  · rw [hfs] at hf; cases hf
  · rw [hfs] at hf hv
    cases hf
    rcases hg : faceGravity 0 f obs ρ Gc gr (Mem.fresh : Mem S) with ⟨e | v', m1⟩
    · have : polyFaces obs ρ Gc gr 0 (f :: fs) V3.zeros M3.zeros (Mem.fresh : Mem S) = (.error e, m1) := by
        unfold polyFaces; exact bind_error' hg
      rw [bind_error' this] at hv
      cases hv
    · exact ⟨v', rfl⟩

/-- **C71** is false of the code, in exact arithmetic: a query of one face changes the answer of the body. -/
theorem C71_false : ∃ (h : Hull ℝ) (inHull : V3 ℝ → Bool) (p : Poly ℝ) (obs : V3 ℝ) (v : Option (V3 ℝ × M3 ℝ)) (w : V3 ℝ × M3 ℝ),
    h.IsHull ∧ mkPoly h inHull = .ok p ∧ (Method.run p (.faceGravity 0 obs 1 1 false) Mem.fresh).1 = .ok v ∧
    Call.onNew p ⟨obs, 1, 1, true⟩ = .ok w ∧
    ((⟨obs, 1, 1, true⟩ : Call ℝ).run p (Method.run p (.faceGravity 0 obs 1 1 false) Mem.fresh).2).1 ≠ .ok w := by
  obtain ⟨p, hp⟩ := hull_mkPoly_ok tetra_isHull (fun _ => true)
  obtain ⟨w, hw⟩ := onNew_ok_of_clear tetra_isHull hp (tetra_clear hp) 1 1 true
  obtain ⟨w', hw'⟩ := onNew_ok_of_clear tetra_isHull hp (tetra_clear hp) 1 1 false
  obtain ⟨hl, -⟩ := C24_counter_clockwise tetra_isHull hp
  have h0 : 0 < p.faces.length := by rw [hl]; decide
  have hf := List.getElem?_eq_getElem h0
  obtain ⟨v, hv⟩ := first_face_ok hf hw'
  refine ⟨tetra, _, p, ⟨2, 3, 5⟩, some v, w, tetra_isHull, hp, hv, hw, ?_⟩
  obtain ⟨x, hx⟩ := C71_poisoned hf hv ⟨2, 3, 5⟩ 1 1
  rw [hx]
  intro h; cases h

/-- **C71**, what holds: queries of single faces do no harm if `Polyhedron.reset` follows. -/
theorem C71_partial {h : Hull S} {inHull : V3 S → Bool} {p : Poly S} (hp : mkPoly h inHull = .ok p) (faces : List (Nat × Call S)) (c : Call S) :
    (c.run p (Method.run p .reset (runMethods p (faces.map fun q => .faceGravity q.1 q.2.obs q.2.density q.2.Gc q.2.gradient) Mem.fresh)).2).1 =
      c.onNew p := C70_reset_repairs hp _ c

section
attribute [local instance] toyArith

/-- a session with a failed query (station on a vertex), a query of a face, resets of a face and of an edge -/
example : ((Method.run Toy.poly (.gravity ⟨0, 0, 1⟩ 1 1 false) (Mem.fresh : Mem Rat)).1.isOk) = false := by decide +kernel
example : Call.run Toy.poly (Method.run Toy.poly .reset (runMethods Toy.poly
    [.gravity ⟨0, 0, 1⟩ 1 1 false, .faceGravity 1 ⟨3, 5, 7⟩ 1 1 true, .faceReset 2, .edgeReset 0 1] Mem.fresh)).2
      ⟨⟨3, 5, 7⟩, 2, 1, true⟩ |>.1.isOk := by decide +kernel
/-- without the `reset` the session ends with an exception -/
example : (Call.run Toy.poly (runMethods Toy.poly
    [.gravity ⟨0, 0, 1⟩ 1 1 false] Mem.fresh) ⟨⟨3, 5, 7⟩, 2, 1, true⟩).1.isOk = false := by decide +kernel
/-- a second query of the same face adds its edges again and gives another answer, without an exception -/
example : ((Method.run Toy.poly (.faceGravity 0 ⟨3, 5, 7⟩ 1 1 false) (Mem.fresh : Mem Rat)).1.toOption.bind id |>.map (·.1.x)) ≠
    ((Method.run Toy.poly (.faceGravity 0 ⟨3, 5, 7⟩ 1 1 false)
      (Method.run Toy.poly (.faceGravity 0 ⟨3, 5, 7⟩ 1 1 false) (Mem.fresh : Mem Rat)).2).1.toOption.bind id |>.map (·.1.x)) := by
  decide +kernel
end

end Geec
