import Verif.Lemmas.Reset
import Verif.Spec.Toy
/-
C01, C02: histories of `get_gravity` calls on one object.
-/
namespace Geec
open Arith
variable {S : Type} [Arith S]

theorem runCalls_clean {p : Poly S} (ht : p.TwinsInside) (cs : List (Call S)) : ∀ m : Mem S, Clean m →
    (∀ r ∈ (runCalls p cs m).1, returned r) →
    (runCalls p cs m).1 = cs.map (Call.onNew p) ∧ Clean (runCalls p cs m).2 := by
  induction cs with
  | nil => intro m hm _; exact ⟨rfl, hm⟩
  | cons c cs ih =>
    intro m hm hr
    have h1 : (c.run p m).1 = c.onNew p := getGravity_of_clean hm p _ _ _ _
    have h2 : Clean (c.run p m).2 := by
      have := hr (c.run p m).1 (by simp [runCalls])
      rcases hx : (c.run p m).1 with e | v
      · rw [hx] at this; exact this.elim
      · exact clean_after ht hm _ _ _ _ hx
    obtain ⟨h3, h4⟩ := ih _ h2 (fun r h => hr r (by simp only [runCalls, List.mem_cons]; exact Or.inr h))
    exact ⟨by simp only [runCalls, List.map_cons, h1, h3], h4⟩

/-- **C01.** Let `p` be any polyhedron built by the constructor.  After any list of calls that returned, the next
call gives exactly what it gives on a newly constructed object (the same value, or the same exception), whatever the
arithmetic. -/
theorem C01_history_independence {h : Hull S} {inHull : V3 S → Bool} {p : Poly S}
    (hp : mkPoly h inHull = .ok p) (before : List (Call S)) (c : Call S)
    (hok : ∀ r ∈ (runCalls p before Mem.fresh).1, returned r) :
    (c.run p (runCalls p before Mem.fresh).2).1 = c.onNew p :=
  getGravity_of_clean (runCalls_clean (mkPoly_inside hp) before _ clean_fresh hok).2 p _ _ _ _

/-- **C01**, for all answers at once: if every call of a sequence returns on a new object, then the sequence on one
object returns exactly these answers. -/
theorem C01_all_answers {h : Hull S} {inHull : V3 S → Bool} {p : Poly S}
    (hp : mkPoly h inHull = .ok p) (cs : List (Call S)) (hok : ∀ c ∈ cs, returned (c.onNew p)) :
    (runCalls p cs Mem.fresh).1 = cs.map (Call.onNew p) := by
  have key : ∀ (cs : List (Call S)) (m : Mem S), Clean m → (∀ c ∈ cs, returned (c.onNew p)) →
      (runCalls p cs m).1 = cs.map (Call.onNew p) := by
    intro cs
    induction cs with
    | nil => intro m _ _; rfl
    | cons c cs ih =>
      intro m hm hok
      have h1 : (c.run p m).1 = c.onNew p := getGravity_of_clean hm p _ _ _ _
      have h2 : Clean (c.run p m).2 := by
        have := hok c (by simp)
        rw [← h1] at this
        rcases hx : (c.run p m).1 with e | v
        · rw [hx] at this; exact this.elim
        · exact clean_after (mkPoly_inside hp) hm _ _ _ _ hx
      simp only [runCalls, List.map_cons, h1, ih _ h2 (fun c hc => hok c (by simp [hc]))]
  exact key cs _ clean_fresh hok

section
attribute [local instance] toyArith

/-- the hypotheses of C01 hold for a tetrahedron and two calls with different stations, densities and flags -/
example : mkPoly Toy.hull (fun _ => true) = .ok Toy.poly := by
  have : (mkPoly Toy.hull (fun _ => true)).isOk = true := by decide +kernel
  unfold Toy.poly
  cases h : mkPoly Toy.hull (fun _ => true) with
  | error e => rw [h] at this; cases this
  | ok p => rfl
example : ((runCalls Toy.poly Toy.calls Mem.fresh).1.map (·.isOk)) = [true, true] := by decide +kernel
end

end Geec
