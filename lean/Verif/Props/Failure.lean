import Verif.Lemmas.Poison
import Verif.Props.Edge
import Verif.Props.History
/-
C02: what a query that raises leaves behind.
-/
namespace Geec
open Arith

theorem inv_fresh {S : Type} [Arith S] (p : Poly S) (obs : V3 S) (gr : Bool) : Inv p obs gr (Upto 0 0) none none (Mem.fresh : Mem S) := by
  refine ⟨?_, ?_, ?_, ?_, ?_, ?_, ?_, ?_, ?_, ?_⟩
  · intro k l e k' l' e' _ _ _ _ h; simp [Upto] at h
  · intros; rfl
  all_goals first
    | (intro k l e k2 l2 e2 a _ _ _ _ h; cases h; done)
    | (intro k l e a _ _ h; cases h; done)
    | (intro a h; cases h; done)

noncomputable section

/-- a query returns at every station clear of the edges, with or without gradient -/
theorem onNew_ok_of_clear {h : Hull ℝ} (hh : h.IsHull) {inHull : V3 ℝ → Bool} {p : Poly ℝ} (hp : mkPoly h inHull = .ok p)
    {obs : V3 ℝ} (hc : p.ClearEdges obs) (ρ Gc : ℝ) (gr : Bool) : ∃ v, Call.onNew p ⟨obs, ρ, Gc, gr⟩ = .ok v := by
  rw [onNew_closed (wellTwinned_of_hull hh hp)]
  apply facesValue_ok
  intro k f hk
  rw [Nat.zero_add]
  obtain ⟨w, hw'⟩ := omegaValue_ok f obs gr
  obtain ⟨vs, hvs, hl⟩ := edgesValue_ok (p := p) (obs := obs) (gr := gr) (i := k) (es := f.edges) (by
    intro e he
    obtain ⟨j, hj⟩ := List.getElem?_of_mem he
    have hE : p.edgeAt k j = some e := by unfold Poly.edgeAt; rw [hk]; exact hj
    obtain ⟨v, -, d, -, hv⟩ := C14_twin_value hh hp hE (hc k j e hE).1 (hc k j e hE).2 gr
    exact ⟨_, hv⟩)
  obtain ⟨-, -, -, -, -, e0, e1, e2, hE, -⟩ := edges_of_hull hh hp hk
  rw [hE] at hl
  unfold faceValue
  rw [hw', hvs]
  rcases vs with _ | ⟨v, vs⟩
  · cases hl
  · exact ⟨_, rfl⟩

/-- **C02, refuted in general.** For every body: a query without gradient at a corner that is not a corner of the
first face raises, and from then on every query with gradient raises, whatever the station, and however often it is
repeated - also where a new object would return a value. -/
theorem C02_poisoned {h : Hull ℝ} (hh : h.IsHull) {inHull : V3 ℝ → Bool} {p : Poly ℝ} (hp : mkPoly h inHull = .ok p)
    {s0 s : Nat × Nat × Nat} (hs0 : h.simplices[0]? = some s0) (hs : s ∈ h.simplices) {v : Nat} (hv : Corner s v)
    (hv0 : ∀ i, Corner s0 i → h.pt i ≠ h.pt v) (ρ Gc : ℝ) :
    (Call.run p Mem.fresh ⟨h.pt v, ρ, Gc, false⟩).1 = .error .zeroDivisionError ∧
    ∀ calls : List (Call ℝ), (∀ c ∈ calls, c.gradient = true) →
      ∀ r ∈ (runCalls p calls (Call.run p Mem.fresh ⟨h.pt v, ρ, Gc, false⟩).2).1, ∃ x, r = .error x := by
  have hw := wellTwinned_of_hull hh hp
  have hraise := C21_corner hh hp hs hv ρ Gc false
  refine ⟨hraise, ?_⟩
  obtain ⟨hlen, -⟩ := C24_counter_clockwise hh hp
  have h0 : 0 < p.faces.length := by rw [hlen]; exact (List.getElem?_eq_some_iff.mp hs0).1
  have hne : p.faces ≠ [] := List.ne_nil_of_length_pos h0
  have hpois : Poisoned p (Call.run p Mem.fresh ⟨h.pt v, ρ, Gc, false⟩).2 := by
    apply poisoned_of_raise (x := .zeroDivisionError) (obs := h.pt v) (ρ := ρ) (Gc := Gc)
    · exact Prod.ext hraise rfl
    · intro f hf
      have hcl := faceGravity_closed (obs := h.pt v) (gr := false) hw hf ρ Gc (inv_fresh p (h.pt v) false) rfl rfl
      have hval : ∃ r, faceValue p (h.pt v) ρ Gc false 0 f = .ok r := by
        obtain ⟨w, hw'⟩ := omegaValue_ok f (h.pt v) false
        obtain ⟨vs, hvs, hl⟩ := edgesValue_ok (p := p) (obs := h.pt v) (gr := false) (i := 0) (es := f.edges) (by
          intro e he
          obtain ⟨j, hj⟩ := List.getElem?_of_mem he
          have hE : p.edgeAt 0 j = some e := by unfold Poly.edgeAt; rw [hf]; exact hj
          obtain ⟨i', j', e', ht, -⟩ := hw 0 j e hE
          unfold edgeValue
          rw [ht]
          simp only [Nat.not_lt_zero, if_false]
          apply edgeIntegral_ok
          obtain ⟨s', hs', ⟨a, ha, hst⟩, -⟩ := edge_start_corner hh hp hE
          rw [hs0] at hs'
          cases hs'
          rw [hst]
          exact hv0 a ha)
        obtain ⟨-, -, -, -, -, e0, e1, e2, hE, -⟩ := edges_of_hull hh hp hf
        rw [hE] at hl
        unfold faceValue
        rw [hw', hvs]
        rcases vs with _ | ⟨v, vs⟩
        · cases hl
        · exact ⟨_, rfl⟩
      obtain ⟨r, hr⟩ := hval
      rw [hr] at hcl
      obtain ⟨m1, h1, -⟩ := hcl
      exact ⟨r, m1, h1⟩
  intro calls
  generalize (Call.run p Mem.fresh ⟨h.pt v, ρ, Gc, false⟩).2 = m at hpois
  induction calls generalizing m with
  | nil => intro _ r hr; cases hr
  | cons c cs ih =>
    intro hg r hr
    have hc := hg c (by simp)
    have hpr := poisoned_raises hpois hne c.obs c.density c.Gc
    have hrun : c.run p m = getGravity p c.obs c.density c.Gc true m := by unfold Call.run; rw [hc]
    simp only [runCalls, List.mem_cons] at hr
    rcases hr with rfl | hr
    · rw [hrun]; exact hpr.1
    · rw [hrun] at hr
      exact ih _ hpr.2 (fun c hc => hg c (by simp [hc])) r hr

/-- the station (2, 3, 5) is clear of the unit tetrahedron -/
theorem tetra_clear {p : Poly ℝ} (hp : mkPoly tetra (fun _ => true) = .ok p) : p.ClearEdges ⟨2, 3, 5⟩ := by
  have key : ∀ a b, a < 4 → b < 4 → tetra.pt a ≠ tetra.pt b → ClearOf (tetra.pt a) (tetra.pt b) ⟨2, 3, 5⟩ := by
    intro a b ha hb hne
    apply clearOf_aside
    have h3 : repsilon ≤ 1 / 100 := by unfold repsilon; norm_num
    have h0 : (0 : ℝ) < repsilon := by unfold repsilon; positivity
    have h1 : vlen ((tetra.pt a).sub ⟨2, 3, 5⟩) ≤ 10 := by
      unfold vlen
      rw [Real.sqrt_le_left (by norm_num)]
      interval_cases a <;> simp [rdot, tetra_pt0, tetra_pt1, tetra_pt2, tetra_pt3] <;> norm_num
    have h2 := vlen_nonneg ((tetra.pt a).sub ⟨2, 3, 5⟩)
    have h4 : 2 * repsilon * vlen ((tetra.pt a).sub ⟨2, 3, 5⟩) ≤ 1 / 5 := by nlinarith
    generalize vlen ((tetra.pt a).sub ⟨2, 3, 5⟩) = w at *
    interval_cases a <;> interval_cases b <;>
      first
        | exact absurd rfl hne
        | (simp only [rdot, cross_x, cross_y, cross_z, sub_x, sub_y, sub_z, tetra_pt0, tetra_pt1, tetra_pt2, tetra_pt3]; nlinarith)
  intro i j e he
  have hprop := edge_proper tetra_isHull hp he
  obtain ⟨s, hs, ⟨a, ha, hst⟩, b, hb, hfi⟩ := edge_start_corner tetra_isHull hp he
  have hs' := List.mem_of_getElem? hs
  have hal : a < 4 := tetra_isHull.cornerIndex s hs' a ha
  have hbl : b < 4 := tetra_isHull.cornerIndex s hs' b hb
  have hne := hprop.ne
  rw [hst, hfi] at hne ⊢
  exact ⟨key a b hal hbl hne, key b a hbl hal hne.symm⟩

/-- **C02 is false of the code**: a body, a query that raises, and a later query that raises although it returns a
value on a new object. -/
theorem C02_false : ∃ (h : Hull ℝ) (inHull : V3 ℝ → Bool) (p : Poly ℝ) (c1 c2 : Call ℝ) (v : V3 ℝ × M3 ℝ),
    h.IsHull ∧ mkPoly h inHull = .ok p ∧ (∃ x, (c1.run p Mem.fresh).1 = .error x) ∧
    c2.onNew p = .ok v ∧ ∃ x, (c2.run p (c1.run p Mem.fresh).2).1 = .error x := by
  obtain ⟨p, hp⟩ := hull_mkPoly_ok tetra_isHull (fun _ => true)
  obtain ⟨v, hv⟩ := onNew_ok_of_clear tetra_isHull hp (tetra_clear hp) 1 1 true
  have hpo := C02_poisoned tetra_isHull hp (s0 := (0, 1, 2)) (s := (0, 1, 3)) rfl (by simp [tetra]) (v := 3) (.inr (.inr rfl)) (by
    intro i hi
    rcases hi with rfl | rfl | rfl
    · intro h; have := congrArg V3.z h; exact zero_ne_one this
    · intro h; have := congrArg V3.z h; exact zero_ne_one this
    · intro h; have := congrArg V3.z h; exact zero_ne_one this) 1 1
  refine ⟨tetra, _, p, ⟨tetra.pt 3, 1, 1, false⟩, ⟨⟨2, 3, 5⟩, 1, 1, true⟩, v, tetra_isHull, hp, ⟨_, hpo.1⟩, hv, ?_⟩
  exact hpo.2 [⟨⟨2, 3, 5⟩, 1, 1, true⟩] (by simp) _ (by simp [runCalls])

end

/-- **C02**, the part that holds: the statement for histories in which no call raises.
Missing: histories with calls that raise, for which it is false (`C02_false`). -/
theorem C02_partial {S : Type} [Arith S] {h : Hull S} {inHull : V3 S → Bool} {p : Poly S} (hp : mkPoly h inHull = .ok p)
    (before : List (Call S)) (c : Call S) (hok : ∀ r ∈ (runCalls p before Mem.fresh).1, returned r) :
    (c.run p (runCalls p before Mem.fresh).2).1 = c.onNew p := C01_history_independence hp before c hok

end Geec
