import Verif.Props.Edge
import Verif.Props.Gravity
/-
C13 for edges as the constructors make them, not for any edge whose attributes are assumed to fit together.
-/
namespace Geec
open Arith

/-- the integral over the segment from `a` to `b` of `L/|b-a|` divided by the distance to `s`, one component `c` of it -/
noncomputable def segInt (c : V3 ℝ → ℝ) (a b s : V3 ℝ) : ℝ :=
  ∫ t in (0 : ℝ)..vlen (b.sub a), (c ((b.sub a).sdiv (vlen (b.sub a))) / vlen ((a.add (V3.smul t ((b.sub a).sdiv (vlen (b.sub a))))).sub s))

/-- **C13** `Edge(points=[a, b], ...)` for two different points: at a station clear of the segment, `(P, Q, R)` is the integral from `a` to `b`. -/
theorem C13_constructed {a b : V3 ℝ} (hab : a ≠ b) (pair : Nat × Nat) (tf : Nat) {obs : V3 ℝ} (h : ClearOf a b obs) (gr : Bool) :
    ∃ d, edgeIntegral (mkEdge a b pair tf) obs gr = .ok (⟨segInt V3.x a b obs, segInt V3.y a b obs, segInt V3.z a b obs⟩, d) := by
  obtain ⟨P, Q, R, d, h1, h2, h3, h4⟩ := C13_line_integral (e := mkEdge a b pair tf) ⟨rfl, rfl, hab⟩ h gr
  refine ⟨d, ?_⟩
  rw [h1, h2, h3, h4]
  rfl

/-- **C13** Every edge of every polyhedron that `Polyhedron(points)` builds: it joins two different corners of its face, and at a station clear of it `(P, Q, R)`
is the integral from the one to the other. -/
theorem C13_hull {h : Hull ℝ} (hh : h.IsHull) {inHull : V3 ℝ → Bool} {p : Poly ℝ} (hp : mkPoly h inHull = .ok p) {i j : Nat} {e : Edge ℝ}
    (he : p.edgeAt i j = some e) : ∃ s, h.simplices[i]? = some s ∧ ∃ a b, Corner s a ∧ Corner s b ∧ h.pt a ≠ h.pt b ∧
      ∀ (obs : V3 ℝ) (gr : Bool), ClearOf (h.pt a) (h.pt b) obs →
        ∃ d, edgeIntegral e obs gr = .ok (⟨segInt V3.x (h.pt a) (h.pt b) obs, segInt V3.y (h.pt a) (h.pt b) obs, segInt V3.z (h.pt a) (h.pt b) obs⟩, d) := by
  obtain ⟨s, hs, ⟨a, ha, ha'⟩, ⟨b, hb, hb'⟩⟩ := edge_start_corner hh hp he
  have hpr := edge_proper hh hp he
  refine ⟨s, hs, a, b, ha, hb, ?_, ?_⟩
  · rw [← ha', ← hb']; exact hpr.ne
  · intro obs gr hc
    rw [← ha', ← hb'] at hc ⊢
    obtain ⟨P, Q, R, d, h1, h2, h3, h4⟩ := C13_line_integral hpr hc gr
    refine ⟨d, ?_⟩
    rw [h1, h2, h3, h4]
    rfl

-- from (0,0,0) to (1,0,0), seen from (0,1,0)
example : ∃ d, edgeIntegral (mkEdge (⟨0, 0, 0⟩ : V3 ℝ) ⟨1, 0, 0⟩ (0, 1) 3) ⟨0, 1, 0⟩ true =
    .ok (⟨segInt V3.x ⟨0, 0, 0⟩ ⟨1, 0, 0⟩ ⟨0, 1, 0⟩, segInt V3.y ⟨0, 0, 0⟩ ⟨1, 0, 0⟩ ⟨0, 1, 0⟩, segInt V3.z ⟨0, 0, 0⟩ ⟨1, 0, 0⟩ ⟨0, 1, 0⟩⟩, d) := by
  refine C13_constructed (by simp) _ _ (Or.inl ⟨?_, ?_⟩) true
  · intro h
    have := congrArg V3.z h
    simp [cross] at this
  · have h1 : vlen ((⟨0, 0, 0⟩ : V3 ℝ).sub ⟨0, 1, 0⟩) = 1 := by simp [vlen, rdot]
    have h2 : rdot ((⟨0, 0, 0⟩ : V3 ℝ).sub ⟨0, 1, 0⟩) ((⟨1, 0, 0⟩ : V3 ℝ).sub ⟨0, 0, 0⟩) = 0 := by simp [rdot]
    rw [h1, h2]
    have : repsilon < 1 := by unfold repsilon; norm_num
    linarith [zero_div (vlen ((⟨1, 0, 0⟩ : V3 ℝ).sub ⟨0, 0, 0⟩))]

end Geec
