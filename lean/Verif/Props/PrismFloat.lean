import Verif.Props.Prism
import Verif.Props.AnyHull
import Verif.Props.Limit
/-
C116 in floating point.
-/
namespace Geec
open Arith MeasureTheory Metric Set Filter Topology
noncomputable section

variable {pts : List (V3 ℝ)} {x1 x2 y1 y2 z1 z2 : ℝ}

/-- no other point of a block with corner `a` is as far in the direction that points out of the block at `a` -/
theorem exposed_axis {u1 u2 a : ℝ} (hu : u1 < u2) (ha : a ∈ [u1, u2]) : ∃ n : ℝ, ∀ b, u1 ≤ b → b ≤ u2 → n * b ≤ n * a ∧ (n * b = n * a → b = a) := by
  simp only [List.mem_cons, List.not_mem_nil, or_false] at ha
  rcases ha with rfl | rfl
  · exact ⟨-1, fun b h1 h2 => ⟨by linarith, fun h => by linarith⟩⟩
  · exact ⟨1, fun b h1 h2 => ⟨by linarith, fun h => by linarith⟩⟩

/-- corners that are given once, and points inside, are firm -/
theorem SpansBlock.firm (hb : SpansBlock pts x1 x2 y1 y2 z1 z2) (hn : pts.Nodup)
    (hc : ∀ p ∈ pts, (p.x ∈ [x1, x2] ∧ p.y ∈ [y1, y2] ∧ p.z ∈ [z1, z2]) ∨
      (x1 < p.x ∧ p.x < x2 ∧ y1 < p.y ∧ p.y < y2 ∧ z1 < p.z ∧ p.z < z2)) : Firm pts where
  solid := ⟨((x1 + x2) / 2, (y1 + y2) / 2, (z1 + z2) / 2), hb.interior
    ⟨⟨by linarith [hb.hx], by linarith [hb.hx]⟩, ⟨by linarith [hb.hy], by linarith [hb.hy]⟩, ⟨by linarith [hb.hz], by linarith [hb.hz]⟩⟩⟩
  corner := by
    intro i hi
    have ei : at3 pts i = pts[i] := by unfold at3; rw [List.getD_eq_getElem?_getD, List.getElem?_eq_getElem hi]; rfl
    rcases hc _ (List.getElem_mem hi) with ⟨h1, h2, h3⟩ | ⟨h1, h2, h3, h4, h5, h6⟩
    · right
      obtain ⟨n1, k1⟩ := exposed_axis hb.hx h1
      obtain ⟨n2, k2⟩ := exposed_axis hb.hy h2
      obtain ⟨n3, k3⟩ := exposed_axis hb.hz h3
      refine ⟨⟨n1, n2, n3⟩, fun l hl hne => ?_⟩
      have el : at3 pts l = pts[l] := by unfold at3; rw [List.getD_eq_getElem?_getD, List.getElem?_eq_getElem hl]; rfl
      rw [ei, el]
      obtain ⟨a1, a2, a3, a4, a5, a6⟩ := hb.inside _ (List.getElem_mem hl)
      obtain ⟨m1, e1⟩ := k1 _ a1 a2
      obtain ⟨m2, e2⟩ := k2 _ a3 a4
      obtain ⟨m3, e3⟩ := k3 _ a5 a6
      simp only [rdot]
      refine lt_of_le_of_ne (by linarith) fun h => hne ?_
      have : pts[l] = pts[i] := V3.ext' (e1 (by linarith)) (e2 (by linarith)) (e3 (by linarith))
      exact (hn.getElem_inj_iff).mp this
    · left
      rw [ei]
      exact hb.interior ⟨⟨h1, h2⟩, ⟨h3, h4⟩, ⟨h5, h6⟩⟩

/-- off the six planes no comparison is a tie -/
theorem SeesBlock.decided (hb : SpansBlock pts x1 x2 y1 y2 z1 z2) {s : V3 ℝ} {D : ℝ} (hs : SeesBlock pts x1 x2 y1 y2 z1 z2 D s) (hx : s.x ∉ [x1, x2])
    (hy : s.y ∉ [y1, y2]) (hz : s.z ∉ [z1, z2]) (h : Hull ℝ) (hpts : h.points = pts) (hh : h.IsHull) : h.Decided s := by
  obtain ⟨hc, hoff⟩ := SeesBlock.clear hb hpts hh hs hx hy hz
  refine Hull.TensorRegular.decided hh ⟨SeesBlock.regular hb hpts hh hs, hc, hoff⟩ fun t ht i hi => ?_
  have key : ∀ {n : V3 ℝ} {c : ℝ}, rdot n n = 1 → rdot n (h.pt i) = c → repsilon < |rdot n s - c| → repsilon < vlen ((h.pt i).sub s) := by
    intro n c hn h1 h2
    have h3 : rdot n s - c = -rdot n ((h.pt i).sub s) := by rw [rdot_sub, h1]; ring
    rw [h3, abs_neg] at h2
    have h4 := abs_rdot_le n ((h.pt i).sub s)
    have h5 : vlen n = 1 := by unfold vlen; rw [hn, Real.sqrt_one]
    rw [h5, one_mul] at h4
    linarith
  obtain ⟨n, c, hn, hpl, hap, k | k | k | k⟩ := SeesBlock.plane hb hpts hh hs ht
  · exact absurd (k.1 ▸ k.2) hx
  · exact absurd (k.1 ▸ k.2) hy
  · exact absurd (k.1 ▸ k.2) hz
  · exact key hn (hpl i hi) (hap.resolve_left k).1

/-- **C116** The prism formula and floating point: a block given by its corners (each once) and points inside it, in any order; the points, the station, the density and the
constant are rounded with the unit roundoff `δ ≤ 1 / K`, the hull library triangulates the rounded points in any way, all operations are rounded.  The
polyhedron is built, and what the query returns is within `K δ` of the formula of Nagy. -/
theorem C116_float (hb : SpansBlock pts x1 x2 y1 y2 z1 z2) (hn : pts.Nodup)
    (hc : ∀ p ∈ pts, (p.x ∈ [x1, x2] ∧ p.y ∈ [y1, y2] ∧ p.z ∈ [z1, z2]) ∨ (x1 < p.x ∧ p.x < x2 ∧ y1 < p.y ∧ p.y < y2 ∧ z1 < p.z ∧ p.z < z2))
    {s : V3 ℝ} {D : ℝ} (hs : SeesBlock pts x1 x2 y1 y2 z1 z2 D s) (hd : ∀ h : Hull ℝ, h.points = pts → h.IsHull → h.Decided s) (ρ Gc : ℝ) :
    ∃ K, 0 < K ∧ ∀ (rnd : ℝ → ℝ) (δ : ℝ), 0 < δ → δ ≤ 1 / K → (∀ a, |a| ≤ K → |rnd a - a| ≤ δ * max 1 |a|) → ∀ (h' : Hull ℝ) (inHull' : V3 ℝ → Bool),
      h'.points = pts.map (V3.rounded rnd) → h'.IsHull → h'.Tidy → ∃ p' G' T',
      @mkPoly ℝ (roundArith rnd) h' inHull' = .ok p' ∧
      @Call.onNew ℝ (roundArith rnd) p' ⟨s.rounded rnd, rnd ρ, rnd Gc, false⟩ = .ok (G', T') ∧
      |G'.x - 100000 * Gc * ρ * (nagyField x1 x2 y1 y2 z1 z2 s).x| ≤ K * δ ∧ |G'.y - 100000 * Gc * ρ * (nagyField x1 x2 y1 y2 z1 z2 s).y| ≤ K * δ ∧
      |G'.z - 100000 * Gc * ρ * (nagyField x1 x2 y1 y2 z1 z2 s).z| ≤ K * δ := by
  have e : attraction (convexHull ℝ {q | ∃ p ∈ pts, q = p.toP}) s = nagyField x1 x2 y1 y2 z1 z2 s := by
    change attraction (solidOf pts) s = _
    rw [hb.solid, block_attraction hb.hx.le hb.hy.le hb.hz.le]
    rfl
  have := C103_newton (hb.firm hn hc) (s := s) (fun h e hh => ⟨hd h e hh, SeesBlock.regular hb e hh hs⟩) ρ Gc
  rwa [e] at this

/-! ### The cube of the tests in floating point -/

theorem testCube_decided (h : Hull ℝ) (e : h.points = testCube) (hh : h.IsHull) : h.Decided testStation := by
  refine Hull.TensorRegular.decided hh ⟨SeesBlock.regular testCube_spans e hh testCube_seen, testCube_clear e hh, fun hf => ?_⟩ fun t ht i hi => ?_
  · have h1 := h.body_compact.isClosed.frontier_subset hf
    have hbody : h.body = block (-1/2) (1/2) (-1/2) (1/2) (-1) 0 := by rw [← testCube_spans.solid, ← e]; rfl
    rw [hbody] at h1
    have h2 : (-1/2 : ℝ) ≤ -21/20 := h1.1.1
    norm_num at h2
  · have e3 : repsilon < 1 / 4 := by unfold repsilon; norm_num
    refine e3.trans_le (Real.le_sqrt_of_sq_le ?_)
    have hm : h.pt i ∈ testCube := e ▸ Hull.pt_mem (hh.cornerIndex t ht i hi)
    obtain ⟨a1, -⟩ := testCube_spans.inside _ hm
    simp only [rdot, sub_x, sub_y, sub_z, testStation]
    nlinarith [mul_self_nonneg ((h.pt i).y - -21/20), mul_self_nonneg ((h.pt i).z - 0)]

/-- C116: the cube and the station of the tests: in a precise enough arithmetic the answer is as near as one wishes to the formula of Nagy -/
example : ∃ K, 0 < K ∧ ∀ (rnd : ℝ → ℝ) (δ : ℝ), 0 < δ → δ ≤ 1 / K → (∀ a, |a| ≤ K → |rnd a - a| ≤ δ * max 1 |a|) → ∀ (h' : Hull ℝ) (inHull' : V3 ℝ → Bool),
    h'.points = testCube.map (V3.rounded rnd) → h'.IsHull → h'.Tidy → ∃ p' G' T',
    @mkPoly ℝ (roundArith rnd) h' inHull' = .ok p' ∧
    @Call.onNew ℝ (roundArith rnd) p' ⟨testStation.rounded rnd, rnd 1000, rnd (667408 / 10 ^ 16), false⟩ = .ok (G', T') ∧
    |G'.z - 100000 * (667408 / 10 ^ 16) * 1000 * (nagyField (-1/2) (1/2) (-1/2) (1/2) (-1) 0 testStation).z| ≤ K * δ := by
  obtain ⟨K, hK, k⟩ := C116_float testCube_spans (by simp [testCube]; norm_num) (fun p hp => .inl (by
    simp only [testCube, List.mem_cons, List.not_mem_nil, or_false] at hp
    rcases hp with rfl | rfl | rfl | rfl | rfl | rfl | rfl | rfl <;> simp)) testCube_seen testCube_decided 1000 (667408 / 10 ^ 16)
  refine ⟨K, hK, fun rnd δ h1 h2 h3 h' inHull' e hh ht => ?_⟩
  obtain ⟨p', G', T', k1, k2, -, -, k3⟩ := k rnd δ h1 h2 h3 h' inHull' e hh ht
  exact ⟨p', G', T', k1, k2, k3⟩

end
end Geec
