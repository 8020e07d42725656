import Verif.Lemmas.PreciseLine
import Verif.Props.EdgeLine
import Verif.Props.Accuracy
/-
C76: exact arithmetic is the limit of floating point at every station where no comparison is a tie.
-/
namespace Geec
open Filter Topology MeasureTheory
noncomputable section
variable {h : Hull ℝ} {inHull : V3 ℝ → Bool} {p : Poly ℝ} {s : V3 ℝ}

/-- **C76** The field: let no strict comparison be a tie at the station (it may be inside, outside or on the surface, in the plane of a face, on the line of an
edge, or in the thin tubes of C64 and C72).  If the program returns `G` in exact arithmetic, then for every `ε` there is an accuracy `u` such that with any
arithmetic accurate to `u` the program builds the polyhedron, raises nothing, and returns a vector within `ε` of `G`. -/
theorem C76_field (hh : h.IsHull) (hp : mkPoly h inHull = .ok p) (hs : h.Decided s) {ρ Gc : ℝ} {gr : Bool} {G : V3 ℝ} {T : M3 ℝ}
    (hv : Call.onNew p ⟨s, ρ, Gc, gr⟩ = .ok (G, T)) {ε : ℝ} (hε : 0 < ε) :
    ∃ u, 0 < u ∧ ∀ A : Arith ℝ, Accurate A u → ∃ p' G' T', @mkPoly ℝ A h inHull = .ok p' ∧ @Call.onNew ℝ A p' ⟨s, ρ, Gc, gr⟩ = .ok (G', T') ∧ NearV ε G' G := by
  have key : ∀ᶠ A : Setting in precise, ∃ p' G' T', (∀ inHull', @mkPoly ℝ A (h.moved A) inHull' = .ok p') ∧
      @Call.onNew ℝ A p' ⟨A.place s, A.weigh ρ, A.scale Gc, gr⟩ = .ok (G', T') ∧ NearV ε G' G := by
    rw [Filter.Eventually, Filter.mem_iff_ultrafilter]
    intro U hU
    obtain ⟨out, o1, o2, o3, -⟩ := onNew_ultra hh hp hs hU hv
    filter_upwards [(mkPoly_at hh hp).filter_mono hU, o2, (o1.1.eventually hε).filter_mono hU] with A k1 k2 k3
    refine ⟨polyAt A h p, (out A).1, (out A).2, k1, k2, ?_⟩
    rw [o3] at k3
    exact k3
  obtain ⟨u, hu, k⟩ := eventually_plain key
  refine ⟨u, hu, fun A hA => ?_⟩
  obtain ⟨p', G', T', k1, k2, k3⟩ := k A hA
  rw [Hull.moved_plain] at k1
  exact ⟨p', G', T', k1 inHull, k2, k3⟩

/-- **C76** The tensor: the same, if the station is on the line of no edge.  (C75 is the counterexample on the line of an edge.) -/
theorem C76_tensor (hh : h.IsHull) (hp : mkPoly h inHull = .ok p) (hs : h.Decided s) (ho : h.OffLines s) {ρ Gc : ℝ} {gr : Bool} {G : V3 ℝ} {T : M3 ℝ}
    (hv : Call.onNew p ⟨s, ρ, Gc, gr⟩ = .ok (G, T)) {ε : ℝ} (hε : 0 < ε) :
    ∃ u, 0 < u ∧ ∀ A : Arith ℝ, Accurate A u → ∃ p' G' T', @mkPoly ℝ A h inHull = .ok p' ∧ @Call.onNew ℝ A p' ⟨s, ρ, Gc, gr⟩ = .ok (G', T') ∧ NearV ε G' G ∧
      NearM ε T' T := by
  have key : ∀ᶠ A : Setting in precise, ∃ p' G' T', (∀ inHull', @mkPoly ℝ A (h.moved A) inHull' = .ok p') ∧
      @Call.onNew ℝ A p' ⟨A.place s, A.weigh ρ, A.scale Gc, gr⟩ = .ok (G', T') ∧ NearV ε G' G ∧ NearM ε T' T := by
    rw [Filter.Eventually, Filter.mem_iff_ultrafilter]
    intro U hU
    obtain ⟨out, o1, o2, o3, o4⟩ := onNew_ultra hh hp hs hU hv
    have o4 := o4 ho
    filter_upwards [(mkPoly_at hh hp).filter_mono hU, o2, (o1.1.eventually hε).filter_mono hU, (o1.2.1.eventually hε).filter_mono hU,
      (o1.2.2.1.eventually hε).filter_mono hU, (o1.2.2.2.eventually hε).filter_mono hU] with A k1 k2 k3 k4 k5 k6
    refine ⟨polyAt A h p, (out A).1, (out A).2, k1, k2, ?_⟩
    rw [o3] at k3
    rw [o4] at k4 k5 k6
    exact ⟨k3, k4, k5, k6⟩
  obtain ⟨u, hu, k⟩ := eventually_plain key
  refine ⟨u, hu, fun A hA => ?_⟩
  obtain ⟨p', G', T', k1, k2, k3⟩ := k A hA
  rw [Hull.moved_plain] at k1
  exact ⟨p', G', T', k1 inHull, k2, k3⟩

theorem Hull.Decided.ne_corner (hs : h.Decided s) : ∀ t ∈ h.simplices, ∀ i, Corner t i → h.pt i ≠ s := by
  intro t ht i hi h0
  have := hs.corners t ht i hi
  rw [h0] at this
  have z : vlen (s.sub s) = 0 := by unfold vlen; simp [rdot]
  rw [z] at this
  exact absurd this (not_lt.mpr repsilon_pos.le)

theorem vlen_near {ε : ℝ} {v w : V3 ℝ} (hn : NearV ε v w) (hε : 0 ≤ ε) : vlen (v.sub w) ≤ 2 * ε := by
  obtain ⟨h1, h2, h3⟩ := hn
  unfold vlen
  apply Real.sqrt_le_iff.mpr
  refine ⟨by linarith, ?_⟩
  have q : ∀ a : ℝ, |a| ≤ ε → a * a ≤ ε * ε := fun a ha => by
    rw [← abs_mul_abs_self]; exact mul_le_mul ha ha (abs_nonneg _) hε
  simp only [rdot, sub_x, sub_y, sub_z]
  nlinarith [q _ h1, q _ h2, q _ h3, mul_nonneg hε hε]

/-- **C76** with C72: the gravity that any sufficiently accurate arithmetic returns is within `ε` of the bound of C72 of Newton's law, also where the station is
not in regular position. -/
theorem C76_newton (hh : h.IsHull) (inHull : V3 ℝ → Bool) (hs : h.Decided s) {D : ℝ} (hD : h.Ordinary s D) (ρ Gc : ℝ) {ε : ℝ} (hε : 0 < ε) :
    ∃ u, 0 < u ∧ ∀ A : Arith ℝ, Accurate A u → ∃ p' G' T', @mkPoly ℝ A h inHull = .ok p' ∧ @Call.onNew ℝ A p' ⟨s, ρ, Gc, false⟩ = .ok (G', T') ∧
      vlen (@V3.sub ℝ realArith G' (@V3.smul ℝ realArith (100000 * Gc * ρ) (attraction h.body s))) ≤
        |100000 * Gc * ρ| * h.simplices.length * (2 * Real.pi * repsilon + 3 * tubeError D) + ε := by
  obtain ⟨p, hp⟩ := hull_mkPoly_ok hh inHull
  obtain ⟨G, T, hv⟩ := C22_total hh hp hs.ne_corner ρ Gc
  have hb := C72_error hh hp hD hv
  obtain ⟨u, hu, k⟩ := C76_field hh hp hs hv (half_pos hε)
  refine ⟨u, hu, fun A hA => ?_⟩
  obtain ⟨p', G', T', k1, k2, k3⟩ := k A hA
  refine ⟨p', G', T', k1, k2, ?_⟩
  have e : @V3.sub ℝ realArith G' (@V3.smul ℝ realArith (100000 * Gc * ρ) (attraction h.body s)) =
      @V3.add ℝ realArith (@V3.sub ℝ realArith G' G) (@V3.sub ℝ realArith G (@V3.smul ℝ realArith (100000 * Gc * ρ) (attraction h.body s))) := by
    refine V3.ext' ?_ ?_ ?_ <;> simp
  rw [e]
  refine (vlen_add_le _ _).trans ?_
  have := vlen_near k3 (half_pos hε).le
  linarith

/-- stations where C16 and C19 hold are decided, if they are not too close to a corner -/
theorem Hull.TensorRegular.decided (hh : h.IsHull) (hs : h.TensorRegular s) (hc : ∀ t ∈ h.simplices, ∀ i, Corner t i → repsilon < vlen ((h.pt i).sub s)) :
    h.Decided s := by
  refine ⟨hc, ?_, ?_⟩
  · intro t ht
    rcases hs.regular t ht with h0 | ⟨h1, -⟩
    · rw [h0, abs_zero]
      exact (mul_pos repsilon_pos (vlen_pos (triNormal_ne (hh.proper t ht)))).ne
    · exact h1.ne'
  · intro t ht i j hi hj hij
    refine (hs.clear t ht i j hi hj hij).ne_eps fun h0 => triNormal_ne (hh.proper t ht) ?_
    have hx := congrArg V3.x h0
    have hy := congrArg V3.y h0
    have hz := congrArg V3.z h0
    unfold triNormal
    rcases hi with rfl | rfl | rfl <;> rcases hj with rfl | rfl | rfl <;> first | exact absurd rfl hij | skip
    all_goals refine V3.ext' ?_ ?_ ?_ <;> simp [hx, hy, hz] <;> ring

/-! ### Concrete cases -/

theorem line_decided : tetra.Decided lineStation := by
  apply line_tensorRegular.decided tetra_isHull
  intro t ht i hi
  have h4 : i < 4 := tetra_isHull.cornerIndex t ht i hi
  have e3 : repsilon < 1 := by unfold repsilon; norm_num
  refine e3.trans_le ?_
  unfold vlen lineStation
  apply Real.le_sqrt_of_sq_le
  interval_cases i <;> simp only [rdot, sub_x, sub_y, sub_z, tetra_pt0, tetra_pt1, tetra_pt2, tetra_pt3] <;> norm_num

/-- C76: at the station of C75, where rounding makes the tensor wrong, the field is right -/
example {ε : ℝ} (hε : 0 < ε) : ∃ u, 0 < u ∧ ∀ A : Arith ℝ, Accurate A u → ∃ p G T, @mkPoly ℝ A tetra (fun _ => true) = .ok p ∧
    @Call.onNew ℝ A p ⟨⟨2, -1, 0⟩, 2670, 1, false⟩ = .ok (G, T) ∧ |G.z - 100000 * 1 * 2670 * (attraction tetra.body ⟨2, -1, 0⟩).z| ≤ ε := by
  obtain ⟨p, hp⟩ := hull_mkPoly_ok tetra_isHull (fun _ => true)
  obtain ⟨G, T, hv⟩ := C22_total tetra_isHull hp line_decided.ne_corner 2670 1
  obtain ⟨u, hu, k⟩ := C76_field tetra_isHull hp line_decided hv hε
  refine ⟨u, hu, fun A hA => ?_⟩
  obtain ⟨p', G', T', k1, k2, -, -, k3⟩ := k A hA
  refine ⟨p', G', T', k1, k2, ?_⟩
  rw [(C16_newton tetra_isHull hp line_tensorRegular.regular hv).1] at k3
  exact k3

theorem thin_decided : tetra.Decided thinStation := by
  have e1 : repsilon < 1 / 100000000000 := by unfold repsilon; norm_num
  have e0 := repsilon_pos
  refine ⟨?_, ?_, fun t ht i j hi hj hij => (thin_ordinary t ht i j hi hj hij).2.2⟩
  · intro t ht i hi
    have h4 : i < 4 := tetra_isHull.cornerIndex t ht i hi
    refine (e1.trans (by norm_num : (1 : ℝ) / 100000000000 < 1)).trans_le ?_
    unfold vlen thinStation
    apply Real.le_sqrt_of_sq_le
    interval_cases i <;> simp only [rdot, sub_x, sub_y, sub_z, tetra_pt0, tetra_pt1, tetra_pt2, tetra_pt3] <;> norm_num
  · intro t ht
    have key : ∀ (v : V3 ℝ) (x : ℝ), 1 ≤ rdot v v → rdot v v ≤ 4 → (x = 0 ∨ 1 / 1000000000 ≤ |x|) → |x| ≠ repsilon * vlen v := by
      intro v x h1 h2 h3 h4
      have l1 : 1 ≤ vlen v := by unfold vlen; apply Real.le_sqrt_of_sq_le; rw [one_pow]; exact h1
      have l2 : vlen v ≤ 2 := by unfold vlen; apply Real.sqrt_le_iff.mpr; norm_num; exact h2
      rcases h3 with rfl | h3
      · rw [abs_zero] at h4; nlinarith
      · nlinarith
    simp only [tetra, List.mem_cons, List.not_mem_nil, or_false] at ht
    apply key <;> rcases ht with rfl | rfl | rfl | rfl <;>
      simp only [tetra_pt0, tetra_pt1, tetra_pt2, tetra_pt3, rdot, cross_x, cross_y, cross_z, sub_x, sub_y, sub_z, thinStation] <;> norm_num

/-- C76, Newton: in the thin tube of C64 -/
example : ∃ u, 0 < u ∧ ∀ A : Arith ℝ, Accurate A u → ∃ p G T, @mkPoly ℝ A tetra (fun _ => true) = .ok p ∧ @Call.onNew ℝ A p ⟨thinStation, 2670, 1, false⟩ = .ok (G, T) ∧
    vlen (@V3.sub ℝ realArith G (@V3.smul ℝ realArith (100000 * 1 * 2670) (attraction tetra.body thinStation))) ≤
      |100000 * 1 * 2670| * 4 * (2 * Real.pi * repsilon + 3 * tubeError 1000000) + 1 / 1000 :=
  C76_newton tetra_isHull _ thin_decided thin_ordinary 2670 1 (by norm_num)

/-- C76, tensor: from (2,3,5) -/
example : ∃ p G T, mkPoly tetra (fun _ => true) = .ok p ∧ Call.onNew p ⟨⟨2, 3, 5⟩, 2670, 1, true⟩ = .ok (G, T) ∧ ∀ ε, 0 < ε → ∃ u, 0 < u ∧ ∀ A : Arith ℝ, Accurate A u →
    ∃ p' G' T', @mkPoly ℝ A tetra (fun _ => true) = .ok p' ∧ @Call.onNew ℝ A p' ⟨⟨2, 3, 5⟩, 2670, 1, true⟩ = .ok (G', T') ∧ NearV ε G' G ∧ NearM ε T' T := by
  obtain ⟨p, hp⟩ := hull_mkPoly_ok tetra_isHull (fun _ => true)
  obtain ⟨G, T, hv⟩ := C19_newton_returned tetra_isHull hp tetra_tensorRegular_out 2670 1
  have hd : tetra.Decided ⟨2, 3, 5⟩ := by
    apply tetra_tensorRegular_out.decided tetra_isHull
    intro t ht i hi
    have h4 : i < 4 := tetra_isHull.cornerIndex t ht i hi
    have e3 : repsilon < 1 := by unfold repsilon; norm_num
    refine e3.trans_le ?_
    unfold vlen
    apply Real.le_sqrt_of_sq_le
    interval_cases i <;> simp only [rdot, sub_x, sub_y, sub_z, tetra_pt0, tetra_pt1, tetra_pt2, tetra_pt3] <;> norm_num
  exact ⟨p, G, T, hp, hv, fun ε hε => C76_tensor tetra_isHull hp hd (fun t ht i j hi hj hij => (tetra_aside t ht i j hi hj hij).1) hv hε⟩

end
end Geec
