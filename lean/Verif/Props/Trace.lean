import Verif.Lemmas.BallAngle
import Verif.Props.Tensor
/-
C20, C49: the trace of the tensor.
-/
namespace Geec
open Arith MeasureTheory
noncomputable section
variable {h : Hull ℝ} {inHull : V3 ℝ → Bool} {p : Poly ℝ}

/-- the sum of the diagonal elements -/
def M3.trace (m : M3 ℝ) : ℝ := m.r0.x + m.r1.y + m.r2.z

/-- the trace of the tensor of a face is its solid angle -/
theorem faceSlope_trace {f : Face ℝ} (hn : IsNormal f.un f.pa f.pb f.pc) {s : V3 ℝ} (h0 : rdot f.un (f.pa.sub s) ≠ 0) :
    faceSlope f s ⟨1, 0, 0⟩ ⟨1, 0, 0⟩ + faceSlope f s ⟨0, 1, 0⟩ ⟨0, 1, 0⟩ + faceSlope f s ⟨0, 0, 1⟩ ⟨0, 0, 1⟩ =
      -solidAngle f.un f.pa f.pb f.pc s := by
  have hD : det3 (f.pa.sub s) (f.pb.sub s) (f.pc.sub s) ≠ 0 := by rw [hn.det s]; exact mul_ne_zero hn.area_pos.ne' h0
  have ht := faceH_trace hD
  have hx := faceW_normal_form hn h0 ⟨1, 0, 0⟩
  have hy := faceW_normal_form hn h0 ⟨0, 1, 0⟩
  have hz := faceW_normal_form hn h0 ⟨0, 0, 1⟩
  change _ = _ + rdot (cross f.un (loopJ f.pa f.pb f.pc s)) _ at hx hy hz
  have hu := hn.unit
  unfold faceSlope
  generalize loopJ f.pa f.pb f.pc s = J at *
  generalize vlen (cross (f.pb.sub f.pa) (f.pc.sub f.pa)) = A at *
  generalize rdot f.un (f.pa.sub s) = H at *
  simp only [rdot, mul_one, mul_zero, add_zero, zero_add, cross_x, cross_y, cross_z] at hx hy hz hu ⊢
  linear_combination A * H * ht - f.un.x * hx - f.un.y * hy - f.un.z * hz - solidAngle f.un f.pa f.pb f.pc s * hu

theorem faceValue_trace (hh : h.IsHull) (hp : mkPoly h inHull = .ok p) {k : Nat} {f : Face ℝ} (hf : p.faces[k]? = some f) {s : V3 ℝ}
    (hs : h.Regular s) (ρ Gc : ℝ) {g : V3 ℝ × M3 ℝ} (hg : faceValue p s ρ Gc true k f = .ok g) :
    g.2.trace = -(1000000000 * Gc * ρ) * solidAngle f.un f.pa f.pb f.pc s := by
  obtain ⟨t, -, hpts, -, hn, -, -⟩ := face_facts hh hp hf
  by_cases h0 : rdot f.un (f.pa.sub s) = 0
  · rw [solidAngle_edge_on hn h0]
    have hht : f.height s = 0 := h0
    have e : (eps <. Arith.abs (f.height s)) = false := by
      rw [Bool.eq_false_iff, ne_eq, r_lt, hht]
      have : (0 : ℝ) < repsilon := by unfold repsilon; positivity
      simp only [r_abs, abs_zero, not_lt, r_eps]
      exact this.le
    unfold faceValue omegaValue at hg
    rw [e] at hg
    simp only [Bool.false_eq_true, if_false] at hg
    split at hg
    · cases hg
    · next vs _ =>
      rcases vs with _ | ⟨v, vs⟩
      · cases hg
      · cases hg
        rw [hht]
        generalize sumPqr vs v.1 = J
        generalize sumDpqr vs (v.2.getD M3.zeros) = D
        unfold faceField M3.trace
        simp
        ring
  · rw [faceValue_tensor hh hp hf hs h0 ρ Gc hg]
    have := faceSlope_trace hn h0
    simp only [upper, M3.trace]
    linear_combination 1000000000 * Gc * ρ * this

/-- the trace of the returned tensor adds up the solid angles of the faces -/
theorem returned_trace (hh : h.IsHull) (hp : mkPoly h inHull = .ok p) {s : V3 ℝ} (hs : h.Regular s) {ρ Gc : ℝ} {v : V3 ℝ × M3 ℝ}
    (hv : Call.onNew p ⟨s, ρ, Gc, true⟩ = .ok v) :
    v.2.trace = -(1000000000 * Gc * ρ) * ∑ k : Fin p.faces.length, solidAngle (p.faces[k]).un (p.faces[k]).pa (p.faces[k]).pb (p.faces[k]).pc s := by
  rw [onNew_closed (wellTwinned_of_hull hh hp)] at hv
  have := facesValue_tensor (φ := M3.trace) (ψ := fun f => -(1000000000 * Gc * ρ) * solidAngle f.un f.pa f.pb f.pc s)
    (fun a b => by simp only [M3.trace, M3.add, add_x, add_y, add_z]; ring) p.faces 0 V3.zeros M3.zeros v (by
      intro k f g hk hg
      rw [Nat.zero_add] at hg
      exact faceValue_trace hh hp hk hs ρ Gc hg) hv
  have z : M3.trace (M3.zeros : M3 ℝ) = 0 := by simp [M3.trace, M3.zeros, V3.zeros]
  rw [this, z, zero_add, Finset.mul_sum]
  exact (Fin.sum_univ_fun_getElem p.faces (fun f => -(1000000000 * Gc * ρ) * solidAngle f.un f.pa f.pb f.pc s)).symm

/-- **C20. Laplace's equation.**  At every regular station outside the body, also in the plane of a face, the trace of the
returned tensor is zero. -/
theorem C20_laplace (hh : h.IsHull) (hp : mkPoly h inHull = .ok p) {s : V3 ℝ} (hs : h.Regular s) (hout : s.toP ∉ h.body) {ρ Gc : ℝ}
    {G : V3 ℝ} {T : M3 ℝ} (hv : Call.onNew p ⟨s, ρ, Gc, true⟩ = .ok (G, T)) : T.r0.x + T.r1.y + T.r2.z = 0 := by
  have := returned_trace hh hp hs hv
  rw [angles_outside (hull_surface hh hp) hout, mul_zero] at this
  exact this

/-- **C49. Poisson's equation.**  At every regular station strictly inside the body the trace of the returned tensor is
`-4π Gc ρ 10⁹`. -/
theorem C49_poisson (hh : h.IsHull) (hp : mkPoly h inHull = .ok p) {s : V3 ℝ} (hs : h.Regular s) (hin : s.toP ∈ interior h.body) {ρ Gc : ℝ}
    {G : V3 ℝ} {T : M3 ℝ} (hv : Call.onNew p ⟨s, ρ, Gc, true⟩ = .ok (G, T)) : T.r0.x + T.r1.y + T.r2.z = -(4 * Real.pi * Gc * ρ * 1000000000) := by
  have := returned_trace hh hp hs hv
  rw [angles_inside (hull_surface hh hp) hin] at this
  exact this.trans (by ring)

/-- a query with gradient at a regular station off the planes returns a value -/
theorem gradient_ok (hh : h.IsHull) (hp : mkPoly h inHull = .ok p) {s : V3 ℝ} (hs : h.Regular s) (h0 : h.OffPlanes s) (ρ Gc : ℝ) :
    ∃ G T, Call.onNew p ⟨s, ρ, Gc, true⟩ = .ok (G, T) := by
  obtain ⟨v, hv⟩ := (C19_near hh hp hs h0 V3.zeros ρ Gc true).self_of_nhds
  have : s.add (V3.smul 0 V3.zeros) = s := by refine V3.ext' ?_ ?_ ?_ <;> simp
  rw [this] at hv
  exact ⟨v.1, v.2, hv⟩

theorem tetra_offPlanes {s : V3 ℝ} (hz : s.z ≠ 0) (hy : s.y ≠ 0) (hx : s.x ≠ 0) (h1 : 1 - s.x - s.y - s.z ≠ 0) : tetra.OffPlanes s := by
  intro t ht
  simp only [tetra, List.mem_cons, List.not_mem_nil, or_false] at ht
  rcases ht with rfl | rfl | rfl | rfl <;> simp [tetra_pt0, tetra_pt1, tetra_pt2, tetra_pt3, rdot]
  all_goals first | exact hz | exact hy | exact hx | (intro h; apply h1; linarith)

/-- C19 and C20 for the unit tetrahedron seen from (2,3,5): the query returns a tensor with trace zero and its rows are the
derivatives of the field in the direction (1,2,-1). -/
example : ∃ p, mkPoly tetra (fun _ => true) = .ok p ∧ ∃ G T, Call.onNew p ⟨⟨2, 3, 5⟩, 2670, 1, true⟩ = .ok (G, T) ∧
    T.r0.x + T.r1.y + T.r2.z = 0 ∧
    ∃ g : ℝ → V3 ℝ, (∀ᶠ x in nhds (0 : ℝ), ∃ gr T', Call.onNew p ⟨V3.add ⟨2, 3, 5⟩ (V3.smul x ⟨1, 2, -1⟩), 2670, 1, gr⟩ = .ok (g x, T')) ∧
      HasDerivAt (fun x => 10000 * (g x).y) (rdot T.r1 ⟨1, 2, -1⟩) 0 := by
  obtain ⟨p, hp⟩ := hull_mkPoly_ok tetra_isHull (fun _ => true)
  have h0 : tetra.OffPlanes ⟨2, 3, 5⟩ := tetra_offPlanes (by norm_num) (by norm_num) (by norm_num) (by norm_num)
  obtain ⟨G, T, hv⟩ := gradient_ok tetra_isHull hp tetra_regular_out h0 2670 1
  refine ⟨p, hp, G, T, hv, C20_laplace tetra_isHull hp tetra_regular_out ?_ hv, ?_⟩
  · rw [tetra_body]
    rintro ⟨-, -, -, h⟩
    norm_num [V3.toP] at h
  · have near := C19_near tetra_isHull hp tetra_regular_out h0 ⟨1, 2, -1⟩ 2670 1 true
    let g : ℝ → V3 ℝ := fun x => match Call.onNew p ⟨V3.add ⟨2, 3, 5⟩ (V3.smul x ⟨1, 2, -1⟩), 2670, 1, true⟩ with
      | .ok v => v.1
      | .error _ => V3.zeros
    have hg : ∀ᶠ x in nhds (0 : ℝ), ∃ gr T', Call.onNew p ⟨V3.add ⟨2, 3, 5⟩ (V3.smul x ⟨1, 2, -1⟩), 2670, 1, gr⟩ = .ok (g x, T') := by
      filter_upwards [near] with x ⟨v, hx⟩
      refine ⟨true, v.2, ?_⟩
      simp only [g, hx]
    exact ⟨g, hg, (C19_gradient tetra_isHull hp tetra_regular_out h0 hv ⟨1, 2, -1⟩ hg).2.1⟩

/-- C49 for the unit tetrahedron and the station (1/2,1/8,1/4) -/
example : ∃ p, mkPoly tetra (fun _ => true) = .ok p ∧ ∃ G T, Call.onNew p ⟨⟨1 / 2, 1 / 8, 1 / 4⟩, 2670, 1, true⟩ = .ok (G, T) ∧
    T.r0.x + T.r1.y + T.r2.z = -(4 * Real.pi * 1 * 2670 * 1000000000) := by
  obtain ⟨p, hp⟩ := hull_mkPoly_ok tetra_isHull (fun _ => true)
  have h0 : tetra.OffPlanes ⟨1 / 2, 1 / 8, 1 / 4⟩ := tetra_offPlanes (by norm_num) (by norm_num) (by norm_num) (by norm_num)
  obtain ⟨G, T, hv⟩ := gradient_ok tetra_isHull hp tetra_regular_in h0 2670 1
  refine ⟨p, hp, G, T, hv, C49_poisson tetra_isHull hp tetra_regular_in ?_ hv⟩
  rw [tetra_interior]
  refine ⟨?_, ?_, ?_, ?_⟩ <;> norm_num [V3.toP]

end
end Geec
