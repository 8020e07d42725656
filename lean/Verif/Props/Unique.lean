import Verif.Lemmas.UniqueLocal
/-
C112: the answers determine the body.
-/
namespace Geec
open Arith MeasureTheory Filter Topology
noncomputable section
variable {h₁ h₂ : Hull ℝ} {inHull₁ inHull₂ : V3 ℝ → Bool} {p₁ p₂ : Poly ℝ} {ρ₁ ρ₂ G₁ G₂ : ℝ}

theorem returned_diff (hh₁ : h₁.IsHull) (hp₁ : mkPoly h₁ inHull₁ = .ok p₁) (hh₂ : h₂.IsHull) (hp₂ : mkPoly h₂ inHull₂ = .ok p₂) {s : V3 ℝ}
    (hr₁ : h₁.Regular s) (ho₁ : h₁.OffPlanes s) (hr₂ : h₂.Regular s) (ho₂ : h₂.OffPlanes s)
    (hsame : ∀ V₁ T₁ V₂ T₂, Call.onNew p₁ ⟨s, ρ₁, G₁, false⟩ = .ok (V₁, T₁) → Call.onNew p₂ ⟨s, ρ₂, G₂, false⟩ = .ok (V₂, T₂) → V₁ = V₂) (e : V3 ℝ) :
    attDiff h₁ h₂ (G₁ * ρ₁) (G₂ * ρ₂) s e = 0 := by
  obtain ⟨T₁, hv₁⟩ := C16_newton_returned hh₁ hp₁ hr₁ (OffPlanes.corner ho₁) ρ₁ G₁
  obtain ⟨T₂, hv₂⟩ := C16_newton_returned hh₂ hp₂ hr₂ (OffPlanes.corner ho₂) ρ₂ G₂
  have h1 := congrArg (rdot e) (hsame _ _ _ _ hv₁ hv₂)
  rw [rdot_smul, rdot_smul, rdot_comm, rdot_comm e] at h1
  unfold attDiff
  linear_combination h1 / 100000

theorem near_ball {P : P3 → Prop} {s : V3 ℝ} {r : ℝ} (hr : 0 < r) (hP : ∀ q : P3, vlen ((P3.toV q).sub s) < r → P q) : ∀ᶠ q in 𝓝 s.toP, P q := by
  have hc : Continuous (fun q : P3 => vlen ((P3.toV q).sub s)) := by simp only [vlen, rdot, P3.toV, sub_x, sub_y, sub_z]; fun_prop
  have h0 : vlen ((P3.toV s.toP).sub s) < r := by
    rw [toP_toV]
    have : s.sub s = V3.zeros := by refine V3.ext' ?_ ?_ ?_ <;> simp
    rw [this, vlen_zeros]
    exact hr
  filter_upwards [(hc.tendsto s.toP).eventually (gt_mem_nhds h0)] with q hq
  exact hP q hq

/-- **C112** The field near one station determines the body and its weight: when the fields of two bodies, as returned by the
program, agree at all stations in some ball around a regular station outside of both, then the bodies are the same set of points
and the products of density and gravitational constant are the same. -/
theorem C112_field (hh₁ : h₁.IsHull) (hp₁ : mkPoly h₁ inHull₁ = .ok p₁) (hh₂ : h₂.IsHull) (hp₂ : mkPoly h₂ inHull₂ = .ok p₂) {s : V3 ℝ}
    (hr₁ : h₁.Regular s) (ho₁ : h₁.OffPlanes s) (hs₁ : s.toP ∉ h₁.body) (hr₂ : h₂.Regular s) (ho₂ : h₂.OffPlanes s) (hs₂ : s.toP ∉ h₂.body)
    (hk₁ : G₁ * ρ₁ ≠ 0) (hk₂ : G₂ * ρ₂ ≠ 0) {r : ℝ} (hr : 0 < r)
    (hsame : ∀ s', vlen (V3.sub s' s) < r → ∀ V₁ T₁ V₂ T₂, Call.onNew p₁ ⟨s', ρ₁, G₁, false⟩ = .ok (V₁, T₁) →
      Call.onNew p₂ ⟨s', ρ₂, G₂, false⟩ = .ok (V₂, T₂) → V₁ = V₂) : h₁.body = h₂.body ∧ G₁ * ρ₁ = G₂ * ρ₂ := by
  refine same_body hh₁ hh₂ (sameFar_of_near (c := V3.zeros) hh₁ hh₂ ?_ hs₁ hs₂) hk₁ hk₂
  filter_upwards [offPlanes_around hr₁ ho₁, offPlanes_around hr₂ ho₂, near_ball hr fun q hq => hsame (P3.toV q) hq] with q g1 g2 g3 e
  rw [returned_diff hh₁ hp₁ hh₂ hp₂ g1.1 g1.2 g2.1 g2.2 g3, rdot_comm, rdot_zeros]

/-- **C112**, stations far away: it is enough that the fields agree at all regular stations beyond some distance, however far. -/
theorem C112_far (hh₁ : h₁.IsHull) (hp₁ : mkPoly h₁ inHull₁ = .ok p₁) (hh₂ : h₂.IsHull) (hp₂ : mkPoly h₂ inHull₂ = .ok p₂)
    (hk₁ : G₁ * ρ₁ ≠ 0) (hk₂ : G₂ * ρ₂ ≠ 0) (R : ℝ)
    (hsame : ∀ s, R < vlen s → h₁.Regular s → h₂.Regular s → ∀ V₁ T₁ V₂ T₂, Call.onNew p₁ ⟨s, ρ₁, G₁, false⟩ = .ok (V₁, T₁) →
      Call.onNew p₂ ⟨s, ρ₂, G₂, false⟩ = .ok (V₂, T₂) → V₁ = V₂) : h₁.body = h₂.body ∧ G₁ * ρ₁ = G₂ * ρ₂ := by
  refine same_body hh₁ hh₂ (fun o d hd₁ hd₂ => ?_) hk₁ hk₂
  filter_upwards [far_regular hd₁ o, far_regular hd₂ o, far_square (o := o) (hd₁.ne hh₁) (R ^ 2)] with t g1 g2 g3 e
  refine returned_diff hh₁ hp₁ hh₂ hp₂ g1.1 g1.2 g2.1 g2.2 (hsame _ ?_ g1.1 g2.1) e
  rw [← vlen_sq] at g3
  nlinarith [vlen_nonneg (o.add (V3.smul t d))]

theorem returned_slope (hh₁ : h₁.IsHull) (hp₁ : mkPoly h₁ inHull₁ = .ok p₁) (hh₂ : h₂.IsHull) (hp₂ : mkPoly h₂ inHull₂ = .ok p₂) {s : V3 ℝ}
    (hr₁ : h₁.Regular s) (ho₁ : h₁.OffPlanes s) (hr₂ : h₂.Regular s) (ho₂ : h₂.OffPlanes s)
    (hsame : ∀ V₁ T₁ V₂ T₂, Call.onNew p₁ ⟨s, ρ₁, G₁, true⟩ = .ok (V₁, T₁) → Call.onNew p₂ ⟨s, ρ₂, G₂, true⟩ = .ok (V₂, T₂) → T₁ = T₂) (e d : V3 ℝ) :
    HasDerivAt (fun t => attDiff h₁ h₂ (G₁ * ρ₁) (G₂ * ρ₂) (s.add (V3.smul t d)) e) 0 0 := by
  obtain ⟨V₁, T₁, hv₁⟩ := gradient_ok hh₁ hp₁ hr₁ ho₁ ρ₁ G₁
  obtain ⟨V₂, T₂, hv₂⟩ := gradient_ok hh₂ hp₂ hr₂ ho₂ ρ₂ G₂
  obtain ⟨x1, y1, z1⟩ := C19_newton hh₁ hp₁ (ho₁.tensorRegular hh₁ hr₁) hv₁ d
  obtain ⟨x2, y2, z2⟩ := C19_newton hh₂ hp₂ (ho₂.tensorRegular hh₂ hr₂) hv₂ d
  rw [← hsame _ _ _ _ hv₁ hv₂] at x2 y2 z2
  have hx := (x1.sub x2).mul_const (e.x / 1000000000)
  have hy := (y1.sub y2).mul_const (e.y / 1000000000)
  have hz := (z1.sub z2).mul_const (e.z / 1000000000)
  have := (hx.add hy).add hz
  simp only [sub_self, zero_mul, add_zero] at this
  refine this.congr_of_eventuallyEq (Eventually.of_forall fun t => ?_)
  simp only [attDiff, rdot, Pi.add_apply, Pi.sub_apply]
  ring

/-- **C112**, the tensor: the gradients alone determine the body as well, in the same way. -/
theorem C112_tensor (hh₁ : h₁.IsHull) (hp₁ : mkPoly h₁ inHull₁ = .ok p₁) (hh₂ : h₂.IsHull) (hp₂ : mkPoly h₂ inHull₂ = .ok p₂) {s : V3 ℝ}
    (hr₁ : h₁.Regular s) (ho₁ : h₁.OffPlanes s) (hs₁ : s.toP ∉ h₁.body) (hr₂ : h₂.Regular s) (ho₂ : h₂.OffPlanes s) (hs₂ : s.toP ∉ h₂.body)
    (hk₁ : G₁ * ρ₁ ≠ 0) (hk₂ : G₂ * ρ₂ ≠ 0) {r : ℝ} (hr : 0 < r)
    (hsame : ∀ s', vlen (V3.sub s' s) < r → ∀ V₁ T₁ V₂ T₂, Call.onNew p₁ ⟨s', ρ₁, G₁, true⟩ = .ok (V₁, T₁) →
      Call.onNew p₂ ⟨s', ρ₂, G₂, true⟩ = .ok (V₂, T₂) → T₁ = T₂) : h₁.body = h₂.body ∧ G₁ * ρ₁ = G₂ * ρ₂ := by
  set c : V3 ℝ := (V3.smul (G₁ * ρ₁) (attraction h₁.body s)).sub (V3.smul (G₂ * ρ₂) (attraction h₂.body s)) with hc
  refine same_body hh₁ hh₂ (sameFar_of_near (c := c) hh₁ hh₂ ?_ hs₁ hs₂) hk₁ hk₂
  have hev := (offPlanes_around hr₁ ho₁).and ((offPlanes_around hr₂ ho₂).and (near_ball hr fun q hq => hsame (P3.toV q) hq))
  obtain ⟨ε, hε, hb⟩ := Metric.eventually_nhds_iff_ball.mp hev
  refine Metric.eventually_nhds_iff_ball.mpr ⟨ε, hε, fun q hq e => ?_⟩
  -- the segment from the station
  set d := (P3.toV q).sub s with hd
  have hmem : ∀ t ∈ Set.Icc (0 : ℝ) 1, (s.add (V3.smul t d)).toP ∈ Metric.ball s.toP ε := by
    intro t ht
    have := (convex_ball s.toP ε) (Metric.mem_ball_self hε) hq (by linarith [ht.2] : (0 : ℝ) ≤ 1 - t) ht.1 (by ring)
    convert this using 1
    refine Prod.ext ?_ (Prod.ext ?_ ?_) <;> simp [V3.toP, hd, P3.toV] <;> ring
  have hder : ∀ t ∈ Set.Icc (0 : ℝ) 1, HasDerivAt (fun t => attDiff h₁ h₂ (G₁ * ρ₁) (G₂ * ρ₂) (s.add (V3.smul t d)) e) 0 t := by
    intro t ht
    obtain ⟨g1, g2, g3⟩ := hb _ (hmem t ht)
    rw [toP_toV] at g1 g2 g3
    have h0 := returned_slope hh₁ hp₁ hh₂ hp₂ g1.1 g1.2 g2.1 g2.2 g3 e d
    have h1 : HasDerivAt (fun x : ℝ => x - t) 1 t := (hasDerivAt_id t).sub_const t
    have h2 : HasDerivAt (fun x => attDiff h₁ h₂ (G₁ * ρ₁) (G₂ * ρ₂) ((s.add (V3.smul t d)).add (V3.smul x d)) e) 0 ((fun x : ℝ => x - t) t) := by simpa using h0
    have h3 := HasDerivAt.comp (h := fun x : ℝ => x - t) t h2 h1
    rw [zero_mul] at h3
    refine h3.congr_of_eventuallyEq (Eventually.of_forall fun x => ?_)
    simp only [Function.comp]
    congr 1
    refine V3.ext' ?_ ?_ ?_ <;> simp <;> ring
  have hconst := constant_of_has_deriv_right_zero (fun t ht => (hder t ht).continuousAt.continuousWithinAt)
    (fun t ht => (hder t ⟨ht.1, ht.2.le⟩).hasDerivWithinAt) 1 ⟨zero_le_one, le_rfl⟩
  have e0 : s.add (V3.smul 0 d) = s := by refine V3.ext' ?_ ?_ ?_ <;> simp
  have e1 : s.add (V3.smul 1 d) = P3.toV q := by refine V3.ext' ?_ ?_ ?_ <;> simp [hd]
  simp only [e0, e1] at hconst
  rw [hconst, hc]
  simp only [attDiff, rdot, sub_x, sub_y, sub_z, smul_x, smul_y, smul_z]
  ring

/-- the half of the unit tetrahedron, off its planes -/
theorem halfA_offPlanes : halfA.OffPlanes ⟨2, 3, 5⟩ := by
  intro t ht
  have h0 := halfA_pt (i := 0) (by norm_num)
  have h1 := halfA_pt (i := 1) (by norm_num)
  have h2 := halfA_pt (i := 2) (by norm_num)
  have h3 := halfA_pt (i := 3) (by norm_num)
  simp only [tetra_pt0, tetra_pt1, tetra_pt2, tetra_pt3] at h0 h1 h2 h3
  simp only [halfA, Hull.affine, tetra, List.mem_cons, List.not_mem_nil, or_false] at ht
  rcases ht with rfl | rfl | rfl | rfl <;> simp only [h0, h1, h2, h3, rdot, cross_x, cross_y, cross_z, sub_x, sub_y, sub_z] <;> norm_num

/-- C112 for the unit tetrahedron and its half: whatever the densities, in every ball around (2,3,5) there is a station where the
two fields differ, and one where the two tensors differ. -/
example {p₁ p₂ : Poly ℝ} (hp₁ : mkPoly tetra (fun _ => true) = .ok p₁) (hp₂ : mkPoly halfA (fun _ => true) = .ok p₂) {ρ₁ ρ₂ : ℝ} (h1 : ρ₁ ≠ 0) (h2 : ρ₂ ≠ 0)
    {r : ℝ} (hr : 0 < r) :
    (∃ s', vlen (V3.sub s' ⟨2, 3, 5⟩) < r ∧ ∃ V₁ T₁ V₂ T₂, Call.onNew p₁ ⟨s', ρ₁, 1, false⟩ = .ok (V₁, T₁) ∧ Call.onNew p₂ ⟨s', ρ₂, 1, false⟩ = .ok (V₂, T₂) ∧ V₁ ≠ V₂) ∧
    (∃ s', vlen (V3.sub s' ⟨2, 3, 5⟩) < r ∧ ∃ V₁ T₁ V₂ T₂, Call.onNew p₁ ⟨s', ρ₁, 1, true⟩ = .ok (V₁, T₁) ∧ Call.onNew p₂ ⟨s', ρ₂, 1, true⟩ = .ok (V₂, T₂) ∧ T₁ ≠ T₂) := by
  have ho : tetra.OffPlanes ⟨2, 3, 5⟩ := tetra_offPlanes (by norm_num) (by norm_num) (by norm_num) (by norm_num)
  have ht : (⟨2, 3, 5⟩ : V3 ℝ).toP ∉ tetra.body := by
    rw [tetra_body]; rintro ⟨-, -, -, h⟩; norm_num [V3.toP] at h
  have ha : (⟨2, 3, 5⟩ : V3 ℝ).toP ∉ halfA.body := by
    rw [halfA_body]; rintro ⟨-, h, -, -⟩; norm_num [V3.toP] at h
  have hne : tetra.body ≠ halfA.body := by
    intro h
    have : ((0, 1, 0) : P3) ∈ tetra.body := by rw [tetra_body]; norm_num
    rw [h, halfA_body] at this
    have := this.2.1
    norm_num at this
  refine ⟨?_, ?_⟩
  · by_contra hcon
    refine hne (C112_field tetra_isHull hp₁ halfA_isHull hp₂ tetra_regular_out ho ht halfA_regular halfA_offPlanes ha (G₁ := 1) (G₂ := 1)
      (by simpa using h1) (by simpa using h2) hr fun s' hs V₁ T₁ V₂ T₂ g1 g2 => ?_).1
    by_contra hV
    exact hcon ⟨s', hs, V₁, T₁, V₂, T₂, g1, g2, hV⟩
  · by_contra hcon
    refine hne (C112_tensor tetra_isHull hp₁ halfA_isHull hp₂ tetra_regular_out ho ht halfA_regular halfA_offPlanes ha (G₁ := 1) (G₂ := 1)
      (by simpa using h1) (by simpa using h2) hr fun s' hs V₁ T₁ V₂ T₂ g1 g2 => ?_).1
    by_contra hV
    exact hcon ⟨s', hs, V₁, T₁, V₂, T₂, g1, g2, hV⟩

/-- C112 far away: the unit tetrahedron in two densities -/
example {p : Poly ℝ} (hp : mkPoly tetra (fun _ => true) = .ok p) (R : ℝ) :
    ∃ s, R < vlen s ∧ ∃ V₁ T₁ V₂ T₂, Call.onNew p ⟨s, 2670, 1, false⟩ = .ok (V₁, T₁) ∧ Call.onNew p ⟨s, 2680, 1, false⟩ = .ok (V₂, T₂) ∧ V₁ ≠ V₂ := by
  by_contra hcon
  have := (C112_far tetra_isHull hp tetra_isHull hp (ρ₁ := 2670) (ρ₂ := 2680) (G₁ := 1) (G₂ := 1) (by norm_num) (by norm_num) R fun s hs _ _ V₁ T₁ V₂ T₂ g1 g2 => by
    by_contra hV
    exact hcon ⟨s, hs, V₁, T₁, V₂, T₂, g1, g2, hV⟩).2
  norm_num at this

end
end Geec
