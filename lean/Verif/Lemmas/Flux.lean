import Verif.Lemmas.Measurable
/-
The flux of an attraction through a closed surface (Gauss's law), by Fubini's theorem and the solid angles of the surface.
-/
namespace Geec
open Arith MeasureTheory Metric Set Filter Topology
noncomputable section

theorem triPoint_continuous (a b c : V3 ℝ) : Continuous fun w => (triPoint a b c w).toP := by
  unfold triPoint V3.toP
  simp only [add_x, add_y, add_z, smul_x, smul_y, smul_z]
  fun_prop

theorem triParam_meas : MeasurableSet triParam :=
  (measurableSet_lt measurable_const measurable_fst).inter ((measurableSet_lt measurable_const measurable_snd).inter
    (measurableSet_lt (measurable_fst.add measurable_snd) measurable_const))

theorem triParam_bdd : triParam ⊆ closedBall (0 : ℝ × ℝ) 1 := by
  rintro ⟨u, v⟩ ⟨h1, h2, h3⟩
  dsimp only at h1 h2 h3
  rw [mem_closedBall, dist_zero_right, Prod.norm_def]
  simp only [Real.norm_eq_abs, sup_le_iff, abs_le]
  exact ⟨⟨by linarith, by linarith⟩, by linarith, by linarith⟩

theorem triParam_integrable {f : ℝ × ℝ → ℝ} (hf : Continuous f) : IntegrableOn f triParam :=
  (hf.continuousOn.integrableOn_compact (isCompact_closedBall 0 1)).mono_set triParam_bdd

theorem flux_integrable {B : Set P3} (hB : Decent B) (a b c : V3 ℝ) (d : P3) :
    Integrable (fun z : (ℝ × ℝ) × P3 => pull d (z.2 - (triPoint a b c z.1).toP)) ((volume.restrict triParam).prod (volume.restrict B)) := by
  have hx := triPoint_continuous a b c
  have hmeas : Measurable fun z : (ℝ × ℝ) × P3 => pull d (z.2 - (triPoint a b c z.1).toP) :=
    (pull_meas d).comp (measurable_snd.sub (hx.measurable.comp measurable_fst))
  refine (integrable_prod_iff hmeas.aestronglyMeasurable).mpr ⟨Eventually.of_forall fun w => ?_, ?_⟩
  · exact kernel_integrable (k := pull d) hB.meas hB.bdd (pull_meas d) (pull_le d) (triPoint a b c w).toP
  · have hc : Continuous fun x : P3 => ∫ y in B, ‖pull d (y - x)‖ :=
      kernel_continuous (k := fun y => ‖pull d y‖) hB (pull_meas d).norm (fun y => by rw [Real.norm_eq_abs, abs_abs]; exact pull_le d y)
    have := triParam_integrable (hc.comp hx)
    exact this

theorem pull_angle (n s : V3 ℝ) (y : P3) : pull n.toP (y - s.toP) = -(rdot n (s.sub (P3.toV y)) / vlen (s.sub (P3.toV y)) ^ 3) := by
  have hr : vlen (s.sub (P3.toV y)) = rad (y - s.toP) := by
    rw [← rad_neg]
    unfold vlen rad rdot
    simp only [sub_x, sub_y, sub_z, P3.toV, V3.toP, Prod.fst_neg, Prod.snd_neg, Prod.fst_sub, Prod.snd_sub]
    congr 1
    ring
  unfold pull
  rw [hr, ← neg_div]
  congr 1
  simp only [rdot, sub_x, sub_y, sub_z, P3.toV, V3.toP, Prod.fst_sub, Prod.snd_sub]
  ring

theorem solidAngle_pull (n a b c : V3 ℝ) (y : P3) :
    solidAngle n a b c (P3.toV y) = -(vlen (cross (b.sub a) (c.sub a)) * ∫ w in triParam, pull n.toP (y - (triPoint a b c w).toP)) := by
  simp only [pull_angle]
  rw [integral_neg, mul_neg, neg_neg]
  rfl

theorem solidAngle_integrable {B : Set P3} (hB : Decent B) (n a b c : V3 ℝ) : IntegrableOn (fun y => solidAngle n a b c (P3.toV y)) B := by
  simp only [solidAngle_pull]
  exact ((flux_integrable hB a b c n.toP).integral_prod_right.const_mul _).neg

/-- the flux through a triangle -/
theorem triangle_flux {B : Set P3} (hB : Decent B) (n a b c : V3 ℝ) :
    surfaceIntegral a b c (fun x => rdot (attraction B x) n) = -∫ y in B, solidAngle n a b c (P3.toV y) := by
  simp only [solidAngle_pull, rdot_attraction hB, surfaceIntegral]
  rw [integral_neg, neg_neg, integral_const_mul]
  congr 1
  exact integral_integral_swap (flux_integrable hB a b c n.toP)

/-- **Gauss's law** for the attraction of a body and a closed convex surface -/
theorem attraction_flux {B P : Set P3} (hB : Decent B) {n : ℕ} {A A' A'' N : Fin n → V3 ℝ} (hS : Surface P A A' A'' N) :
    ∑ k, surfaceIntegral (A k) (A' k) (A'' k) (fun x => rdot (attraction B x) (N k)) = -(4 * Real.pi * (volume (B ∩ P)).toReal) := by
  simp only [triangle_flux hB]
  rw [Finset.sum_neg_distrib, ← integral_finsetSum _ fun k _ => solidAngle_integrable hB _ _ _ _]
  congr 1
  have hP : MeasurableSet P := hS.compact.isClosed.measurableSet
  have hfr : volume (frontier P) = 0 := hS.convex.addHaar_frontier volume
  have hae : ∀ᵐ y ∂(volume.restrict B), ∑ k, solidAngle (N k) (A k) (A' k) (A'' k) (P3.toV y) = P.indicator (fun _ => 4 * Real.pi) y := by
    refine ae_restrict_of_ae ?_
    have : ∀ᵐ y : P3, y ∉ frontier P := by rw [ae_iff]; simpa using hfr
    filter_upwards [this] with y hy
    by_cases hyP : y ∈ P
    · rw [indicator_of_mem hyP]
      apply angles_inside hS
      rw [toV_toP]
      by_contra h
      exact hy ⟨subset_closure hyP, h⟩
    · rw [indicator_of_notMem hyP]
      exact angles_outside hS (by rwa [toV_toP])
  rw [integral_congr_ae hae, integral_indicator hP, Measure.restrict_restrict hP, setIntegral_const, smul_eq_mul, inter_comm, mul_comm]
  rfl

end
end Geec
