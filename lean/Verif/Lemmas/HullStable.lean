import Mathlib.Analysis.LocallyConvex.Separation
import Mathlib.Analysis.Normed.Module.Convex
import Verif.Lemmas.Potential
/-
Convex bodies spanned by nearby points differ by little volume.
-/
namespace Geec
open MeasureTheory Metric Set Filter Topology
noncomputable section

/-- If a compact convex set comes within `δ` of every point of `A`, it contains the centre of every ball of a larger radius in `A`. -/
theorem centre_mem {A A' : Set P3} (hc : Convex ℝ A') (hk : IsCompact A') {δ r : ℝ} (hδ : 0 ≤ δ) (hr : δ < r)
    (hA : A ⊆ cthickening δ A') {q : P3} (hq : closedBall q r ⊆ A) : q ∈ A' := by
  by_contra hn
  have hr0 : 0 < r := hδ.trans_lt hr
  obtain ⟨f, u, h1, h2⟩ := geometric_hahn_banach_point_closed hc hk.isClosed hn
  have near : ∀ w ∈ A, ∃ b ∈ A', dist w b ≤ δ := by
    intro w hw
    have := hA hw
    rw [hk.cthickening_eq_biUnion_closedBall hδ] at this
    simpa using this
  have hf : 0 < ‖f‖ := by
    rw [norm_pos_iff]
    rintro rfl
    obtain ⟨b, hb, -⟩ := near q (hq (mem_closedBall_self hr0.le))
    have := h2 b hb
    simp at h1 this
    linarith
  have hlt : ‖f‖ * (δ / r) < ‖f‖ := by
    have : δ / r < 1 := (div_lt_one hr0).mpr hr
    nlinarith
  obtain ⟨v, hv1, hv2⟩ := f.exists_lt_apply_of_lt_opNorm hlt
  obtain ⟨w, hw1, hw2⟩ : ∃ w : P3, ‖w‖ < 1 ∧ f w < -(‖f‖ * (δ / r)) := by
    rcases le_total 0 (f v) with h | h
    · exact ⟨-v, by rwa [norm_neg], by rw [map_neg]; rw [Real.norm_of_nonneg h] at hv2; linarith⟩
    · exact ⟨v, hv1, by rw [Real.norm_of_nonpos h] at hv2; linarith⟩
  have hx : q + r • w ∈ A := hq (by
    rw [mem_closedBall, dist_eq_norm, add_sub_cancel_left, norm_smul, Real.norm_of_nonneg hr0.le]
    nlinarith)
  obtain ⟨b, hb, hd⟩ := near _ hx
  have h3 := h2 b hb
  have h4 : f b ≤ f (q + r • w) + ‖f‖ * δ := by
    have h5 : |f (b - (q + r • w))| ≤ ‖f‖ * δ := by
      rw [← Real.norm_eq_abs]
      refine (f.le_opNorm _).trans (mul_le_mul_of_nonneg_left ?_ hf.le)
      rwa [← dist_eq_norm, dist_comm]
    rw [map_sub] at h5
    linarith [le_abs_self (f b - f (q + r • w))]
  rw [map_add, map_smul, smul_eq_mul] at h4
  have h6 : r * f w < -(‖f‖ * δ) := by
    have := mul_lt_mul_of_pos_left hw2 hr0
    rwa [show r * -(‖f‖ * (δ / r)) = -(‖f‖ * δ) by field_simp] at this
  linarith

/-- Compact convex sets that are close to `A` differ from it by little volume. -/
theorem symmDiff_small {A : Set P3} (hA : Convex ℝ A) (hk : IsCompact A) {ε : ℝ} (hε : 0 < ε) :
    ∃ δ > 0, ∀ A' : Set P3, Convex ℝ A' → IsCompact A' → A ⊆ cthickening δ A' → A' ⊆ cthickening δ A →
      volume (A \ A') ≤ ENNReal.ofReal ε ∧ volume (A' \ A) ≤ ENNReal.ofReal ε := by
  have hfin : volume A ≠ ⊤ := hk.measure_ne_top
  have t1 : Tendsto (fun r => volume (cthickening r A)) (𝓝 0) (𝓝 (volume A)) := tendsto_measure_cthickening_of_isCompact hk
  have t2 : Tendsto (fun r => (volume.restrict A) (cthickening r Aᶜ)) (𝓝 0) (𝓝 0) := by
    have h0 : (volume.restrict A) (closure Aᶜ) = 0 := by
      have := hA.addHaar_frontier volume
      rw [frontier_eq_closure_inter_closure, hk.isClosed.closure_eq] at this
      rwa [Measure.restrict_apply isClosed_closure.measurableSet, inter_comm]
    have : IsFiniteMeasure (volume.restrict A) := isFiniteMeasure_restrict.mpr hfin
    have := tendsto_measure_cthickening (μ := volume.restrict A) (s := Aᶜ) ⟨1, one_pos, measure_ne_top _ _⟩
    rwa [h0] at this
  have e1 : ∀ᶠ r in 𝓝 (0 : ℝ), volume (cthickening r A) ≤ volume A + ENNReal.ofReal ε := by
    have hlt : volume A < volume A + ENNReal.ofReal ε := ENNReal.lt_add_right hfin (by simpa using hε)
    filter_upwards [t1.eventually (gt_mem_nhds hlt)] with r hr using hr.le
  have e2 : ∀ᶠ r in 𝓝 (0 : ℝ), (volume.restrict A) (cthickening r Aᶜ) ≤ ENNReal.ofReal ε := by
    filter_upwards [t2.eventually (gt_mem_nhds (show (0 : ENNReal) < ENNReal.ofReal ε by simpa using hε))] with r hr using hr.le
  obtain ⟨η, hη, h⟩ := Metric.eventually_nhds_iff.mp (e1.and e2)
  refine ⟨η / 4, by positivity, fun A' hc' hk' h1 h2 => ⟨?_, ?_⟩⟩
  · have h3 := (h (y := η / 2) (by rw [Real.dist_eq, sub_zero, abs_of_pos (by positivity)]; linarith)).2
    rw [Measure.restrict_apply isClosed_cthickening.measurableSet] at h3
    refine (measure_mono ?_).trans h3
    rintro q ⟨hq, hq'⟩
    refine ⟨?_, hq⟩
    by_contra hn
    apply hq'
    apply centre_mem hc' hk' (by positivity) (by linarith : η / 4 < η / 2) h1
    intro w hw
    by_contra hwA
    exact hn (mem_cthickening_of_dist_le q w _ _ hwA (by rwa [dist_comm]))
  · have h3 := (h (y := η / 4) (by rw [Real.dist_eq, sub_zero, abs_of_pos (by positivity)]; linarith)).1
    calc volume (A' \ A) ≤ volume (cthickening (η / 4) A \ A) := measure_mono (sdiff_subset_sdiff_left h2)
      _ = volume (cthickening (η / 4) A) - volume A := measure_sdiff (self_subset_cthickening A) hk.isClosed.measurableSet.nullMeasurableSet hfin
      _ ≤ ENNReal.ofReal ε := by
        rw [tsub_le_iff_left]; exact h3

/-- a hull is within `δ` of another whose points are within `δ` of its own -/
theorem Hull.body_subset_near {h h' : Hull ℝ} {δ : ℝ} (hδ : ∀ a ∈ h.points, ∃ b ∈ h'.points, vlen (a.sub b) ≤ δ) :
    h.body ⊆ cthickening δ h'.body := by
  apply convexHull_min
  · rintro _ ⟨a, ha, rfl⟩
    obtain ⟨b, hb, hd⟩ := hδ a ha
    refine mem_cthickening_of_dist_le _ b.toP _ _ (subset_convexHull ℝ _ ⟨b, hb, rfl⟩) ?_
    rw [dist_eq_norm]
    refine (norm_le_rad _).trans ?_
    refine le_trans (le_of_eq ?_) hd
    unfold rad vlen
    congr 1
    simp only [rdot, V3.toP, sub_x, sub_y, sub_z, Prod.fst_sub, Prod.snd_sub]; ring
  · exact (convex_convexHull ℝ _).cthickening δ

end
end Geec
