import Verif.Lemmas.NewtonInt
import Verif.Lemmas.HullSurface
import Mathlib.MeasureTheory.Constructions.HaarToSphere
import Mathlib.Analysis.Convex.Measure
import Mathlib.MeasureTheory.Group.Integral
import Mathlib.MeasureTheory.Integral.DominatedConvergence
import Mathlib.MeasureTheory.Integral.IntervalIntegral.FundThmCalculus
import Mathlib.MeasureTheory.Measure.Lebesgue.EqHaar
/-
Newton's potential `∫_B 1/|q - s| dq` of a bounded body with negligible boundary: it is continuously differentiable everywhere, also inside the body
and on its surface, and its gradient is the attraction.
-/
namespace Geec
open Arith MeasureTheory Metric Set Filter Topology
noncomputable section

/-- Euclidean length in `P3` (whose norm is the maximum norm) -/
def rad (y : P3) : ℝ := Real.sqrt (y.1 ^ 2 + y.2.1 ^ 2 + y.2.2 ^ 2)

theorem dist3_eq_rad (q : P3) (s : V3 ℝ) : dist3 q s = rad (q - s.toP) := rfl

theorem rad_continuous : Continuous rad := by unfold rad; fun_prop

theorem norm_le_rad (y : P3) : ‖y‖ ≤ rad y := by
  rw [Prod.norm_def, Prod.norm_def, max_le_iff, max_le_iff]
  refine ⟨?_, ?_, ?_⟩ <;> rw [Real.norm_eq_abs] <;> apply Real.abs_le_sqrt <;> nlinarith [sq_nonneg y.1, sq_nonneg y.2.1, sq_nonneg y.2.2]

theorem rad_nonneg (y : P3) : 0 ≤ rad y := Real.sqrt_nonneg _

theorem rad_pos {y : P3} (h : y ≠ 0) : 0 < rad y := (norm_pos_iff.mpr h).trans_le (norm_le_rad y)

theorem rad_zero : rad 0 = 0 := by simp [rad]

/-- the weight that dominates the kernels -/
def wt (y : P3) : ℝ := 1 / ‖y‖ ^ 2

theorem wt_nonneg (y : P3) : 0 ≤ wt y := by unfold wt; positivity

theorem wt_ball (R : ℝ) : IntegrableOn wt (ball 0 R) := by
  have h3 : Module.finrank ℝ P3 = 3 := by simp [P3]
  have := (integrableOn_fun_norm_addHaar (volume : Measure P3) (f := fun r : ℝ => 1 / r ^ 2) (r := R)).mpr ?_
  · exact this
  · rw [h3]
    have : IntegrableOn (fun _ : ℝ => (1 : ℝ)) (Ioo 0 R) := integrableOn_const (by simp)
    refine this.congr_fun (fun y hy => ?_) measurableSet_Ioo
    have : y ≠ 0 := ne_of_gt hy.1
    simp only [smul_eq_mul]
    field_simp

/-- a body contained in a ball, of negligible boundary -/
structure Decent (B : Set P3) : Prop where
  meas : MeasurableSet B
  bdd : Bornology.IsBounded B
  front : volume (frontier B) = 0

theorem Hull.body_decent (h : Hull ℝ) : Decent h.body :=
  ⟨h.body_compact.isClosed.measurableSet, h.body_compact.isBounded, (convex_convexHull ℝ _).addHaar_frontier volume⟩

section
variable {B : Set P3} {k : P3 → ℝ} {C : ℝ}

/-- the integral with the body moved instead of the kernel -/
theorem setIntegral_moved (hB : MeasurableSet B) (k : P3 → ℝ) (c : P3) : ∫ q in B, k (q - c) = ∫ y, B.indicator (fun _ => k y) (y + c) := by
  rw [← integral_indicator hB, ← integral_sub_right_eq_self (fun y => B.indicator (fun _ => k y) (y + c)) c]
  refine integral_congr_ae (Eventually.of_forall fun q => ?_)
  dsimp only
  rw [sub_add_cancel]
  by_cases hq : q ∈ B
  · rw [indicator_of_mem hq, indicator_of_mem hq]
  · rw [indicator_of_notMem hq, indicator_of_notMem hq]

/-- the moved integrand is dominated by the weight in a ball -/
theorem moved_le (hk : ∀ y, |k y| ≤ C * wt y) {M N : ℝ} (hM : B ⊆ ball 0 M) {c : P3} (hc : ‖c‖ ≤ N) (y : P3) :
    ‖B.indicator (fun _ => k y) (y + c)‖ ≤ (ball (0 : P3) (M + N)).indicator (fun y => C * wt y) y := by
  by_cases hy : y + c ∈ B
  · rw [indicator_of_mem hy, Real.norm_eq_abs, indicator_of_mem]
    · exact hk y
    · have h1 := mem_ball_zero_iff.mp (hM hy)
      rw [mem_ball_zero_iff]
      calc ‖y‖ = ‖(y + c) - c‖ := by rw [add_sub_cancel_right]
        _ ≤ ‖y + c‖ + ‖c‖ := norm_sub_le _ _
        _ < M + N := by linarith
  · rw [indicator_of_notMem hy, norm_zero]
    exact indicator_nonneg (fun z _ => (abs_nonneg _).trans (hk z)) y

theorem dom_integrable (C R : ℝ) : Integrable ((ball (0 : P3) R).indicator fun y => C * wt y) :=
  (integrable_indicator_iff measurableSet_ball).mpr ((wt_ball R).const_mul C)

theorem moved_meas (hB : MeasurableSet B) (hm : Measurable k) (c : P3) : Measurable fun y => B.indicator (fun _ => k y) (y + c) := by
  have : (fun y => B.indicator (fun _ => k y) (y + c)) = ((fun y => y + c) ⁻¹' B).indicator k := by
    funext y; rfl
  rw [this]
  exact hm.indicator (hB.preimage (measurable_id.add_const c))

/-- integrability of a dominated kernel -/
theorem kernel_integrable (hB : MeasurableSet B) (hb : Bornology.IsBounded B) (hm : Measurable k) (hk : ∀ y, |k y| ≤ C * wt y) (c : P3) :
    IntegrableOn (fun q => k (q - c)) B := by
  obtain ⟨M, hM⟩ := hb.subset_ball 0
  have h1 : Integrable fun y => B.indicator (fun _ => k y) (y + c) :=
    (dom_integrable C (M + ‖c‖)).mono' (moved_meas hB hm c).aestronglyMeasurable (Eventually.of_forall (moved_le hk hM le_rfl))
  rw [← integrable_indicator_iff hB]
  have h2 := h1.comp_sub_right c
  refine h2.congr (Eventually.of_forall fun q => ?_)
  dsimp only
  rw [sub_add_cancel]
  by_cases hq : q ∈ B
  · rw [indicator_of_mem hq, indicator_of_mem hq]
  · rw [indicator_of_notMem hq, indicator_of_notMem hq]

/-- the integral of a dominated kernel is a continuous function of the station -/
theorem kernel_continuous (hB : Decent B) (hm : Measurable k) (hk : ∀ y, |k y| ≤ C * wt y) : Continuous fun c => ∫ q in B, k (q - c) := by
  obtain ⟨M, hM⟩ := hB.bdd.subset_ball 0
  simp only [setIntegral_moved hB.meas]
  rw [continuous_iff_continuousAt]
  intro c
  refine tendsto_integral_filter_of_dominated_convergence ((ball (0 : P3) (M + (‖c‖ + 1))).indicator fun y => C * wt y) ?_ ?_ (dom_integrable _ _) ?_
  · exact Eventually.of_forall fun c' => (moved_meas hB.meas hm c').aestronglyMeasurable
  · filter_upwards [ball_mem_nhds c one_pos] with c' hc'
    refine Eventually.of_forall (moved_le hk hM ?_)
    have : ‖c' - c‖ < 1 := by rwa [mem_ball, dist_eq_norm] at hc'
    calc ‖c'‖ = ‖c + (c' - c)‖ := by rw [add_sub_cancel]
      _ ≤ ‖c‖ + ‖c' - c‖ := norm_add_le _ _
      _ ≤ ‖c‖ + 1 := by linarith
  · have h0 : volume ((fun y : P3 => y + c) ⁻¹' frontier B) = 0 := by rw [measure_preimage_add_right]; exact hB.front
    filter_upwards [compl_mem_ae_iff.mpr h0] with y hy
    have hcont : Tendsto (fun c' : P3 => y + c') (𝓝 c) (𝓝 (y + c)) := (continuous_const.add continuous_id).tendsto c
    refine tendsto_const_nhds.congr' ?_
    by_cases hyB : y + c ∈ interior B
    · filter_upwards [hcont (isOpen_interior.mem_nhds hyB)] with c' hc'
      rw [indicator_of_mem (interior_subset hyB), indicator_of_mem (interior_subset hc')]
    · have hnc : y + c ∉ closure B := fun h => hy ⟨h, hyB⟩
      filter_upwards [hcont (isClosed_closure.isOpen_compl.mem_nhds hnc)] with c' hc'
      rw [indicator_of_notMem (fun h => hnc (subset_closure h)), indicator_of_notMem (fun h => hc' (subset_closure h))]

/-- a bound of the integral of the absolute value, uniform in the station -/
theorem kernel_abs_le (hB : MeasurableSet B) (hk : ∀ y, |k y| ≤ C * wt y) {M N : ℝ} (hM : B ⊆ ball 0 M) {c : P3} (hc : ‖c‖ ≤ N) :
    ∫ q in B, ‖k (q - c)‖ ≤ ∫ y in ball (0 : P3) (M + N), C * wt y := by
  have hk' : ∀ y, |‖k y‖| ≤ C * wt y := fun y => by rw [Real.norm_eq_abs, abs_abs]; exact hk y
  rw [setIntegral_moved hB (fun y => ‖k y‖), ← integral_indicator measurableSet_ball]
  refine integral_mono_of_nonneg (Eventually.of_forall fun y => ?_) (dom_integrable _ _) (Eventually.of_forall fun y => ?_)
  · exact indicator_nonneg (fun _ _ => norm_nonneg _) _
  · exact (le_abs_self _).trans (moved_le hk' hM hc y)

end

/-- the line through `c` with direction `d` is negligible -/
theorem line_null (c d : P3) : volume {q : P3 | ∃ t : ℝ, q = c + t • d} = 0 := by
  have h : (Submodule.span ℝ {d} : Submodule ℝ P3) ≠ ⊤ := by
    intro h
    have h1 := finrank_span_le_card (R := ℝ) ({d} : Set P3)
    rw [h, finrank_top] at h1
    simp [P3] at h1
  have h0 := Measure.addHaar_submodule (volume : Measure P3) _ h
  have : {q : P3 | ∃ t : ℝ, q = c + t • d} = (fun q => q + -c) ⁻¹' (Submodule.span ℝ {d} : Submodule ℝ P3) := by
    ext q
    simp only [mem_ofPred_eq, mem_preimage, SetLike.mem_coe, Submodule.mem_span_singleton]
    constructor
    · rintro ⟨t, rfl⟩; exact ⟨t, by abel⟩
    · rintro ⟨t, ht⟩; exact ⟨t, by rw [ht]; abel⟩
  rw [this, measure_preimage_add_right]
  exact h0

/-- the kernel of the attraction in direction `d` -/
def pull (d y : P3) : ℝ := (y.1 * d.1 + y.2.1 * d.2.1 + y.2.2 * d.2.2) / rad y ^ 3

theorem pull_meas (d : P3) : Measurable (pull d) := by
  have := rad_continuous.measurable
  unfold pull; fun_prop

theorem pull_le (d y : P3) : |pull d y| ≤ (3 * ‖d‖) * wt y := by
  by_cases hy : y = 0
  · subst hy; simp [pull, wt]
  have hr := rad_pos hy
  have hn : 0 < ‖y‖ := norm_pos_iff.mpr hy
  have hle := norm_le_rad y
  have hd0 := norm_nonneg d
  have c1 : |y.1| ≤ ‖y‖ := norm_fst_le y
  have c2 : |y.2.1| ≤ ‖y‖ := (norm_fst_le y.2).trans (norm_snd_le y)
  have c3 : |y.2.2| ≤ ‖y‖ := (norm_snd_le y.2).trans (norm_snd_le y)
  have e1 : |d.1| ≤ ‖d‖ := norm_fst_le d
  have e2 : |d.2.1| ≤ ‖d‖ := (norm_fst_le d.2).trans (norm_snd_le d)
  have e3 : |d.2.2| ≤ ‖d‖ := (norm_snd_le d.2).trans (norm_snd_le d)
  have hnum : |y.1 * d.1 + y.2.1 * d.2.1 + y.2.2 * d.2.2| ≤ 3 * ‖d‖ * ‖y‖ := by
    have := abs_add_three (y.1 * d.1) (y.2.1 * d.2.1) (y.2.2 * d.2.2)
    rw [abs_mul, abs_mul, abs_mul] at this
    have m1 := mul_le_mul c1 e1 (abs_nonneg _) hn.le
    have m2 := mul_le_mul c2 e2 (abs_nonneg _) hn.le
    have m3 := mul_le_mul c3 e3 (abs_nonneg _) hn.le
    linarith
  unfold pull wt
  rw [abs_div, abs_of_pos (pow_pos hr 3)]
  calc |y.1 * d.1 + y.2.1 * d.2.1 + y.2.2 * d.2.2| / rad y ^ 3 ≤ (3 * ‖d‖ * ‖y‖) / ‖y‖ ^ 3 := by gcongr
    _ = 3 * ‖d‖ * (1 / ‖y‖ ^ 2) := by field_simp

/-- along a line that misses `q` the inverse distance changes by the pull -/
theorem inv_rad_deriv (c d q : P3) {t : ℝ} (h : q - (c + t • d) ≠ 0) : HasDerivAt (fun t : ℝ => 1 / rad (q - (c + t • d))) (pull d (q - (c + t • d))) t := by
  have hr := rad_pos h
  have h1 : HasDerivAt (fun t : ℝ => (q - (c + t • d)).1) (-d.1) t := by
    simp only [Prod.fst_sub, Prod.fst_add, Prod.smul_fst, smul_eq_mul]
    simpa using (((hasDerivAt_id t).mul_const d.1).const_add c.1).const_sub q.1
  have h2 : HasDerivAt (fun t : ℝ => (q - (c + t • d)).2.1) (-d.2.1) t := by
    simp only [Prod.snd_sub, Prod.snd_add, Prod.smul_snd, Prod.fst_sub, Prod.fst_add, Prod.smul_fst, smul_eq_mul]
    simpa using (((hasDerivAt_id t).mul_const d.2.1).const_add c.2.1).const_sub q.2.1
  have h3 : HasDerivAt (fun t : ℝ => (q - (c + t • d)).2.2) (-d.2.2) t := by
    simp only [Prod.snd_sub, Prod.snd_add, Prod.smul_snd, smul_eq_mul]
    simpa using (((hasDerivAt_id t).mul_const d.2.2).const_add c.2.2).const_sub q.2.2
  set y := q - (c + t • d) with hy
  have hsq : HasDerivAt (fun t : ℝ => (q - (c + t • d)).1 ^ 2 + (q - (c + t • d)).2.1 ^ 2 + (q - (c + t • d)).2.2 ^ 2)
      (2 * y.1 * -d.1 + 2 * y.2.1 * -d.2.1 + 2 * y.2.2 * -d.2.2) t := by
    refine (((h1.pow 2).add (h2.pow 2)).add (h3.pow 2)).congr_deriv ?_
    simp only [← hy]; ring
  have hpos : (q - (c + t • d)).1 ^ 2 + (q - (c + t • d)).2.1 ^ 2 + (q - (c + t • d)).2.2 ^ 2 ≠ 0 := by
    rw [← hy]; exact (Real.sqrt_pos.mp hr).ne'
  have hrad : HasDerivAt (fun t : ℝ => rad (q - (c + t • d))) ((2 * y.1 * -d.1 + 2 * y.2.1 * -d.2.1 + 2 * y.2.2 * -d.2.2) / (2 * rad y)) t := hsq.sqrt hpos
  have := hrad.inv (by rw [← hy]; exact hr.ne')
  simp only [one_div]
  refine this.congr_deriv ?_
  rw [← hy]
  unfold pull
  field_simp
  ring

/-- Newton's potential of the body -/
def potential (B : Set P3) (s : V3 ℝ) : ℝ := ∫ q in B, 1 / dist3 q s

theorem inv_rad_meas : Measurable fun y => 1 / rad y := measurable_const.div rad_continuous.measurable

/-- the inverse distance is integrable over a bounded set -/
theorem inv_integrable {B : Set P3} (hB : MeasurableSet B) (hb : Bornology.IsBounded B) (c : P3) : IntegrableOn (fun q => 1 / rad (q - c)) B := by
  obtain ⟨M, hM⟩ := hb.subset_ball c
  have hM0 : 0 ≤ |M| := abs_nonneg M
  have h1 : IntegrableOn (fun q => |M| * wt (q - c)) B :=
    kernel_integrable (k := fun y => |M| * wt y) (C := |M|) hB hb (by unfold wt; fun_prop) (fun y => by rw [abs_of_nonneg (mul_nonneg hM0 (wt_nonneg y))]) c
  refine Integrable.mono' h1 (inv_rad_meas.comp (measurable_id.sub_const c)).aestronglyMeasurable ?_
  refine (ae_restrict_iff' hB).mpr (Eventually.of_forall fun q hq => ?_)
  have hq' : ‖q - c‖ < M := by have := hM hq; rwa [mem_ball, dist_eq_norm] at this
  have hr := norm_le_rad (q - c)
  rw [Real.norm_eq_abs, abs_of_nonneg (by have := rad_nonneg (q - c); positivity)]
  by_cases h0 : q - c = 0
  · rw [h0]; simp [rad, wt]
  have hn : 0 < ‖q - c‖ := norm_pos_iff.mpr h0
  unfold wt
  rw [abs_of_pos (hn.trans hq'), mul_one_div, div_le_div_iff₀ (rad_pos h0) (pow_pos hn 2)]
  nlinarith

/-- **Fubini** along a segment: the potential changes by the integral of the attraction -/
theorem potential_segment {B : Set P3} (hB : Decent B) (c d : P3) {a b : ℝ} (hab : a ≤ b) :
    ∫ t in a..b, ∫ q in B, pull d (q - (c + t • d)) = (∫ q in B, 1 / rad (q - (c + b • d))) - ∫ q in B, 1 / rad (q - (c + a • d)) := by
  obtain ⟨M, hM⟩ := hB.bdd.subset_ball 0
  have hmeas : Measurable fun z : P3 × ℝ => pull d (z.1 - (c + z.2 • d)) := (pull_meas d).comp (by fun_prop)
  have hint : Integrable (fun z : P3 × ℝ => pull d (z.1 - (c + z.2 • d))) ((volume.restrict B).prod (volume.restrict (Ioc a b))) := by
    have hslice : ∀ t : ℝ, Integrable (fun q : P3 => pull d (q - (c + t • d))) (volume.restrict B) := fun t =>
      kernel_integrable (k := pull d) hB.meas hB.bdd (pull_meas d) (pull_le d) (c + t • d)
    refine (integrable_prod_iff' hmeas.aestronglyMeasurable).mpr ⟨Eventually.of_forall hslice, ?_⟩
    set K := ∫ y in ball (0 : P3) (M + (‖c‖ + (|a| + |b|) * ‖d‖)), 3 * ‖d‖ * wt y with hK
    have hconst : Integrable (fun _ : ℝ => K) (volume.restrict (Ioc a b)) := integrableOn_const (by simp)
    refine Integrable.mono' hconst ?_ ?_
    · have h1 : StronglyMeasurable fun z : ℝ × P3 => ‖pull d (z.2 - (c + z.1 • d))‖ := ((pull_meas d).comp (by fun_prop)).stronglyMeasurable.norm
      exact (h1.integral_prod_right (ν := volume.restrict B)).aestronglyMeasurable
    · refine (ae_restrict_iff' measurableSet_Ioc).mpr (Eventually.of_forall fun t ht => ?_)
      rw [Real.norm_eq_abs, abs_of_nonneg (integral_nonneg fun _ => norm_nonneg _)]
      rw [hK]
      refine kernel_abs_le (k := pull d) (c := c + t • d) (N := ‖c‖ + (|a| + |b|) * ‖d‖) hB.meas (pull_le d) hM ?_
      have : |t| ≤ |a| + |b| := by
        rw [abs_le]; constructor
        · linarith [neg_abs_le a, abs_nonneg b, ht.1]
        · linarith [le_abs_self b, abs_nonneg a, ht.2]
      calc ‖c + t • d‖ ≤ ‖c‖ + ‖t • d‖ := norm_add_le _ _
        _ = ‖c‖ + |t| * ‖d‖ := by rw [norm_smul, Real.norm_eq_abs]
        _ ≤ _ := by have := mul_le_mul_of_nonneg_right this (norm_nonneg d); linarith
  rw [intervalIntegral.integral_of_le hab]
  have hswap := integral_integral_swap (μ := volume.restrict B) (ν := volume.restrict (Ioc a b)) (f := fun q t => pull d (q - (c + t • d))) hint
  rw [← hswap, ← integral_sub (inv_integrable hB.meas hB.bdd _) (inv_integrable hB.meas hB.bdd _)]
  refine integral_congr_ae (ae_restrict_of_ae ?_)
  filter_upwards [compl_mem_ae_iff.mpr (line_null c d)] with q hq
  have hne : ∀ t : ℝ, q - (c + t • d) ≠ 0 := fun t h => hq ⟨t, sub_eq_zero.mp h⟩
  rw [← intervalIntegral.integral_of_le hab]
  refine intervalIntegral.integral_eq_sub_of_hasDerivAt (fun t _ => inv_rad_deriv c d q (hne t)) ?_
  refine Continuous.intervalIntegrable ?_ _ _
  unfold pull
  refine Continuous.div (by fun_prop) ((rad_continuous.comp (by fun_prop)).pow 3) fun t => pow_ne_zero 3 (rad_pos (hne t)).ne'

theorem rdot_attraction {B : Set P3} (hB : Decent B) (s d : V3 ℝ) : rdot (attraction B s) d = ∫ q in B, pull d.toP (q - s.toP) := by
  have hi : ∀ e : P3, IntegrableOn (fun q => pull e (q - s.toP)) B := fun e => kernel_integrable hB.meas hB.bdd (pull_meas e) (pull_le e) _
  have hx : (fun q : P3 => (q.1 - s.x) / dist3 q s ^ 3) = fun q => pull (1, 0, 0) (q - s.toP) := by
    funext q; simp [pull, dist3_eq_rad, V3.toP]
  have hy : (fun q : P3 => (q.2.1 - s.y) / dist3 q s ^ 3) = fun q => pull (0, 1, 0) (q - s.toP) := by
    funext q; simp [pull, dist3_eq_rad, V3.toP]
  have hz : (fun q : P3 => (q.2.2 - s.z) / dist3 q s ^ 3) = fun q => pull (0, 0, 1) (q - s.toP) := by
    funext q; simp [pull, dist3_eq_rad, V3.toP]
  unfold attraction rdot
  dsimp only
  rw [hx, hy, hz, ← integral_mul_const, ← integral_mul_const, ← integral_mul_const,
    ← integral_add ((hi _).mul_const _) ((hi _).mul_const _)]
  rw [← integral_add (f := fun a => pull (1, 0, 0) (a - s.toP) * d.x + pull (0, 1, 0) (a - s.toP) * d.y) (((hi _).mul_const _).add ((hi _).mul_const _)) ((hi _).mul_const _)]
  refine integral_congr_ae (Eventually.of_forall fun q => ?_)
  simp only [pull, V3.toP, mul_one, mul_zero, add_zero, zero_add]
  ring

theorem toP_line (s d : V3 ℝ) (t : ℝ) : (s.add (V3.smul t d)).toP = s.toP + t • d.toP := rfl

/-- the attraction is a continuous function of the station -/
theorem attraction_continuous {B : Set P3} (hB : Decent B) (s d e : V3 ℝ) : Continuous fun t : ℝ => rdot (attraction B (s.add (V3.smul t d))) e := by
  simp only [rdot_attraction hB, toP_line]
  exact (kernel_continuous hB (pull_meas e.toP) (pull_le e.toP)).comp (by fun_prop)

/-- the work of the attraction along a segment is the difference of the potentials -/
theorem attraction_work {B : Set P3} (hB : Decent B) (s d : V3 ℝ) (a b : ℝ) :
    ∫ t in a..b, rdot (attraction B (s.add (V3.smul t d))) d = potential B (s.add (V3.smul b d)) - potential B (s.add (V3.smul a d)) := by
  simp only [rdot_attraction hB, toP_line]
  unfold potential
  simp only [dist3_eq_rad, toP_line]
  rcases le_total a b with h | h
  · exact potential_segment hB _ _ h
  · rw [intervalIntegral.integral_symm, potential_segment hB _ _ h, neg_sub]

/-- the attraction is the gradient of the potential, everywhere -/
theorem potential_gradient {B : Set P3} (hB : Decent B) (s d : V3 ℝ) : HasDerivAt (fun x : ℝ => potential B (s.add (V3.smul x d))) (rdot (attraction B s) d) 0 := by
  have h0 : s.add (V3.smul 0 d) = s := by
    unfold V3.add V3.smul; simp [Arith.add, Arith.mul]
  have hc := attraction_continuous hB s d d
  have h := intervalIntegral.integral_hasDerivAt_right (hc.intervalIntegrable 0 0) (hc.stronglyMeasurableAtFilter volume (𝓝 0)) hc.continuousAt
  simp only [attraction_work hB s d 0, h0] at h
  have h := h.add_const (potential B s)
  simpa using h

end
end Geec
