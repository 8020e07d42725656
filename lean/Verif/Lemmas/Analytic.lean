import Verif.Lemmas.TensorPlane
import Mathlib.Analysis.Complex.CauchyIntegral
import Mathlib.Analysis.Analytic.IsolatedZeros
import Mathlib.Analysis.Calculus.ParametricIntegral
import Mathlib.Analysis.SpecialFunctions.Pow.Deriv
/-
The shares of the faces are analytic functions of the station, along every line, away from the face.
-/
namespace Geec
open Arith MeasureTheory Filter Topology
noncomputable section

/-- integrals of powers of a quadratic polynomial, as functions of its variable -/
theorem analytic_kernel {X : Type} [MeasurableSpace X] {μ : Measure X} [IsFiniteMeasure μ] {n0 n1 r0 r1 : X → ℝ} (m0 : Measurable n0) (m1 : Measurable n1)
    (mr0 : Measurable r0) (mr1 : Measurable r1) (r2 k : ℝ) (hk : 0 ≤ k) {C δ : ℝ} (hδ : 0 < δ)
    (hC : ∀ᵐ x ∂μ, |n0 x| ≤ C ∧ |n1 x| ≤ C ∧ |r0 x| ≤ C ∧ |r1 x| ≤ C ∧ δ ≤ r0 x) :
    AnalyticAt ℝ (fun t : ℝ => ∫ x, (n0 x + n1 x * t) * (r0 x + r1 x * t + r2 * t ^ 2) ^ (-k) ∂μ) 0 := by
  -- the case of the zero measure
  rcases eq_or_ne μ 0 with rfl | hμ
  · simp only [integral_zero_measure]; exact analyticAt_const
  have : NeZero μ := ⟨hμ⟩
  obtain ⟨x0, hx0⟩ := hC.exists
  have hC0 : 0 ≤ C := (abs_nonneg _).trans hx0.1
  set ε : ℝ := min 1 (δ / (2 * (C + |r2| + 1))) with hε
  have hε0 : 0 < ε := by rw [hε]; positivity
  have hε1 : ε ≤ 1 := min_le_left _ _
  have hε2 : (C + |r2|) * ε ≤ δ / 2 := by
    have h1 : ε ≤ δ / (2 * (C + |r2| + 1)) := min_le_right _ _
    have h2 : 0 ≤ C + |r2| := by positivity
    calc (C + |r2|) * ε ≤ (C + |r2| + 1) * (δ / (2 * (C + |r2| + 1))) := by
          apply mul_le_mul (by linarith) h1 hε0.le (by linarith)
      _ = δ / 2 := by field_simp
  let R : X → ℂ → ℂ := fun x z => r0 x + r1 x * z + r2 * z ^ 2
  let F : ℂ → X → ℂ := fun z x => (n0 x + n1 x * z) * R x z ^ (((-k : ℝ)) : ℂ)
  let F' : ℂ → X → ℂ := fun z x => n1 x * R x z ^ ((-k : ℝ) : ℂ) + (n0 x + n1 x * z) * (((-k : ℝ) : ℂ) * R x z ^ (((-k : ℝ) : ℂ) - 1) * (r1 x + 2 * r2 * z))
  have hre : ∀ᵐ x ∂μ, ∀ z ∈ Metric.ball (0 : ℂ) ε, δ / 2 ≤ (R x z).re := by
    filter_upwards [hC] with x hx z hz
    have hz : ‖z‖ < ε := by simpa using hz
    have e1 : R x z = (r0 x : ℂ) + (r1 x * z + r2 * z ^ 2) := by simp only [R]; ring
    have h2 : ‖(r1 x : ℂ) * z + r2 * z ^ 2‖ ≤ δ / 2 := by
      refine (norm_add_le _ _).trans ?_
      rw [norm_mul, norm_mul, norm_pow, Complex.norm_real, Complex.norm_real, Real.norm_eq_abs, Real.norm_eq_abs]
      have h3 : ‖z‖ ^ 2 ≤ ‖z‖ := by
        rw [pow_two]
        exact (mul_le_mul_of_nonneg_left (hz.le.trans hε1) (norm_nonneg z)).trans (mul_one _).le
      have h4 := hx.2.2.2.1
      have h5 : |r1 x| * ‖z‖ ≤ C * ‖z‖ := mul_le_mul_of_nonneg_right h4 (norm_nonneg z)
      have h6 : |r2| * ‖z‖ ^ 2 ≤ |r2| * ‖z‖ := mul_le_mul_of_nonneg_left h3 (abs_nonneg _)
      have h7 : (C + |r2|) * ‖z‖ ≤ (C + |r2|) * ε := mul_le_mul_of_nonneg_left hz.le (by positivity)
      linarith
    rw [e1, Complex.add_re, Complex.ofReal_re]
    have h3 := (abs_le.mp ((Complex.abs_re_le_norm _).trans h2)).1
    linarith [hx.2.2.2.2]
  have hslit : ∀ᵐ x ∂μ, ∀ z ∈ Metric.ball (0 : ℂ) ε, R x z ∈ Complex.slitPlane := by
    filter_upwards [hre] with x hx z hz
    exact .inl (by linarith [hx z hz])
  have hpow : ∀ᵐ x ∂μ, ∀ z ∈ Metric.ball (0 : ℂ) ε, ‖R x z ^ ((-k : ℝ) : ℂ)‖ ≤ (δ / 2) ^ (-k) := by
    filter_upwards [hre] with x hx z hz
    rw [Complex.norm_cpow_real]
    exact Real.rpow_le_rpow_of_nonpos (by positivity) ((hx z hz).trans (Complex.re_le_norm _)) (by linarith)
  have hpow1 : ∀ᵐ x ∂μ, ∀ z ∈ Metric.ball (0 : ℂ) ε, ‖R x z ^ (((-k : ℝ) : ℂ) - 1)‖ ≤ (δ / 2) ^ (-k - 1) := by
    filter_upwards [hre] with x hx z hz
    have : (((-k : ℝ) : ℂ) - 1) = ((-k - 1 : ℝ) : ℂ) := by push_cast; ring
    rw [this, Complex.norm_cpow_real]
    exact Real.rpow_le_rpow_of_nonpos (by positivity) ((hx z hz).trans (Complex.re_le_norm _)) (by linarith)
  have hRm : ∀ z, Measurable (fun x => R x z) := by
    intro z
    have h1 : Measurable fun x => (r0 x : ℂ) := Complex.measurable_ofReal.comp mr0
    have h2 : Measurable fun x => (r1 x : ℂ) := Complex.measurable_ofReal.comp mr1
    exact (h1.add (h2.mul_const _)).add_const _
  have c0 : Measurable fun x => (n0 x : ℂ) := Complex.measurable_ofReal.comp m0
  have c1 : Measurable fun x => (n1 x : ℂ) := Complex.measurable_ofReal.comp m1
  have cr1 : Measurable fun x => (r1 x : ℂ) := Complex.measurable_ofReal.comp mr1
  have hFm : ∀ z, Measurable (F z) := fun z => (c0.add (c1.mul_const _)).mul ((hRm z).pow_const _)
  have hF'm : ∀ z, Measurable (F' z) := fun z => (c1.mul ((hRm z).pow_const _)).add
    ((c0.add (c1.mul_const _)).mul ((((hRm z).pow_const _).const_mul _).mul (cr1.add_const _)))
  have hn : ∀ᵐ x ∂μ, ∀ z ∈ Metric.ball (0 : ℂ) ε, ‖(n0 x : ℂ) + n1 x * z‖ ≤ 2 * C := by
    filter_upwards [hC] with x hx z hz
    have hz : ‖z‖ < ε := by simpa using hz
    refine (norm_add_le _ _).trans ?_
    rw [norm_mul, Complex.norm_real, Complex.norm_real, Real.norm_eq_abs, Real.norm_eq_abs]
    have : |n1 x| * ‖z‖ ≤ C * 1 := mul_le_mul hx.2.1 (hz.le.trans hε1) (norm_nonneg z) hC0
    linarith [hx.1]
  have hd : ∀ᵐ x ∂μ, ∀ z ∈ Metric.ball (0 : ℂ) ε, HasDerivAt (fun z => F z x) (F' z x) z := by
    filter_upwards [hslit] with x hx z hz
    have hR : HasDerivAt (fun z => R x z) (r1 x + 2 * r2 * z) z := by
      have h1 : HasDerivAt (fun z : ℂ => (r0 x : ℂ) + r1 x * z) (r1 x) z := by
        simpa using ((hasDerivAt_id z).const_mul (r1 x : ℂ)).const_add (r0 x : ℂ)
      have h2 : HasDerivAt (fun z : ℂ => (r2 : ℂ) * z ^ 2) (2 * r2 * z) z := by
        have := (hasDerivAt_pow 2 z).const_mul (r2 : ℂ)
        refine this.congr_deriv ?_
        simp; ring
      exact h1.add h2
    have h1 : HasDerivAt (fun z : ℂ => (n0 x : ℂ) + n1 x * z) (n1 x) z := by
      simpa using ((hasDerivAt_id z).const_mul (n1 x : ℂ)).const_add (n0 x : ℂ)
    exact h1.mul (hR.cpow_const (hx z hz))
  have hFi : ∀ z ∈ Metric.ball (0 : ℂ) ε, Integrable (F z) μ := by
    intro z hz
    refine Integrable.mono' (integrable_const (2 * C * (δ / 2) ^ (-k))) (hFm z).aestronglyMeasurable ?_
    filter_upwards [hn, hpow] with x h1 h2
    simp only [F]
    rw [norm_mul]
    exact mul_le_mul (h1 z hz) (h2 z hz) (norm_nonneg _) (by linarith)
  have hbound : ∀ᵐ x ∂μ, ∀ z ∈ Metric.ball (0 : ℂ) ε, ‖F' z x‖ ≤ C * (δ / 2) ^ (-k) + 2 * C * (k * (δ / 2) ^ (-k - 1) * (C + 2 * |r2|)) := by
    filter_upwards [hC, hn, hpow, hpow1] with x hx h1 h2 h3 z hz
    have hzε : ‖z‖ < ε := by simpa using hz
    simp only [F']
    refine (norm_add_le _ _).trans (add_le_add ?_ ?_)
    · rw [norm_mul, Complex.norm_real, Real.norm_eq_abs]
      exact mul_le_mul hx.2.1 (h2 z hz) (norm_nonneg _) hC0
    · rw [norm_mul, norm_mul, norm_mul, Complex.norm_real, Real.norm_eq_abs, abs_neg, abs_of_nonneg hk]
      have h4 : ‖(r1 x : ℂ) + 2 * r2 * z‖ ≤ C + 2 * |r2| := by
        refine (norm_add_le _ _).trans (add_le_add ?_ ?_)
        · rw [Complex.norm_real, Real.norm_eq_abs]; exact hx.2.2.2.1
        · rw [norm_mul, norm_mul, Complex.norm_real, Real.norm_eq_abs]
          have h5 : ‖(2 : ℂ)‖ = 2 := by norm_num
          rw [h5]
          exact (mul_le_mul_of_nonneg_left (hzε.le.trans hε1) (by positivity)).trans (mul_one _).le
      refine mul_le_mul (h1 z hz) ?_ (by positivity) (by linarith)
      exact mul_le_mul (mul_le_mul_of_nonneg_left (h3 z hz) hk) h4 (norm_nonneg _) (by positivity)
  have hdiff : DifferentiableOn ℂ (fun z => ∫ x, F z x ∂μ) (Metric.ball 0 ε) := by
    intro z hz
    have hs : Metric.ball (0 : ℂ) ε ∈ 𝓝 z := Metric.isOpen_ball.mem_nhds hz
    exact ((hasDerivAt_integral_of_dominated_loc_of_deriv_le hs (Eventually.of_forall fun z => (hFm z).aestronglyMeasurable) (hFi z hz) (hF'm z).aestronglyMeasurable hbound
      (integrable_const _) hd).2).differentiableAt.differentiableWithinAt
  have hA : AnalyticAt ℂ (fun z => ∫ x, F z x ∂μ) 0 := hdiff.analyticAt (Metric.ball_mem_nhds 0 hε0)
  have hA1 : AnalyticAt ℝ (fun z => ∫ x, F z x ∂μ) ((fun t : ℝ => (t : ℂ)) 0) := by
    simpa using hA.restrictScalars (𝕜 := ℝ)
  have hof : AnalyticAt ℝ (fun t : ℝ => (t : ℂ)) 0 := Complex.ofRealCLM.analyticAt 0
  have hA2 : AnalyticAt ℝ (fun t : ℝ => ∫ x, F (t : ℂ) x ∂μ) 0 := hA1.comp hof
  have hA3 : AnalyticAt ℝ (fun t : ℝ => Complex.re (∫ x, F (t : ℂ) x ∂μ)) 0 := (Complex.reCLM.analyticAt _).comp hA2
  refine hA3.congr ?_
  have hev : ∀ᶠ t : ℝ in 𝓝 0, |t| < ε := by
    have := Metric.ball_mem_nhds (0 : ℝ) hε0
    filter_upwards [this] with t ht
    simpa using ht
  filter_upwards [hev] with t ht
  have htb : (t : ℂ) ∈ Metric.ball (0 : ℂ) ε := by simpa using ht
  have e2 : (fun x => F (t : ℂ) x) =ᵐ[μ] fun x => (((n0 x + n1 x * t) * (r0 x + r1 x * t + r2 * t ^ 2) ^ (-k) : ℝ) : ℂ) := by
    filter_upwards [hre] with x hx
    have h1 := hx t htb
    have h2 : R x t = ((r0 x + r1 x * t + r2 * t ^ 2 : ℝ) : ℂ) := by simp only [R]; push_cast; ring
    rw [h2, Complex.ofReal_re] at h1
    simp only [F]
    rw [h2, ← Complex.ofReal_cpow (by linarith)]
    push_cast
    ring
  rw [integral_congr_ae e2, integral_complex_ofReal, Complex.ofReal_re]

theorem vlen_pow_neg (r : V3 ℝ) : 1 / vlen r ^ 3 = rdot r r ^ (-(3 / 2 : ℝ)) := by
  have h0 : 0 ≤ rdot r r := rdot_self_nonneg r
  unfold vlen
  rw [Real.rpow_neg h0, one_div, Real.sqrt_eq_rpow, ← Real.rpow_natCast, ← Real.rpow_mul h0]
  norm_num

theorem vlen_inv (r : V3 ℝ) : 1 / vlen r = rdot r r ^ (-(1 / 2 : ℝ)) := by
  have h0 : 0 ≤ rdot r r := rdot_self_nonneg r
  unfold vlen
  rw [Real.rpow_neg h0, one_div, Real.sqrt_eq_rpow]

theorem rdot_move (r d : V3 ℝ) (t : ℝ) : rdot (r.sub (V3.smul t d)) (r.sub (V3.smul t d)) = rdot r r + -(2 * rdot r d) * t + rdot d d * t ^ 2 := by
  simp [rdot]; ring

theorem sub_move (a s d : V3 ℝ) (t : ℝ) : a.sub (s.add (V3.smul t d)) = (a.sub s).sub (V3.smul t d) := by
  refine V3.ext' ?_ ?_ ?_ <;> simp <;> ring

theorem setIntegral_square_on {f : ℝ × ℝ → ℝ} (hf : ContinuousOn f (Set.Icc 0 1 ×ˢ Set.Icc 0 1)) :
    ∫ z in Set.Ioo 0 1 ×ˢ Set.Ioo 0 1, f z = ∫ s in (0 : ℝ)..1, ∫ v in (0 : ℝ)..1, f (s, v) := by
  have hi : IntegrableOn f (Set.Ioo 0 1 ×ˢ Set.Ioo 0 1) := (hf.integrableOn_compact (isCompact_Icc.prod isCompact_Icc)).mono_set
    (Set.prod_mono Set.Ioo_subset_Icc_self Set.Ioo_subset_Icc_self)
  rw [Measure.volume_eq_prod, setIntegral_prod f hi]
  rw [intervalIntegral.integral_of_le zero_le_one, integral_Ioc_eq_integral_Ioo]
  simp only [intervalIntegral.integral_of_le zero_le_one, integral_Ioc_eq_integral_Ioo]

/-- a station off the triangle has a positive distance from it -/
theorem offTriangle_gap {a b c s : V3 ℝ} (ho : OffTriangle a b c s) :
    ∃ δ > 0, ∀ z ∈ Set.Icc (0 : ℝ) 1 ×ˢ Set.Icc (0 : ℝ) 1, δ ≤ rdot (triPt (a.sub s) (b.sub s) (c.sub s) z.1 z.2) (triPt (a.sub s) (b.sub s) (c.sub s) z.1 z.2) := by
  have hc : Continuous (fun z : ℝ × ℝ => rdot (triPt (a.sub s) (b.sub s) (c.sub s) z.1 z.2) (triPt (a.sub s) (b.sub s) (c.sub s) z.1 z.2)) := by
    simp only [rdot, triPt, add_x, add_y, add_z, smul_x, smul_y, smul_z]; fun_prop
  obtain ⟨z, hz, hm⟩ := (isCompact_Icc.prod isCompact_Icc : IsCompact (Set.Icc (0 : ℝ) 1 ×ˢ Set.Icc (0 : ℝ) 1)).exists_isMinOn ⟨((0 : ℝ), (0 : ℝ)), by simp⟩ hc.continuousOn
  exact ⟨_, rdot_self_pos (ho _ hz.1 _ hz.2), fun z' hz' => hm hz'⟩

theorem faceW_analytic {a b c s : V3 ℝ} (ho : OffTriangle a b c s) (d e : V3 ℝ) :
    AnalyticAt ℝ (fun t => faceW (a.sub (s.add (V3.smul t d))) (b.sub (s.add (V3.smul t d))) (c.sub (s.add (V3.smul t d))) e) 0 := by
  obtain ⟨δ, hδ, hgap⟩ := offTriangle_gap ho
  set Q : ℝ × ℝ → V3 ℝ := fun z => triPt (a.sub s) (b.sub s) (c.sub s) z.1 z.2 with hQ
  have cQ : ∀ e, Continuous (fun z => rdot (Q z) e) := fun e => continuous_triPt_dot e
  have cQQ : Continuous (fun z => rdot (Q z) (Q z)) := by
    simp only [hQ, rdot, triPt, add_x, add_y, add_z, smul_x, smul_y, smul_z]; fun_prop
  have hK : IsCompact (Set.Icc (0 : ℝ) 1 ×ˢ Set.Icc (0 : ℝ) 1) := isCompact_Icc.prod isCompact_Icc
  have hsub : Set.Ioo (0 : ℝ) 1 ×ˢ Set.Ioo (0 : ℝ) 1 ⊆ Set.Icc (0 : ℝ) 1 ×ˢ Set.Icc (0 : ℝ) 1 := Set.prod_mono Set.Ioo_subset_Icc_self Set.Ioo_subset_Icc_self
  let n0 : ℝ × ℝ → ℝ := fun z => z.2 * rdot (Q z) e
  let n1 : ℝ × ℝ → ℝ := fun z => -(z.2 * rdot d e)
  let r0 : ℝ × ℝ → ℝ := fun z => rdot (Q z) (Q z)
  let r1 : ℝ × ℝ → ℝ := fun z => -(2 * rdot (Q z) d)
  have k0 : Continuous n0 := continuous_snd.mul (cQ e)
  have k1 : Continuous n1 := (continuous_snd.mul continuous_const).neg
  have kr1 : Continuous r1 := (continuous_const.mul (cQ d)).neg
  obtain ⟨C0, hC0⟩ := hK.exists_bound_of_continuousOn k0.continuousOn
  obtain ⟨C1, hC1⟩ := hK.exists_bound_of_continuousOn k1.continuousOn
  obtain ⟨C2, hC2⟩ := hK.exists_bound_of_continuousOn cQQ.continuousOn
  obtain ⟨C3, hC3⟩ := hK.exists_bound_of_continuousOn kr1.continuousOn
  have hfin : IsFiniteMeasure (volume.restrict (Set.Ioo (0 : ℝ) 1 ×ˢ Set.Ioo (0 : ℝ) 1)) :=
    ⟨by rw [Measure.restrict_apply_univ]; exact (measure_mono hsub).trans_lt hK.measure_lt_top⟩
  have hmeas : MeasurableSet (Set.Ioo (0 : ℝ) 1 ×ˢ Set.Ioo (0 : ℝ) 1) := measurableSet_Ioo.prod measurableSet_Ioo
  have key := analytic_kernel (μ := volume.restrict (Set.Ioo (0 : ℝ) 1 ×ˢ Set.Ioo (0 : ℝ) 1)) k0.measurable k1.measurable cQQ.measurable kr1.measurable (rdot d d) (3 / 2)
    (by norm_num) (C := max (max C0 C1) (max C2 C3)) hδ (by
      filter_upwards [ae_restrict_mem hmeas] with z hz
      have hz := hsub hz
      have g0 := hC0 z hz
      have g1 := hC1 z hz
      have g2 := hC2 z hz
      have g3 := hC3 z hz
      rw [Real.norm_eq_abs] at g0 g1 g2 g3
      exact ⟨g0.trans ((le_max_left _ _).trans (le_max_left _ _)), g1.trans ((le_max_right _ _).trans (le_max_left _ _)),
        g2.trans ((le_max_left _ _).trans (le_max_right _ _)), g3.trans ((le_max_right _ _).trans (le_max_right _ _)), hgap z hz⟩)
  refine key.congr ?_
  -- nearby stations are off the triangle too
  have hev : ∀ᶠ t : ℝ in 𝓝 0, ∀ z ∈ Set.Icc (0 : ℝ) 1 ×ˢ Set.Icc (0 : ℝ) 1, 0 < rdot ((Q z).sub (V3.smul t d)) ((Q z).sub (V3.smul t d)) := by
    set M := max C2 C3 with hM
    have hM0 : ∀ᶠ t : ℝ in 𝓝 0, M * |t| < δ := by
      have : Tendsto (fun t : ℝ => M * |t|) (𝓝 0) (𝓝 (M * |0|)) := (continuous_const.mul continuous_abs).tendsto 0
      rw [abs_zero, mul_zero] at this
      exact this.eventually_lt_const hδ
    filter_upwards [hM0] with t ht z hz
    rw [rdot_move]
    have g3 := hC3 z hz
    rw [Real.norm_eq_abs] at g3
    have h1 : |r1 z * t| ≤ M * |t| := by
      rw [abs_mul]; exact mul_le_mul_of_nonneg_right (g3.trans (le_max_right _ _)) (abs_nonneg _)
    have h2 := (abs_le.mp h1).1
    have h3 : 0 ≤ rdot d d * t ^ 2 := mul_nonneg (rdot_self_nonneg d) (sq_nonneg t)
    have h4 := hgap z hz
    change 0 < rdot (Q z) (Q z) + r1 z * t + rdot d d * t ^ 2
    linarith
  filter_upwards [hev] with t ht
  unfold faceW
  simp only [sub_move, triPt_path]
  rw [← setIntegral_square_on (f := fun z => z.2 * (rdot ((Q z).sub (V3.smul t d)) e / vlen ((Q z).sub (V3.smul t d)) ^ 3))]
  · refine integral_congr_ae (Eventually.of_forall fun z => ?_)
    simp only []
    rw [div_eq_mul_one_div (rdot _ e), vlen_pow_neg, rdot_move]
    have : rdot ((Q z).sub (V3.smul t d)) e = rdot (Q z) e - t * rdot d e := by simp [rdot]; ring
    rw [this]
    simp only [n0, n1]
    ring
  · intro z hz
    have hne : vlen ((Q z).sub (V3.smul t d)) ^ 3 ≠ 0 := pow_ne_zero 3 (Real.sqrt_pos.mpr (ht z hz)).ne'
    refine ContinuousAt.continuousWithinAt (ContinuousAt.mul continuous_snd.continuousAt (ContinuousAt.div ?_ ?_ hne))
    · simp only [hQ, rdot, triPt, add_x, add_y, add_z, smul_x, smul_y, smul_z, sub_x, sub_y, sub_z]; fun_prop
    · simp only [hQ, vlen, rdot, triPt, add_x, add_y, add_z, smul_x, smul_y, smul_z, sub_x, sub_y, sub_z]; fun_prop

/-- the share of a face is analytic along every line through a point off the face -/
theorem faceShare_analytic {f : Face ℝ} {s : V3 ℝ} (ho : OffTriangle f.pa f.pb f.pc s) (d e : V3 ℝ) :
    AnalyticAt ℝ (fun t => faceShare f (s.add (V3.smul t d)) e) 0 := by
  unfold faceShare
  refine AnalyticAt.mul ?_ (faceW_analytic ho d e)
  simp only [det3, rdot, cross_x, cross_y, cross_z, sub_x, sub_y, sub_z, add_x, add_y, add_z, smul_x, smul_y, smul_z]
  fun_prop

/-- the line integral over a segment is analytic along every line through a point off the segment -/
theorem lineJ_analytic {a L s : V3 ℝ} (ho : ∀ v ∈ Set.Icc (0 : ℝ) 1, (a.sub s).add (V3.smul v L) ≠ V3.zeros) (d : V3 ℝ) :
    AnalyticAt ℝ (fun t => lineJ (a.sub (s.add (V3.smul t d))) L) 0 := by
  set Q : ℝ → V3 ℝ := fun v => (a.sub s).add (V3.smul v L) with hQ
  have cQQ : Continuous (fun z => rdot (Q z) (Q z)) := by
    simp only [hQ, rdot, add_x, add_y, add_z, smul_x, smul_y, smul_z]; fun_prop
  have kr1 : Continuous (fun z => -(2 * rdot (Q z) d)) := by
    simp only [hQ, rdot, add_x, add_y, add_z, smul_x, smul_y, smul_z]; fun_prop
  obtain ⟨z0, hz0, hm⟩ := isCompact_Icc.exists_isMinOn ⟨(0 : ℝ), by simp⟩ (cQQ.continuousOn (s := Set.Icc (0 : ℝ) 1))
  obtain ⟨C2, hC2⟩ := (isCompact_Icc (a := (0 : ℝ)) (b := 1)).exists_bound_of_continuousOn cQQ.continuousOn
  obtain ⟨C3, hC3⟩ := (isCompact_Icc (a := (0 : ℝ)) (b := 1)).exists_bound_of_continuousOn kr1.continuousOn
  have key := analytic_kernel (μ := volume.restrict (Set.Ioc (0 : ℝ) 1)) (n0 := fun _ => 1) (n1 := fun _ => 0) measurable_const measurable_const cQQ.measurable kr1.measurable
    (rdot d d) (1 / 2) (by norm_num) (C := max 1 (max C2 C3)) (rdot_self_pos (ho z0 hz0)) (by
      filter_upwards [ae_restrict_mem measurableSet_Ioc] with z hz
      have hz := Set.Ioc_subset_Icc_self hz
      have g2 := hC2 z hz
      have g3 := hC3 z hz
      rw [Real.norm_eq_abs] at g2 g3
      refine ⟨by simp, by simp, g2.trans ((le_max_left _ _).trans (le_max_right _ _)), g3.trans ((le_max_right _ _).trans (le_max_right _ _)), hm hz⟩)
  refine key.congr (Eventually.of_forall fun t => ?_)
  unfold lineJ
  simp only []
  rw [intervalIntegral.integral_of_le zero_le_one]
  refine integral_congr_ae (Eventually.of_forall fun v => ?_)
  simp only []
  have : (a.sub (s.add (V3.smul t d))).add (V3.smul v L) = (Q v).sub (V3.smul t d) := by
    simp only [hQ]; refine V3.ext' ?_ ?_ ?_ <;> simp <;> ring
  rw [this, vlen_inv, rdot_move]
  ring

/-- off the three sides of the triangle -/
def OffSides (a b c s : V3 ℝ) : Prop :=
  (∀ v ∈ Set.Icc (0 : ℝ) 1, (a.sub s).add (V3.smul v (b.sub a)) ≠ V3.zeros) ∧ (∀ v ∈ Set.Icc (0 : ℝ) 1, (b.sub s).add (V3.smul v (c.sub b)) ≠ V3.zeros) ∧
  (∀ v ∈ Set.Icc (0 : ℝ) 1, (c.sub s).add (V3.smul v (a.sub c)) ≠ V3.zeros)

/-- along the face, its share comes from its sides only -/
theorem faceShare_tangent {f : Face ℝ} (hn : IsNormal f.un f.pa f.pb f.pc) (s : V3 ℝ) {e : V3 ℝ} (he : rdot f.un e = 0) :
    faceShare f s e = rdot f.un (f.pa.sub s) * rdot (cross f.un (loopJ f.pa f.pb f.pc s)) e := by
  unfold faceShare
  rw [hn.det s]
  by_cases hh : rdot f.un (f.pa.sub s) = 0
  · rw [hh]; ring
  · have := faceW_normal_form hn hh e
    rw [he, mul_zero, zero_add] at this
    unfold loopJ
    rw [← this]; ring

/-- … and so it is analytic along every line through a point off its sides -/
theorem faceShare_tangent_analytic {f : Face ℝ} (hn : IsNormal f.un f.pa f.pb f.pc) {s : V3 ℝ} (ho : OffSides f.pa f.pb f.pc s) (d : V3 ℝ) {e : V3 ℝ} (he : rdot f.un e = 0) :
    AnalyticAt ℝ (fun t => faceShare f (s.add (V3.smul t d)) e) 0 := by
  simp only [faceShare_tangent hn _ he]
  have h1 := lineJ_analytic ho.1 d
  have h2 := lineJ_analytic ho.2.1 d
  have h3 := lineJ_analytic ho.2.2 d
  unfold loopJ
  simp only [rdot, cross_x, cross_y, cross_z, add_x, add_y, add_z, smul_x, smul_y, smul_z, sub_x f.pa (s.add _), sub_y f.pa (s.add _), sub_z f.pa (s.add _)]
  fun_prop

end
end Geec
