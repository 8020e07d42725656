import Verif.Lemmas.FaceInt
import Mathlib.Analysis.Calculus.ParametricIntegral
/-
Derivatives, along a line of stations, of the surface integrals and line integrals behind the tensor.
-/
namespace Geec
open Arith MeasureTheory
noncomputable section

theorem rdot_path (p d e : V3 ℝ) (x : ℝ) : HasDerivAt (fun x => rdot (p.sub (V3.smul x d)) e) (-rdot d e) x := by
  have h : ∀ x, rdot (p.sub (V3.smul x d)) e = rdot p e + x * (-rdot d e) := by
    intro x; simp [rdot]; ring
  rw [funext h]
  exact (((hasDerivAt_id x).mul_const (-rdot d e)).const_add (rdot p e)).congr_deriv (one_mul _)

theorem vlen_path {p d : V3 ℝ} {x : ℝ} (h : p.sub (V3.smul x d) ≠ V3.zeros) :
    HasDerivAt (fun x => vlen (p.sub (V3.smul x d))) (-(rdot (p.sub (V3.smul x d)) d / vlen (p.sub (V3.smul x d)))) x := by
  have hp := rdot_self_pos h
  have h1 : ∀ x, rdot (p.sub (V3.smul x d)) (p.sub (V3.smul x d)) = rdot p p + x * (-2 * rdot p d) + x ^ 2 * rdot d d := by
    intro x; simp [rdot]; ring
  have h2 : HasDerivAt (fun x => rdot (p.sub (V3.smul x d)) (p.sub (V3.smul x d))) (-2 * rdot (p.sub (V3.smul x d)) d) x := by
    rw [funext h1]
    refine ((((hasDerivAt_id x).mul_const (-2 * rdot p d)).const_add (rdot p p)).add ((hasDerivAt_pow 2 x).mul_const (rdot d d))).congr_deriv ?_
    simp [rdot]; ring
  refine (h2.sqrt hp.ne').congr_deriv ?_
  show _ / (2 * vlen _) = _
  have := (vlen_pos h).ne'
  field_simp

/-- the derivative of `r·e / r³` when the station moves along `d` -/
def pull2 (r e d : V3 ℝ) : ℝ := 3 * (rdot r e * rdot r d) / vlen r ^ 5 - rdot d e / vlen r ^ 3

theorem pull_path {p d : V3 ℝ} (e : V3 ℝ) {x : ℝ} (h : p.sub (V3.smul x d) ≠ V3.zeros) :
    HasDerivAt (fun x => rdot (p.sub (V3.smul x d)) e / vlen (p.sub (V3.smul x d)) ^ 3) (pull2 (p.sub (V3.smul x d)) e d) x := by
  have hp := (vlen_pos h).ne'
  refine ((rdot_path p d e x).div ((vlen_path h).pow 3) (pow_ne_zero 3 hp)).congr_deriv ?_
  unfold pull2
  simp only [Pi.pow_apply]
  field_simp
  ring

theorem triPt_path (p1 p2 p3 d : V3 ℝ) (x s v : ℝ) : triPt (p1.sub (V3.smul x d)) (p2.sub (V3.smul x d)) (p3.sub (V3.smul x d)) s v =
    (triPt p1 p2 p3 s v).sub (V3.smul x d) := by
  refine V3.ext' ?_ ?_ ?_ <;> simp [triPt] <;> ring

section
variable {p1 p2 p3 : V3 ℝ}

theorem pull2_comm (r e d : V3 ℝ) : pull2 r e d = pull2 r d e := by
  unfold pull2; rw [rdot_comm d e, mul_comm (rdot r e)]

theorem pull2_trace {r : V3 ℝ} (h : r ≠ V3.zeros) : pull2 r ⟨1, 0, 0⟩ ⟨1, 0, 0⟩ + pull2 r ⟨0, 1, 0⟩ ⟨0, 1, 0⟩ + pull2 r ⟨0, 0, 1⟩ ⟨0, 0, 1⟩ = 0 := by
  have hp := (vlen_pos h).ne'
  have hq := vlen_sq r
  unfold pull2
  field_simp
  rw [pow_two (vlen r), hq]
  simp [rdot]
  ring

/-- second moments of the triangle -/
def faceH (p1 p2 p3 e d : V3 ℝ) : ℝ :=
  ∫ z in Set.Ioo (0 : ℝ) 1 ×ˢ Set.Ioo (0 : ℝ) 1, z.2 * pull2 (triPt p1 p2 p3 z.1 z.2) e d

theorem continuous_pull2 (hD : det3 p1 p2 p3 ≠ 0) (e d : V3 ℝ) : Continuous (fun z : ℝ × ℝ => z.2 * pull2 (triPt p1 p2 p3 z.1 z.2) e d) := by
  have h := fun z : ℝ × ℝ => triPt_len_ne hD z.1 z.2
  have c := @continuous_triPt_len p1 p2 p3
  have ce := @continuous_triPt_dot p1 p2 p3 e
  have cd := @continuous_triPt_dot p1 p2 p3 d
  unfold pull2
  exact continuous_snd.mul (((continuous_const.mul (ce.mul cd)).div (c.pow 5) (fun z => pow_ne_zero 5 (h z))).sub
    (continuous_const.div (c.pow 3) (fun z => pow_ne_zero 3 (h z))))

theorem faceH_comm (p1 p2 p3 e d : V3 ℝ) : faceH p1 p2 p3 e d = faceH p1 p2 p3 d e := by
  unfold faceH; simp only [pull2_comm _ e d]

theorem faceH_trace (hD : det3 p1 p2 p3 ≠ 0) : faceH p1 p2 p3 ⟨1, 0, 0⟩ ⟨1, 0, 0⟩ + faceH p1 p2 p3 ⟨0, 1, 0⟩ ⟨0, 1, 0⟩ +
    faceH p1 p2 p3 ⟨0, 0, 1⟩ ⟨0, 0, 1⟩ = 0 := by
  unfold faceH
  have i := fun e d => integrableOn_square (continuous_pull2 hD e d)
  rw [← integral_add (i _ _) (i _ _)]
  refine (integral_add ((i ⟨1, 0, 0⟩ ⟨1, 0, 0⟩).add (i ⟨0, 1, 0⟩ ⟨0, 1, 0⟩)) (i ⟨0, 0, 1⟩ ⟨0, 0, 1⟩)).symm.trans ?_
  refine integral_eq_zero_of_ae (Filter.Eventually.of_forall fun z => ?_)
  show z.2 * _ + z.2 * _ + z.2 * _ = 0
  rw [← mul_add, ← mul_add, pull2_trace (triPt_ne hD _ _), mul_zero]

theorem det3_path (p1 p2 p3 d : V3 ℝ) (x : ℝ) : det3 (p1.sub (V3.smul x d)) (p2.sub (V3.smul x d)) (p3.sub (V3.smul x d)) =
    det3 p1 p2 p3 - x * rdot d (cross (p2.sub p1) (p3.sub p1)) := by
  simp [det3, rdot]; ring

theorem faceW_path (hD : det3 p1 p2 p3 ≠ 0) (e d : V3 ℝ) :
    HasDerivAt (fun x => faceW (p1.sub (V3.smul x d)) (p2.sub (V3.smul x d)) (p3.sub (V3.smul x d)) e) (faceH p1 p2 p3 e d) 0 := by
  set k := rdot d (cross (p2.sub p1) (p3.sub p1)) with hk
  set δ := |det3 p1 p2 p3| / (2 * (|k| + 1)) with hδ
  have hkp : 0 < |k| + 1 := by positivity
  have hδp : 0 < δ := div_pos (abs_pos.mpr hD) (by positivity)
  have hne : ∀ x ∈ Set.Icc (-δ) δ, det3 (p1.sub (V3.smul x d)) (p2.sub (V3.smul x d)) (p3.sub (V3.smul x d)) ≠ 0 := by
    rintro x ⟨hx1, hx2⟩ h0
    rw [det3_path, ← hk, sub_eq_zero] at h0
    have h1 : |x| ≤ δ := abs_le.mpr ⟨hx1, hx2⟩
    have h2 : |det3 p1 p2 p3| = |x| * |k| := by rw [h0, abs_mul]
    have h3 : δ * (2 * (|k| + 1)) = |det3 p1 p2 p3| := div_mul_cancel₀ _ (by positivity)
    have h4 : |x| * |k| ≤ δ * |k| := mul_le_mul_of_nonneg_right h1 (abs_nonneg k)
    nlinarith [abs_nonneg k]
  have hpt : ∀ x ∈ Set.Icc (-δ) δ, ∀ z : ℝ × ℝ, (triPt p1 p2 p3 z.1 z.2).sub (V3.smul x d) ≠ V3.zeros := by
    intro x hx z
    rw [← triPt_path]
    exact triPt_ne (hne x hx) _ _
  let μ : Measure (ℝ × ℝ) := volume.restrict (Set.Ioo (0 : ℝ) 1 ×ˢ Set.Ioo (0 : ℝ) 1)
  let F : ℝ → ℝ × ℝ → ℝ := fun x z => z.2 * (rdot ((triPt p1 p2 p3 z.1 z.2).sub (V3.smul x d)) e / vlen ((triPt p1 p2 p3 z.1 z.2).sub (V3.smul x d)) ^ 3)
  let F' : ℝ → ℝ × ℝ → ℝ := fun x z => z.2 * pull2 ((triPt p1 p2 p3 z.1 z.2).sub (V3.smul x d)) e d
  have hs : Set.Icc (-δ) δ ∈ nhds (0 : ℝ) := Icc_mem_nhds (by linarith) hδp
  have hFc : ∀ x ∈ Set.Icc (-δ) δ, Continuous (F x) := by
    intro x hx
    have : Continuous (fun z : ℝ × ℝ => z.2 * _) := continuous_snd.mul (continuous_weight (hne x hx) e)
    simpa only [F, triPt_path] using this
  have hF'c : ∀ x ∈ Set.Icc (-δ) δ, Continuous (F' x) := by
    intro x hx
    have := continuous_pull2 (hne x hx) e d
    simpa only [F', triPt_path] using this
  have hcont : ContinuousOn (fun w : ℝ × ℝ × ℝ => F' w.1 w.2) (Set.Icc (-δ) δ ×ˢ (Set.Icc (0 : ℝ) 1 ×ˢ Set.Icc (0 : ℝ) 1)) := by
    have cl : Continuous (fun w : ℝ × ℝ × ℝ => vlen ((triPt p1 p2 p3 w.2.1 w.2.2).sub (V3.smul w.1 d))) := by
      apply continuous_vlen <;> simp only [triPt, add_x, add_y, add_z, sub_x, sub_y, sub_z, smul_x, smul_y, smul_z] <;> fun_prop
    have cd : ∀ e : V3 ℝ, Continuous (fun w : ℝ × ℝ × ℝ => rdot ((triPt p1 p2 p3 w.2.1 w.2.2).sub (V3.smul w.1 d)) e) := by
      intro e; simp only [rdot, triPt, add_x, add_y, add_z, sub_x, sub_y, sub_z, smul_x, smul_y, smul_z]; fun_prop
    have hn : ∀ w ∈ Set.Icc (-δ) δ ×ˢ (Set.Icc (0 : ℝ) 1 ×ˢ Set.Icc (0 : ℝ) 1), vlen ((triPt p1 p2 p3 w.2.1 w.2.2).sub (V3.smul w.1 d)) ≠ 0 :=
      fun w hw => (vlen_pos (hpt w.1 hw.1 w.2)).ne'
    simp only [F', pull2]
    exact (continuous_snd.comp continuous_snd).continuousOn.mul
      (((continuous_const.mul ((cd e).mul (cd d))).continuousOn.div (cl.pow 5).continuousOn (fun w hw => pow_ne_zero 5 (hn w hw))).sub
        (continuousOn_const.div (cl.pow 3).continuousOn (fun w hw => pow_ne_zero 3 (hn w hw))))
  obtain ⟨C, hC⟩ := (isCompact_Icc.prod (isCompact_Icc.prod isCompact_Icc)).exists_bound_of_continuousOn hcont
  have hm : MeasurableSet (Set.Ioo (0 : ℝ) 1 ×ˢ Set.Ioo (0 : ℝ) 1) := measurableSet_Ioo.prod measurableSet_Ioo
  have h0 : (0 : ℝ) ∈ Set.Icc (-δ) δ := ⟨by linarith, hδp.le⟩
  have key := hasDerivAt_integral_of_dominated_loc_of_deriv_le (μ := μ) (F := F) (F' := F') (x₀ := (0 : ℝ)) (bound := fun _ => C) hs
    (Filter.eventually_of_mem hs (fun x hx => (hFc x hx).aestronglyMeasurable))
    (integrableOn_square (hFc 0 h0)) (hF'c 0 h0).aestronglyMeasurable
    (by
      refine (ae_restrict_iff' hm).mpr (Filter.Eventually.of_forall fun z hz x hx => ?_)
      exact hC (x, z) ⟨hx, ⟨hz.1.1.le, hz.1.2.le⟩, ⟨hz.2.1.le, hz.2.2.le⟩⟩)
    (integrableOn_square continuous_const)
    (Filter.Eventually.of_forall fun z x hx => (pull_path e (hpt x hx z)).const_mul z.2)
  have k2 := key.2
  have e1 : (∫ a, F' 0 a ∂μ) = faceH p1 p2 p3 e d := by
    unfold faceH
    congr 1
    funext z
    have : (triPt p1 p2 p3 z.1 z.2).sub (V3.smul 0 d) = triPt p1 p2 p3 z.1 z.2 := by refine V3.ext' ?_ ?_ ?_ <;> simp
    simp only [F', this]
  rw [e1] at k2
  refine k2.congr_of_eventuallyEq ?_
  filter_upwards [hs] with x hx
  unfold faceW
  have := setIntegral_square (hFc x hx)
  simp only [F] at this
  simp only [F, μ, triPt_path]
  exact this.symm

end
end
end Geec
