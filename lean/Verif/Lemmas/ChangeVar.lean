import Verif.Spec.Newton
import Verif.Lemmas.RealV3
import Mathlib.MeasureTheory.Function.Jacobian
import Mathlib.MeasureTheory.Integral.Prod
import Mathlib.MeasureTheory.Integral.IntervalIntegral.Basic
import Mathlib.LinearAlgebra.Basis.Fin
import Mathlib.Analysis.Calculus.FDeriv.Prod
import Mathlib.Analysis.Calculus.FDeriv.Mul
import Mathlib.MeasureTheory.Measure.Lebesgue.Basic
import Mathlib.MeasureTheory.Measure.Haar.OfBasis
/-
Integrals over triangles and cones in polar form: change of variables.
-/
namespace Geec
open MeasureTheory
noncomputable section

instance haar2 : (volume : Measure (ℝ × ℝ)).IsAddHaarMeasure := Measure.prod.instIsAddHaarMeasure _ _
instance haar3 : (volume : Measure P3).IsAddHaarMeasure := Measure.prod.instIsAddHaarMeasure _ _

theorem det_prod2 (L : ℝ × ℝ →L[ℝ] ℝ × ℝ) : L.det = (L (1, 0)).1 * (L (0, 1)).2 - (L (0, 1)).1 * (L (1, 0)).2 := by
  show LinearMap.det (L : ℝ × ℝ →ₗ[ℝ] ℝ × ℝ) = _
  rw [← LinearMap.det_toMatrix (Module.Basis.finTwoProd ℝ), Matrix.det_fin_two]
  simp [LinearMap.toMatrix_apply]

/-- coordinates of `ℝ × ℝ × ℝ` -/
def arrow3 : (ℝ × ℝ × ℝ) ≃ₗ[ℝ] (Fin 3 → ℝ) where
  toFun p := ![p.1, p.2.1, p.2.2]
  invFun f := (f 0, f 1, f 2)
  map_add' p q := by ext i; fin_cases i <;> simp
  map_smul' c p := by ext i; fin_cases i <;> simp
  left_inv p := by simp
  right_inv f := by ext i; fin_cases i <;> simp

theorem det_prod3 (L : ℝ × ℝ × ℝ →L[ℝ] ℝ × ℝ × ℝ) : L.det =
    det3 ⟨(L (1, 0, 0)).1, (L (1, 0, 0)).2.1, (L (1, 0, 0)).2.2⟩ ⟨(L (0, 1, 0)).1, (L (0, 1, 0)).2.1, (L (0, 1, 0)).2.2⟩
      ⟨(L (0, 0, 1)).1, (L (0, 0, 1)).2.1, (L (0, 0, 1)).2.2⟩ := by
  show LinearMap.det (L : ℝ × ℝ × ℝ →ₗ[ℝ] ℝ × ℝ × ℝ) = _
  have hb : ∀ i, (Module.Basis.ofEquivFun arrow3) i = arrow3.symm (Pi.single i 1) := fun i => by simp [Module.Basis.coe_ofEquivFun]
  have h0 : arrow3.symm (Pi.single 0 1) = (1, 0, 0) := by simp [arrow3]
  have h1 : arrow3.symm (Pi.single 1 1) = (0, 1, 0) := by simp [arrow3]
  have h2 : arrow3.symm (Pi.single 2 1) = (0, 0, 1) := by simp [arrow3]
  rw [← LinearMap.det_toMatrix (Module.Basis.ofEquivFun arrow3), Matrix.det_fin_three]
  simp only [LinearMap.toMatrix_apply, hb, h0, h1, h2, Module.Basis.ofEquivFun_repr_apply]
  simp [arrow3, det3, rdot]
  ring

theorem triParam_eq : triParam = (fun z : ℝ × ℝ => (z.2 * (1 - z.1), z.2 * z.1)) '' (Set.Ioo 0 1 ×ˢ Set.Ioo 0 1) := by
  ext w
  constructor
  · rintro ⟨h1, h2, h3⟩
    have hs : 0 < w.1 + w.2 := by linarith
    refine ⟨(w.2 / (w.1 + w.2), w.1 + w.2), ⟨⟨by positivity, ?_⟩, hs, h3⟩, ?_⟩
    · rw [div_lt_one hs]; linarith
    · refine Prod.ext ?_ ?_ <;> (field_simp; try ring)
  · rintro ⟨z, ⟨⟨h1, h2⟩, h3, h4⟩, rfl⟩
    refine ⟨mul_pos h3 (by linarith), mul_pos h3 h1, ?_⟩
    show z.2 * (1 - z.1) + z.2 * z.1 < 1
    linarith

theorem integrableOn_square {f : ℝ × ℝ → ℝ} (hf : Continuous f) : IntegrableOn f (Set.Ioo 0 1 ×ˢ Set.Ioo 0 1) :=
  (hf.continuousOn.integrableOn_compact (isCompact_Icc.prod isCompact_Icc)).mono_set
    (Set.prod_mono Set.Ioo_subset_Icc_self Set.Ioo_subset_Icc_self)

theorem setIntegral_square {f : ℝ × ℝ → ℝ} (hf : Continuous f) :
    ∫ z in Set.Ioo 0 1 ×ˢ Set.Ioo 0 1, f z = ∫ s in (0 : ℝ)..1, ∫ v in (0 : ℝ)..1, f (s, v) := by
  rw [Measure.volume_eq_prod, setIntegral_prod f (integrableOn_square hf)]
  rw [intervalIntegral.integral_of_le zero_le_one, integral_Ioc_eq_integral_Ioo]
  simp only [intervalIntegral.integral_of_le zero_le_one, integral_Ioc_eq_integral_Ioo]

theorem integral_square_swap {f : ℝ × ℝ → ℝ} (hf : Continuous f) :
    ∫ s in (0 : ℝ)..1, ∫ v in (0 : ℝ)..1, f (s, v) = ∫ v in (0 : ℝ)..1, ∫ s in (0 : ℝ)..1, f (s, v) := by
  have h := setIntegral_square (f := fun z => f z.swap) (hf.comp continuous_swap)
  simp only [Prod.swap_prod_mk] at h
  rw [← h, ← setIntegral_square hf, Measure.volume_eq_prod, setIntegral_prod_swap]

/-- integral over the triangle of parameters, in polar form -/
theorem integral_triParam {f : ℝ × ℝ → ℝ} (hf : Continuous f) :
    ∫ w in triParam, f w = ∫ s in (0 : ℝ)..1, ∫ v in (0 : ℝ)..1, v * f (v * (1 - s), v * s) := by
  rw [triParam_eq]
  have hm : MeasurableSet (Set.Ioo (0 : ℝ) 1 ×ˢ Set.Ioo (0 : ℝ) 1) := measurableSet_Ioo.prod measurableSet_Ioo
  let L : ℝ × ℝ → ℝ × ℝ →L[ℝ] ℝ × ℝ := fun z =>
    ((1 - z.1) • ContinuousLinearMap.snd ℝ ℝ ℝ - z.2 • ContinuousLinearMap.fst ℝ ℝ ℝ).prod
      (z.1 • ContinuousLinearMap.snd ℝ ℝ ℝ + z.2 • ContinuousLinearMap.fst ℝ ℝ ℝ)
  have hL : ∀ z, HasFDerivAt (fun z : ℝ × ℝ => (z.2 * (1 - z.1), z.2 * z.1)) (L z) z := by
    intro z
    apply HasFDerivAt.prodMk
    · have := (hasFDerivAt_snd (𝕜 := ℝ) (p := z)).mul ((hasFDerivAt_fst (𝕜 := ℝ) (p := z)).const_sub (1 : ℝ))
      refine this.congr_fderiv ?_
      ext <;> simp
    · have := (hasFDerivAt_snd (𝕜 := ℝ) (p := z)).mul (hasFDerivAt_fst (𝕜 := ℝ) (p := z))
      refine this.congr_fderiv ?_
      ext <;> simp
  have hdet : ∀ z, (L z).det = -z.2 := by
    intro z; rw [det_prod2]; simp [L]; ring
  have hinj : Set.InjOn (fun z : ℝ × ℝ => (z.2 * (1 - z.1), z.2 * z.1)) (Set.Ioo (0 : ℝ) 1 ×ˢ Set.Ioo (0 : ℝ) 1) := by
    rintro ⟨s, v⟩ ⟨⟨h1, h2⟩, h3, h4⟩ ⟨s', v'⟩ ⟨⟨h1', h2'⟩, h3', h4'⟩ h
    have e1 := congrArg Prod.fst h
    have e2 := congrArg Prod.snd h
    simp only at e1 e2 h3 h3'
    have hv : v = v' := by linarith
    subst hv
    exact Prod.ext (mul_left_cancel₀ h3.ne' e2) rfl
  rw [integral_image_eq_integral_abs_det_fderiv_smul volume hm (fun z _ => (hL z).hasFDerivWithinAt) hinj]
  rw [← setIntegral_square (f := fun z => z.2 * f (z.2 * (1 - z.1), z.2 * z.1)) (by fun_prop)]
  apply setIntegral_congr_fun hm
  intro z hz
  simp only [hdet, abs_neg, smul_eq_mul]
  rw [abs_of_pos hz.2.1]

/-- the open cone with apex `o` over the triangle `o + p1`, `o + p2`, `o + p3` -/
def openCone (o p1 p2 p3 : V3 ℝ) : Set P3 :=
  {q | ∃ x y z : ℝ, 0 < x ∧ 0 < y ∧ 0 < z ∧ x + y + z < 1 ∧
    q = (o.add (((V3.smul x p1).add (V3.smul y p2)).add (V3.smul z p3))).toP}

/-- polar coordinates of the cone -/
def coneMap (o p1 p2 p3 : V3 ℝ) (z : P3) : P3 :=
  (o.add (V3.smul z.1 (p1.add (V3.smul z.2.2 ((p2.sub p1).add (V3.smul z.2.1 (p3.sub p2))))))).toP

/-- the open unit cube -/
def cube : Set P3 := Set.Ioo 0 1 ×ˢ (Set.Ioo 0 1 ×ˢ Set.Ioo 0 1)

theorem measurableSet_cube : MeasurableSet cube := measurableSet_Ioo.prod (measurableSet_Ioo.prod measurableSet_Ioo)

theorem openCone_eq (o p1 p2 p3 : V3 ℝ) : openCone o p1 p2 p3 = coneMap o p1 p2 p3 '' cube := by
  ext q
  constructor
  · rintro ⟨x, y, z, hx, hy, hz, h1, rfl⟩
    have hyz : 0 < y + z := by linarith
    have ht : 0 < x + y + z := by linarith
    refine ⟨(x + y + z, z / (y + z), (y + z) / (x + y + z)), ⟨⟨ht, h1⟩, ⟨by positivity, ?_⟩, by positivity, ?_⟩, ?_⟩
    · rw [div_lt_one hyz]; linarith
    · rw [div_lt_one ht]; linarith
    · unfold coneMap V3.toP
      simp only [add_x, add_y, add_z, smul_x, smul_y, smul_z, sub_x, sub_y, sub_z]
      refine Prod.ext ?_ (Prod.ext ?_ ?_) <;> (simp only; field_simp; ring)
  · rintro ⟨⟨t, s, v⟩, ⟨⟨ht, ht1⟩, ⟨hs, hs1⟩, hv, hv1⟩, rfl⟩
    simp only at ht ht1 hs hs1 hv hv1
    refine ⟨t * (1 - v), t * v * (1 - s), t * v * s, mul_pos ht (by linarith), mul_pos (mul_pos ht hv) (by linarith),
      mul_pos (mul_pos ht hv) hs, ?_, ?_⟩
    · have : t * (1 - v) + t * v * (1 - s) + t * v * s = t := by ring
      rw [this]; exact ht1
    · unfold coneMap V3.toP
      simp only [add_x, add_y, add_z, smul_x, smul_y, smul_z, sub_x, sub_y, sub_z]
      refine Prod.ext ?_ (Prod.ext ?_ ?_) <;> (simp only; ring)

/-- one coordinate of the derivative of `coneMap` -/
def coneForm (p e d : ℝ) (z : P3) : P3 →L[ℝ] ℝ :=
  (p + z.2.2 * (e + z.2.1 * d)) • ContinuousLinearMap.fst ℝ ℝ (ℝ × ℝ) +
    ((z.1 * z.2.2 * d) • (ContinuousLinearMap.fst ℝ ℝ ℝ).comp (ContinuousLinearMap.snd ℝ ℝ (ℝ × ℝ)) +
      (z.1 * (e + z.2.1 * d)) • (ContinuousLinearMap.snd ℝ ℝ ℝ).comp (ContinuousLinearMap.snd ℝ ℝ (ℝ × ℝ)))

theorem hasFDerivAt_coneForm (o p e d : ℝ) (z : P3) :
    HasFDerivAt (fun z : P3 => o + z.1 * (p + z.2.2 * (e + z.2.1 * d))) (coneForm p e d z) z := by
  have h1 : HasFDerivAt (fun z : P3 => z.1) (ContinuousLinearMap.fst ℝ ℝ (ℝ × ℝ)) z := hasFDerivAt_fst
  have h2 : HasFDerivAt (fun z : P3 => z.2.1) ((ContinuousLinearMap.fst ℝ ℝ ℝ).comp (ContinuousLinearMap.snd ℝ ℝ (ℝ × ℝ))) z :=
    ((ContinuousLinearMap.fst ℝ ℝ ℝ).comp (ContinuousLinearMap.snd ℝ ℝ (ℝ × ℝ))).hasFDerivAt
  have h3 : HasFDerivAt (fun z : P3 => z.2.2) ((ContinuousLinearMap.snd ℝ ℝ ℝ).comp (ContinuousLinearMap.snd ℝ ℝ (ℝ × ℝ))) z :=
    ((ContinuousLinearMap.snd ℝ ℝ ℝ).comp (ContinuousLinearMap.snd ℝ ℝ (ℝ × ℝ))).hasFDerivAt
  have h := (h1.mul ((h3.mul ((h2.mul_const d).const_add e)).const_add p)).const_add o
  refine h.congr_fderiv ?_
  ext <;> simp [coneForm] <;> ring

/-- derivative of `coneMap` -/
def coneDeriv (p1 p2 p3 : V3 ℝ) (z : P3) : P3 →L[ℝ] P3 :=
  (coneForm p1.x (p2.x - p1.x) (p3.x - p2.x) z).prod
    ((coneForm p1.y (p2.y - p1.y) (p3.y - p2.y) z).prod (coneForm p1.z (p2.z - p1.z) (p3.z - p2.z) z))

theorem hasFDerivAt_coneMap (o p1 p2 p3 : V3 ℝ) (z : P3) : HasFDerivAt (coneMap o p1 p2 p3) (coneDeriv p1 p2 p3 z) z :=
  (hasFDerivAt_coneForm o.x _ _ _ z).prodMk ((hasFDerivAt_coneForm o.y _ _ _ z).prodMk (hasFDerivAt_coneForm o.z _ _ _ z))

theorem coneDeriv_det (p1 p2 p3 : V3 ℝ) (z : P3) : (coneDeriv p1 p2 p3 z).det = -(z.1 ^ 2 * z.2.2 * det3 p1 p2 p3) := by
  rw [det_prod3]
  simp [coneDeriv, coneForm, det3, rdot]
  ring

theorem coneMap_injOn (o : V3 ℝ) {p1 p2 p3 : V3 ℝ} (hD : det3 p1 p2 p3 ≠ 0) : Set.InjOn (coneMap o p1 p2 p3) cube := by
  rintro ⟨t, s, v⟩ ⟨⟨ht, ht1⟩, ⟨hs, hs1⟩, hv, hv1⟩ ⟨t', s', v'⟩ ⟨⟨ht', ht1'⟩, ⟨hs', hs1'⟩, hv', hv1'⟩ h
  simp only at ht ht1 hs hs1 hv hv1 ht' ht1' hs' hs1' hv' hv1'
  have key : ∀ t s v : ℝ, ∀ w : V3 ℝ, w = V3.smul t (p1.add (V3.smul v ((p2.sub p1).add (V3.smul s (p3.sub p2))))) →
      t * (1 - v) * det3 p1 p2 p3 = det3 w p2 p3 ∧ t * (v * (1 - s)) * det3 p1 p2 p3 = det3 p1 w p3 ∧
      t * (v * s) * det3 p1 p2 p3 = det3 p1 p2 w := by
    rintro t s v w rfl
    refine ⟨?_, ?_, ?_⟩ <;> simp [det3, rdot] <;> ring
  have hx := congrArg Prod.fst h
  have hy := congrArg (fun z => z.2.1) h
  have hz := congrArg (fun z => z.2.2) h
  simp only [coneMap, V3.toP, add_x, add_y, add_z] at hx hy hz
  have e : V3.smul t (p1.add (V3.smul v ((p2.sub p1).add (V3.smul s (p3.sub p2))))) =
      V3.smul t' (p1.add (V3.smul v' ((p2.sub p1).add (V3.smul s' (p3.sub p2))))) :=
    V3.ext' (by simp only [smul_x, add_x] at hx ⊢; linarith) (by simp only [smul_y, add_y] at hy ⊢; linarith)
      (by simp only [smul_z, add_z] at hz ⊢; linarith)
  obtain ⟨a1, a2, a3⟩ := key t s v _ rfl
  obtain ⟨b1, b2, b3⟩ := key t' s' v' _ e
  have c1 := mul_right_cancel₀ hD (a1.trans b1.symm)
  have c2 := mul_right_cancel₀ hD (a2.trans b2.symm)
  have c3 := mul_right_cancel₀ hD (a3.trans b3.symm)
  have et : t = t' := by linarith
  subst et
  have ev : v = v' := by
    have := mul_left_cancel₀ ht.ne' c1
    linarith
  subst ev
  have es : s = s' := mul_left_cancel₀ hv.ne' (mul_left_cancel₀ ht.ne' c3)
  subst es
  rfl

theorem cone_integral (o : V3 ℝ) {p1 p2 p3 : V3 ℝ} (hD : det3 p1 p2 p3 ≠ 0) (g : P3 → ℝ) :
    ∫ q in openCone o p1 p2 p3, g q = ∫ z in cube, |det3 p1 p2 p3| * (z.1 ^ 2 * z.2.2) * g (coneMap o p1 p2 p3 z) := by
  rw [openCone_eq, integral_image_eq_integral_abs_det_fderiv_smul volume measurableSet_cube
    (fun z _ => (hasFDerivAt_coneMap o p1 p2 p3 z).hasFDerivWithinAt) (coneMap_injOn o hD)]
  apply setIntegral_congr_fun measurableSet_cube
  intro z hz
  simp only [coneDeriv_det, abs_neg, smul_eq_mul, abs_mul]
  rw [abs_of_pos (pow_pos hz.1.1 2), abs_of_pos hz.2.2.1]
  ring

theorem cone_integrable (o : V3 ℝ) {p1 p2 p3 : V3 ℝ} (hD : det3 p1 p2 p3 ≠ 0) (g : P3 → ℝ) :
    IntegrableOn g (openCone o p1 p2 p3) ↔
      IntegrableOn (fun z => |det3 p1 p2 p3| * (z.1 ^ 2 * z.2.2) * g (coneMap o p1 p2 p3 z)) cube := by
  rw [openCone_eq, integrableOn_image_iff_integrableOn_abs_det_fderiv_smul volume measurableSet_cube
    (fun z _ => (hasFDerivAt_coneMap o p1 p2 p3 z).hasFDerivWithinAt) (coneMap_injOn o hD)]
  apply integrableOn_congr_fun _ measurableSet_cube
  intro z hz
  simp only [coneDeriv_det, abs_neg, smul_eq_mul, abs_mul]
  rw [abs_of_pos (pow_pos hz.1.1 2), abs_of_pos hz.2.2.1]
  ring

theorem measurableSet_openCone (o : V3 ℝ) {p1 p2 p3 : V3 ℝ} (hD : det3 p1 p2 p3 ≠ 0) : MeasurableSet (openCone o p1 p2 p3) := by
  rw [openCone_eq]
  exact measurable_image_of_fderivWithin measurableSet_cube
    (fun z _ => (hasFDerivAt_coneMap o p1 p2 p3 z).hasFDerivWithinAt) (coneMap_injOn o hD)

/-- a function of `(s, v)` on the cube -/
theorem setIntegral_cube_snd {f : ℝ × ℝ → ℝ} (hf : Continuous f) :
    ∫ z in cube, f z.2 = ∫ s in (0 : ℝ)..1, ∫ v in (0 : ℝ)..1, f (s, v) := by
  have h := setIntegral_prod_mul (μ := (volume : Measure ℝ)) (ν := (volume : Measure (ℝ × ℝ))) (fun _ => (1 : ℝ)) f (Set.Ioo 0 1)
    (Set.Ioo 0 1 ×ˢ Set.Ioo 0 1)
  simp only [one_mul] at h
  rw [← setIntegral_square hf]
  refine Eq.trans h ?_
  simp

theorem integrableOn_cube {f : P3 → ℝ} (hf : Continuous f) : IntegrableOn f cube :=
  (hf.continuousOn.integrableOn_compact (isCompact_Icc.prod (isCompact_Icc.prod isCompact_Icc))).mono_set
    (Set.prod_mono Set.Ioo_subset_Icc_self (Set.prod_mono Set.Ioo_subset_Icc_self Set.Ioo_subset_Icc_self))

end
end Geec
