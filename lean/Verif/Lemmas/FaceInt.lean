import Verif.Lemmas.SolidAngle
import Verif.Lemmas.ChangeVar
/-
The surface integral of `r / r³` over a triangle, from the solid angle and the line integrals along its sides.
-/
namespace Geec
open Arith MeasureTheory
noncomputable section

/-- the points of the triangle `p1 p2 p3` in polar form -/
def triPt (p1 p2 p3 : V3 ℝ) (s v : ℝ) : V3 ℝ := p1.add (V3.smul v ((p2.sub p1).add (V3.smul s (p3.sub p2))))

/-- component along `e` of the integral of `r / r³` over the triangle, divided by twice the area -/
def faceW (p1 p2 p3 e : V3 ℝ) : ℝ :=
  ∫ s in (0 : ℝ)..1, ∫ v in (0 : ℝ)..1, v * (rdot (triPt p1 p2 p3 s v) e / vlen (triPt p1 p2 p3 s v) ^ 3)

theorem continuous_vlen {α : Type} [TopologicalSpace α] {f : α → V3 ℝ} (hx : Continuous (fun a => (f a).x))
    (hy : Continuous (fun a => (f a).y)) (hz : Continuous (fun a => (f a).z)) : Continuous (fun a => vlen (f a)) := by
  unfold vlen rdot; fun_prop

section
variable {p1 p2 p3 : V3 ℝ}

theorem continuous_triPt_len : Continuous (fun z : ℝ × ℝ => vlen (triPt p1 p2 p3 z.1 z.2)) := by
  apply continuous_vlen <;> simp only [triPt, add_x, add_y, add_z, smul_x, smul_y, smul_z] <;> fun_prop

theorem continuous_triPt_dot (e : V3 ℝ) : Continuous (fun z : ℝ × ℝ => rdot (triPt p1 p2 p3 z.1 z.2) e) := by
  simp only [rdot, triPt, add_x, add_y, add_z, smul_x, smul_y, smul_z]; fun_prop

theorem triPt_ne (hD : det3 p1 p2 p3 ≠ 0) (s v : ℝ) : triPt p1 p2 p3 s v ≠ V3.zeros := by
  intro h
  have e : rdot (triPt p1 p2 p3 s v) (cross (p2.sub p1) (p3.sub p2)) = det3 p1 p2 p3 := by
    simp [triPt, det3, rdot]; ring
  rw [h] at e
  apply hD
  rw [← e]
  simp [rdot]

theorem triPt_len_ne (hD : det3 p1 p2 p3 ≠ 0) (s v : ℝ) : vlen (triPt p1 p2 p3 s v) ≠ 0 := (vlen_pos (triPt_ne hD s v)).ne'

/-- derivative of `1 / |R + t L|` -/
theorem hasDerivAt_inv_ray {R L : V3 ℝ} {t : ℝ} (h : R.add (V3.smul t L) ≠ V3.zeros) :
    HasDerivAt (fun t => 1 / vlen (R.add (V3.smul t L)))
      (-(rdot (R.add (V3.smul t L)) L / vlen (R.add (V3.smul t L)) ^ 3)) t := by
  have hp := vlen_pos h
  have d := (hasDerivAt_ray R L (rdot_self_pos h)).inv hp.ne'
  simp only [one_div]
  refine d.congr_deriv ?_
  have e : rdot (R.add (V3.smul t L)) L = rdot L L * t + rdot R L := by simp [rdot]; ring
  rw [e]
  field_simp

/-- derivative of `t / |R + t L|` -/
theorem hasDerivAt_mul_inv_ray {R L : V3 ℝ} {t : ℝ} (h : R.add (V3.smul t L) ≠ V3.zeros) :
    HasDerivAt (fun t => t * (1 / vlen (R.add (V3.smul t L))))
      (1 / vlen (R.add (V3.smul t L)) - t * (rdot (R.add (V3.smul t L)) L / vlen (R.add (V3.smul t L)) ^ 3)) t := by
  refine ((hasDerivAt_id t).mul (hasDerivAt_inv_ray h)).congr_deriv ?_
  simp; ring

theorem continuous_ray_dot (R L e : V3 ℝ) : Continuous (fun t => rdot (R.add (V3.smul t L)) e) := by
  simp only [rdot, add_x, add_y, add_z, smul_x, smul_y, smul_z]; fun_prop

theorem integral_ray1 {R L : V3 ℝ} (h : ∀ t, R.add (V3.smul t L) ≠ V3.zeros) :
    ∫ t in (0 : ℝ)..1, rdot (R.add (V3.smul t L)) L / vlen (R.add (V3.smul t L)) ^ 3 = 1 / vlen R - 1 / vlen (R.add L) := by
  have hc : Continuous (fun t => -(rdot (R.add (V3.smul t L)) L / vlen (R.add (V3.smul t L)) ^ 3)) :=
    ((continuous_ray_dot R L L).div ((continuous_ray R L).pow 3) (fun t => pow_ne_zero 3 (vlen_pos (h t)).ne')).neg
  have := intervalIntegral.integral_eq_sub_of_hasDerivAt (a := 0) (b := 1) (fun t _ => hasDerivAt_inv_ray (h t)) (hc.intervalIntegrable 0 1)
  rw [intervalIntegral.integral_neg] at this
  have e1 : R.add (V3.smul 1 L) = R.add L := by refine V3.ext' ?_ ?_ ?_ <;> simp
  have e0 : R.add (V3.smul 0 L) = R := by refine V3.ext' ?_ ?_ ?_ <;> simp
  rw [e1, e0] at this
  linarith

theorem integral_ray2 {R L : V3 ℝ} (h : ∀ t, R.add (V3.smul t L) ≠ V3.zeros) :
    ∫ t in (0 : ℝ)..1, t * (rdot (R.add (V3.smul t L)) L / vlen (R.add (V3.smul t L)) ^ 3) = lineJ R L - 1 / vlen (R.add L) := by
  have hc1 : Continuous (fun t => 1 / vlen (R.add (V3.smul t L))) :=
    continuous_const.div (continuous_ray R L) (fun t => (vlen_pos (h t)).ne')
  have hc2 : Continuous (fun t => t * (rdot (R.add (V3.smul t L)) L / vlen (R.add (V3.smul t L)) ^ 3)) :=
    continuous_id.mul ((continuous_ray_dot R L L).div ((continuous_ray R L).pow 3) (fun t => pow_ne_zero 3 (vlen_pos (h t)).ne'))
  have := intervalIntegral.integral_eq_sub_of_hasDerivAt (a := 0) (b := 1) (fun t _ => hasDerivAt_mul_inv_ray (h t))
    ((hc1.sub hc2).intervalIntegrable 0 1)
  rw [intervalIntegral.integral_sub (hc1.intervalIntegrable 0 1) (hc2.intervalIntegrable 0 1)] at this
  have e1 : R.add (V3.smul 1 L) = R.add L := by refine V3.ext' ?_ ?_ ?_ <;> simp
  rw [e1] at this
  unfold lineJ
  linarith

theorem triPt_ray_v (s v : ℝ) : triPt p1 p2 p3 s v = p1.add (V3.smul v ((p2.sub p1).add (V3.smul s (p3.sub p2)))) := rfl

theorem triPt_ray_s (s v : ℝ) : triPt p1 p2 p3 s v = (p1.add (V3.smul v (p2.sub p1))).add (V3.smul s (V3.smul v (p3.sub p2))) := by
  refine V3.ext' ?_ ?_ ?_ <;> simp [triPt] <;> ring

theorem continuous_weight (hD : det3 p1 p2 p3 ≠ 0) (e : V3 ℝ) :
    Continuous (fun z : ℝ × ℝ => rdot (triPt p1 p2 p3 z.1 z.2) e / vlen (triPt p1 p2 p3 z.1 z.2) ^ 3) :=
  (continuous_triPt_dot e).div (continuous_triPt_len.pow 3) (fun z => pow_ne_zero 3 (triPt_len_ne hD z.1 z.2))

theorem continuous_inv_len (hD : det3 p1 p2 p3 ≠ 0) : Continuous (fun z : ℝ × ℝ => 1 / vlen (triPt p1 p2 p3 z.1 z.2)) :=
  continuous_const.div continuous_triPt_len (fun z => triPt_len_ne hD z.1 z.2)

theorem continuous_inner {f : ℝ × ℝ → ℝ} (hf : Continuous f) : Continuous (fun s => ∫ v in (0 : ℝ)..1, f (s, v)) :=
  intervalIntegral.continuous_parametric_intervalIntegral_of_continuous' (by exact hf) 0 1

theorem continuous_ray_inv {R L : V3 ℝ} (h : ∀ t, R.add (V3.smul t L) ≠ V3.zeros) : Continuous (fun t => 1 / vlen (R.add (V3.smul t L))) :=
  continuous_const.div (continuous_ray R L) (fun t => (vlen_pos (h t)).ne')

/-- along the side `p2 p3` -/
theorem faceW_side (hD : det3 p1 p2 p3 ≠ 0) :
    faceW p1 p2 p3 (p3.sub p2) = lineJ p1 (p2.sub p1) - lineJ p3 (p1.sub p3) := by
  have hrev : lineJ p3 (p1.sub p3) = lineJ p1 (p3.sub p1) := by
    rw [← lineJ_reverse]
    congr 1 <;> refine V3.ext' ?_ ?_ ?_ <;> simp
  unfold faceW
  rw [integral_square_swap (f := fun z => z.2 * (rdot (triPt p1 p2 p3 z.1 z.2) (p3.sub p2) / vlen (triPt p1 p2 p3 z.1 z.2) ^ 3))
    (continuous_snd.mul (continuous_weight hD _))]
  have hin : ∀ v : ℝ, ∫ s in (0 : ℝ)..1, v * (rdot (triPt p1 p2 p3 s v) (p3.sub p2) / vlen (triPt p1 p2 p3 s v) ^ 3) =
      1 / vlen (p1.add (V3.smul v (p2.sub p1))) - 1 / vlen (p1.add (V3.smul v (p3.sub p1))) := by
    intro v
    have := integral_ray1 (R := p1.add (V3.smul v (p2.sub p1))) (L := V3.smul v (p3.sub p2)) (fun t => by
      rw [← triPt_ray_s]; exact triPt_ne hD t v)
    simp only [← triPt_ray_s, rdot_smul, mul_div_assoc] at this
    rw [this]
    congr 3
    refine V3.ext' ?_ ?_ ?_ <;> simp <;> ring
  simp only [hin]
  have n1 : ∀ t, p1.add (V3.smul t (p2.sub p1)) ≠ V3.zeros := by
    intro t; have := triPt_ne hD 0 t; intro h; apply this; rw [← h]
    refine V3.ext' ?_ ?_ ?_ <;> simp [triPt]
  have n2 : ∀ t, p1.add (V3.smul t (p3.sub p1)) ≠ V3.zeros := by
    intro t; have := triPt_ne hD 1 t; intro h; apply this; rw [← h]
    refine V3.ext' ?_ ?_ ?_ <;> simp [triPt]
  rw [intervalIntegral.integral_sub ((continuous_ray_inv n1).intervalIntegrable 0 1) ((continuous_ray_inv n2).intervalIntegrable 0 1), hrev]
  rfl

/-- along the side `p1 p2` -/
theorem faceW_first (hD : det3 p1 p2 p3 ≠ 0) :
    faceW p1 p2 p3 (p2.sub p1) = lineJ p3 (p1.sub p3) - lineJ p2 (p3.sub p2) := by
  have hrev : lineJ p3 (p1.sub p3) = lineJ p1 (p3.sub p1) := by
    rw [← lineJ_reverse]
    congr 1 <;> refine V3.ext' ?_ ?_ ?_ <;> simp
  have n2 : ∀ t, p1.add (V3.smul t (p3.sub p1)) ≠ V3.zeros := by
    intro t; have := triPt_ne hD 1 t; intro h; apply this; rw [← h]
    refine V3.ext' ?_ ?_ ?_ <;> simp [triPt]
  have n3 : ∀ t, p2.add (V3.smul t (p3.sub p2)) ≠ V3.zeros := by
    intro t; have := triPt_ne hD t 1; intro h; apply this; rw [← h]
    refine V3.ext' ?_ ?_ ?_ <;> simp [triPt] <;> ring
  let w : ℝ × ℝ → V3 ℝ → ℝ := fun z e => rdot (triPt p1 p2 p3 z.1 z.2) e / vlen (triPt p1 p2 p3 z.1 z.2) ^ 3
  have hw : ∀ e, Continuous (fun z => w z e) := continuous_weight hD
  -- along the ray
  have hA : ∫ s in (0 : ℝ)..1, ∫ v in (0 : ℝ)..1, v * w (s, v) ((p2.sub p1).add (V3.smul s (p3.sub p2))) =
      (∫ s in (0 : ℝ)..1, ∫ v in (0 : ℝ)..1, 1 / vlen (triPt p1 p2 p3 s v)) - lineJ p2 (p3.sub p2) := by
    have hin : ∀ s : ℝ, ∫ v in (0 : ℝ)..1, v * w (s, v) ((p2.sub p1).add (V3.smul s (p3.sub p2))) =
        (∫ v in (0 : ℝ)..1, 1 / vlen (triPt p1 p2 p3 s v)) - 1 / vlen (p2.add (V3.smul s (p3.sub p2))) := by
      intro s
      refine (integral_ray2 (R := p1) (L := (p2.sub p1).add (V3.smul s (p3.sub p2))) (fun t => triPt_ne hD s t)).trans ?_
      unfold lineJ
      congr 3
      refine V3.ext' ?_ ?_ ?_ <;> simp <;> ring
    simp only [hin]
    rw [intervalIntegral.integral_sub ((continuous_inner (continuous_inv_len hD)).intervalIntegrable 0 1)
      ((continuous_ray_inv n3).intervalIntegrable 0 1)]
    rfl
  -- along the side
  have hB : ∫ s in (0 : ℝ)..1, ∫ v in (0 : ℝ)..1, s * (v * w (s, v) (p3.sub p2)) =
      (∫ s in (0 : ℝ)..1, ∫ v in (0 : ℝ)..1, 1 / vlen (triPt p1 p2 p3 s v)) - lineJ p1 (p3.sub p1) := by
    have hcB : Continuous (fun z : ℝ × ℝ => z.1 * (z.2 * w z (p3.sub p2))) := continuous_fst.mul (continuous_snd.mul (hw _))
    rw [integral_square_swap (f := fun z => z.1 * (z.2 * w z (p3.sub p2))) hcB,
      integral_square_swap (f := fun z => 1 / vlen (triPt p1 p2 p3 z.1 z.2)) (continuous_inv_len hD)]
    have hin : ∀ v : ℝ, ∫ s in (0 : ℝ)..1, s * (v * w (s, v) (p3.sub p2)) =
        (∫ s in (0 : ℝ)..1, 1 / vlen (triPt p1 p2 p3 s v)) - 1 / vlen (p1.add (V3.smul v (p3.sub p1))) := by
      intro v
      have := integral_ray2 (R := p1.add (V3.smul v (p2.sub p1))) (L := V3.smul v (p3.sub p2)) (fun t => by
        rw [← triPt_ray_s]; exact triPt_ne hD t v)
      unfold lineJ at this
      simp only [← triPt_ray_s, rdot_smul, mul_div_assoc] at this
      refine this.trans ?_
      congr 3
      refine V3.ext' ?_ ?_ ?_ <;> simp <;> ring
    simp only [hin]
    have hc : Continuous (fun v => ∫ s in (0 : ℝ)..1, 1 / vlen (triPt p1 p2 p3 s v)) :=
      continuous_inner (f := fun z => 1 / vlen (triPt p1 p2 p3 z.2 z.1)) ((continuous_inv_len hD).comp continuous_swap)
    rw [intervalIntegral.integral_sub (hc.intervalIntegrable 0 1) ((continuous_ray_inv n2).intervalIntegrable 0 1)]
    rfl
  have hsplit : faceW p1 p2 p3 (p2.sub p1) =
      (∫ s in (0 : ℝ)..1, ∫ v in (0 : ℝ)..1, v * w (s, v) ((p2.sub p1).add (V3.smul s (p3.sub p2)))) -
        ∫ s in (0 : ℝ)..1, ∫ v in (0 : ℝ)..1, s * (v * w (s, v) (p3.sub p2)) := by
    have c1 : Continuous (fun z : ℝ × ℝ => z.2 * w z ((p2.sub p1).add (V3.smul z.1 (p3.sub p2)))) := by
      have : (fun z : ℝ × ℝ => z.2 * w z ((p2.sub p1).add (V3.smul z.1 (p3.sub p2)))) =
          fun z => z.2 * (w z (p2.sub p1) + z.1 * w z (p3.sub p2)) := by
        funext z; simp only [w]; rw [rdot_add, rdot_smul]; ring
      rw [this]
      exact continuous_snd.mul ((hw _).add (continuous_fst.mul (hw _)))
    have c2 : Continuous (fun z : ℝ × ℝ => z.1 * (z.2 * w z (p3.sub p2))) := continuous_fst.mul (continuous_snd.mul (hw _))
    rw [← intervalIntegral.integral_sub ((continuous_inner c1).intervalIntegrable 0 1) ((continuous_inner c2).intervalIntegrable 0 1)]
    unfold faceW
    congr 1
    funext s
    rw [← intervalIntegral.integral_sub]
    · congr 1
      funext v
      simp only [w]
      rw [rdot_add, rdot_smul]
      ring
    · exact (c1.comp (Continuous.prodMk_right s)).intervalIntegrable 0 1
    · exact (c2.comp (Continuous.prodMk_right s)).intervalIntegrable 0 1
  rw [hsplit, hA, hB, hrev]
  ring

/-- `faceW` is linear in the direction -/
theorem faceW_add (hD : det3 p1 p2 p3 ≠ 0) (a b : V3 ℝ) : faceW p1 p2 p3 (a.add b) = faceW p1 p2 p3 a + faceW p1 p2 p3 b := by
  have c : ∀ e, Continuous (fun z : ℝ × ℝ => z.2 * (rdot (triPt p1 p2 p3 z.1 z.2) e / vlen (triPt p1 p2 p3 z.1 z.2) ^ 3)) :=
    fun e => continuous_snd.mul (continuous_weight hD e)
  unfold faceW
  rw [← intervalIntegral.integral_add ((continuous_inner (c a)).intervalIntegrable 0 1) ((continuous_inner (c b)).intervalIntegrable 0 1)]
  congr 1
  funext s
  rw [← intervalIntegral.integral_add]
  · congr 1
    funext v
    rw [rdot_add]; ring
  · exact ((c a).comp (Continuous.prodMk_right s)).intervalIntegrable 0 1
  · exact ((c b).comp (Continuous.prodMk_right s)).intervalIntegrable 0 1

theorem faceW_smul (k : ℝ) (a : V3 ℝ) : faceW p1 p2 p3 (V3.smul k a) = k * faceW p1 p2 p3 a := by
  unfold faceW
  rw [← intervalIntegral.integral_const_mul]
  congr 1
  funext s
  rw [← intervalIntegral.integral_const_mul]
  congr 1
  funext v
  rw [rdot_smul]; ring

/-- along the normal -/
theorem faceW_normal : faceW p1 p2 p3 (cross (p2.sub p1) (p3.sub p2)) =
    det3 p1 p2 p3 * ∫ s in (0 : ℝ)..1, ∫ v in (0 : ℝ)..1, v / vlen (triPt p1 p2 p3 s v) ^ 3 := by
  unfold faceW
  rw [← intervalIntegral.integral_const_mul]
  congr 1
  funext s
  rw [← intervalIntegral.integral_const_mul]
  congr 1
  funext v
  have e : rdot (triPt p1 p2 p3 s v) (cross (p2.sub p1) (p3.sub p2)) = det3 p1 p2 p3 := by
    simp [triPt, det3, rdot]; ring
  rw [e]; ring

/-- the surface integral from the angular excess and the three line integrals -/
theorem faceW_formula (hD : det3 p1 p2 p3 ≠ 0) (e : V3 ℝ) :
    let N := cross (p2.sub p1) (p3.sub p2)
    let J := ((V3.smul (lineJ p1 (p2.sub p1)) (p2.sub p1)).add (V3.smul (lineJ p2 (p3.sub p2)) (p3.sub p2))).add
      (V3.smul (lineJ p3 (p1.sub p3)) (p1.sub p3))
    rdot N N * faceW p1 p2 p3 e = rdot (cross N J) e +
      rdot N e * (det3 p1 p2 p3 * ∫ s in (0 : ℝ)..1, ∫ v in (0 : ℝ)..1, v / vlen (triPt p1 p2 p3 s v) ^ 3) := by
  intro N J
  have hdec := decomp (p2.sub p1) (p3.sub p2) e
  have h := congrArg (faceW p1 p2 p3) hdec
  rw [faceW_smul, faceW_add hD, faceW_add hD, faceW_smul, faceW_smul, faceW_smul, faceW_first hD, faceW_side hD, faceW_normal] at h
  rw [h, rdot_comm N e]
  congr 1
  simp only [N, J]
  generalize lineJ p1 (p2.sub p1) = j1
  generalize lineJ p2 (p3.sub p2) = j2
  generalize lineJ p3 (p1.sub p3) = j3
  simp [rdot]
  ring

end
end
end Geec
