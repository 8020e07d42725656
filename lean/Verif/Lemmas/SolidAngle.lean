import Verif.Lemmas.LineInt
import Mathlib.Analysis.SpecialFunctions.Trigonometric.InverseDeriv
/-
The sum of the angles of a spherical triangle, and the solid angle of a plane triangle as an integral.
-/
namespace Geec
open Arith MeasureTheory
noncomputable section

theorem hasDerivAt_affine (a b s : ℝ) : HasDerivAt (fun s => a + b * s) b s := by
  have h := ((hasDerivAt_id s).const_mul b).const_add a
  refine h.congr_deriv ?_
  simp

/-- derivative of the angle of `(X, Y)` -/
theorem hasDerivAt_angle {X Y : ℝ → ℝ} {X' Y' s : ℝ} (hX : HasDerivAt X X' s) (hY : HasDerivAt Y Y' s) (hp : 0 < Y s) :
    HasDerivAt (fun s => Real.arccos (X s / Real.sqrt (X s ^ 2 + Y s ^ 2)))
      ((X s * Y' - X' * Y s) / (X s ^ 2 + Y s ^ 2)) s := by
  have hq : 0 < X s ^ 2 + Y s ^ 2 := by positivity
  have hr : 0 < Real.sqrt (X s ^ 2 + Y s ^ 2) := Real.sqrt_pos.mpr hq
  have hrr : Real.sqrt (X s ^ 2 + Y s ^ 2) ^ 2 = X s ^ 2 + Y s ^ 2 := Real.sq_sqrt hq.le
  have d1 : HasDerivAt (fun s => X s ^ 2 + Y s ^ 2) (2 * X s * X' + 2 * Y s * Y') s := by
    refine ((hX.pow 2).add (hY.pow 2)).congr_deriv ?_
    simp
  have d2 := d1.sqrt hq.ne'
  have d3 := hX.div d2 hr.ne'
  set r := Real.sqrt (X s ^ 2 + Y s ^ 2) with hrdef
  have habs : |X s / r| < 1 := by
    rw [abs_div, abs_of_pos hr, div_lt_one hr]
    apply abs_lt_of_sq_lt_sq _ hr.le
    rw [hrr]; nlinarith
  have hs : Real.sqrt (1 - (X s / r) ^ 2) = Y s / r := by
    rw [show 1 - (X s / r) ^ 2 = (Y s / r) ^ 2 by rw [div_pow, div_pow, hrr]; field_simp; ring]
    exact Real.sqrt_sq (by positivity)
  have d4 := (Real.hasDerivAt_arccos (x := X s / r) (by linarith [(abs_lt.mp habs).1]) (by linarith [(abs_lt.mp habs).2]))
  rw [hs] at d4
  have d5 := HasDerivAt.comp s d4 d3
  refine d5.congr_deriv ?_
  rw [← hrr]
  field_simp
  rw [hrr]
  ring

/-- `∫₀¹ v dv / |p + v w|³` -/
theorem integral_ray_cube {p w : V3 ℝ} (hc : cross p w ≠ V3.zeros) :
    ∫ v in (0 : ℝ)..1, v / vlen (p.add (V3.smul v w)) ^ 3 =
      (vlen p - rdot p (p.add w) / vlen (p.add w)) / rdot (cross p w) (cross p w) := by
  have hcp := rdot_self_pos hc
  have h0 : ∀ v : ℝ, p.add (V3.smul v w) ≠ V3.zeros := by
    intro v
    apply left_ne_of_cross (L := w)
    rw [cross_ray]; exact hc
  have hd : ∀ v ∈ Set.uIcc (0 : ℝ) 1, HasDerivAt
      (fun v => -(rdot p p + rdot p w * v) / vlen (p.add (V3.smul v w)) / rdot (cross p w) (cross p w))
      (v / vlen (p.add (V3.smul v w)) ^ 3) v := by
    intro v _
    have hp := vlen_pos (h0 v)
    have d1 := hasDerivAt_ray p w (rdot_self_pos (h0 v))
    have d2 : HasDerivAt (fun v => -(rdot p p + rdot p w * v)) (-rdot p w) v :=
      (hasDerivAt_affine (rdot p p) (rdot p w) v).neg
    have d3 := (d2.div d1 hp.ne').div_const (rdot (cross p w) (cross p w))
    refine d3.congr_deriv ?_
    have hsq := vlen_sq (p.add (V3.smul v w))
    rw [ray_sq] at hsq
    rw [lagrange, rdot_comm w p] at hcp ⊢
    set q := vlen (p.add (V3.smul v w))
    have hcn := hcp.ne'
    have hpn := hp.ne'
    rw [div_div, div_eq_div_iff (by positivity) (by positivity)]
    have e : -rdot p w * q - -(rdot p p + rdot p w * v) * ((rdot w w * v + rdot p w) / q) =
        v * (rdot p p * rdot w w - rdot p w * rdot p w) / q := by
      rw [eq_div_iff hpn, sub_mul, mul_assoc _ (_ / q) q, div_mul_cancel₀ _ hpn, mul_assoc, hsq]
      ring
    rw [e, div_mul_eq_mul_div, div_eq_iff hpn]
    ring
  have hcont : IntervalIntegrable (fun v => v / vlen (p.add (V3.smul v w)) ^ 3) volume 0 1 := by
    apply Continuous.intervalIntegrable
    exact continuous_id.div ((continuous_ray p w).pow 3) (fun v => pow_ne_zero 3 (vlen_pos (h0 v)).ne')
  rw [intervalIntegral.integral_eq_sub_of_hasDerivAt hd hcont]
  have e1 : p.add (V3.smul 1 w) = p.add w := by refine V3.ext' ?_ ?_ ?_ <;> simp
  have e0 : p.add (V3.smul 0 w) = p := by refine V3.ext' ?_ ?_ ?_ <;> simp
  rw [e1, e0]
  have hp : 0 < vlen p := by have := vlen_pos (h0 0); rwa [e0] at this
  have h2 := vlen_sq p
  have h3 : (rdot p p + rdot p w * 0) / vlen p = vlen p := by rw [mul_zero, add_zero, ← h2, mul_div_assoc, div_self hp.ne', mul_one]
  have h4 : rdot p (p.add w) = rdot p p + rdot p w * 1 := by rw [rdot_add]; ring
  rw [h4, ← sub_div, neg_div, neg_div, h3]
  congr 1
  ring

/-- cosine of the angle at `q` of the spherical triangle `p q r` -/
def cosAngle (p q r : V3 ℝ) : ℝ := -rdot (cross p q) (cross q r) / (vlen (cross p q) * vlen (cross q r))

/-- angle at `q` of the spherical triangle `p q r` -/
def sphAngle (p q r : V3 ℝ) : ℝ := Real.arccos (cosAngle p q r)

theorem det3_self_left (p q : V3 ℝ) : det3 p p q = 0 := by simp [det3, rdot]; ring

theorem cross_ne_of_det {p q r : V3 ℝ} (h : det3 p q r ≠ 0) : cross p q ≠ V3.zeros := by
  intro hc; apply h; rw [det3_eq, hc]; simp [rdot]

/-- **Girard.**  The angular excess of a spherical triangle as an integral. -/
theorem girard_pos {p1 p2 p3 : V3 ℝ} (hD : 0 < det3 p1 p2 p3) :
    sphAngle p1 p2 p3 + sphAngle p2 p3 p1 + sphAngle p3 p1 p2 - Real.pi =
      det3 p1 p2 p3 * ∫ s in (0 : ℝ)..1, ∫ v in (0 : ℝ)..1,
        v / vlen (p1.add (V3.smul v ((p2.sub p1).add (V3.smul s (p3.sub p2))))) ^ 3 := by
  set d := p3.sub p2 with hd
  set D := det3 p1 p2 p3 with hDdef
  let q : ℝ → V3 ℝ := fun s => p2.add (V3.smul s d)
  have hDd : D = det3 p1 p2 d := by rw [hDdef, hd]; simp [det3, rdot]; ring
  have h12 : cross p1 p2 ≠ V3.zeros := cross_ne_of_det hD.ne'
  have hc : cross p2 d ≠ V3.zeros := by
    intro h; rw [hDd] at hD; unfold det3 at hD; rw [h] at hD; simp [rdot] at hD
  have hp1 : p1 ≠ V3.zeros := left_ne_of_cross h12
  -- `q` is never parallel to `p1`
  have hq1 : ∀ s, cross p1 (q s) ≠ V3.zeros := by
    intro s h
    have e : rdot (cross p1 (q s)) d = D := by rw [hDd]; simp [q, det3, rdot]; ring
    rw [h] at e
    simp [rdot] at e
    exact hD.ne e
  have hq0 : ∀ s, q s ≠ V3.zeros := fun s => right_ne_of_cross (hq1 s)
  have hcq : ∀ s, cross (q s) d = cross p2 d := fun s => cross_ray s
  -- the angle at `p1`
  let X1 : ℝ → ℝ := fun s => rdot (cross p1 p2) (cross p1 p2) + rdot (cross p1 d) (cross p1 p2) * s
  let Y1 : ℝ → ℝ := fun s => vlen p1 * D * s
  have hX1 : ∀ s, X1 s = rdot (cross p1 (q s)) (cross p1 p2) := by intro s; simp [X1, q, rdot]; ring
  have hXY1 : ∀ s, X1 s ^ 2 + Y1 s ^ 2 = rdot (cross p1 (q s)) (cross p1 (q s)) * rdot (cross p1 p2) (cross p1 p2) := by
    intro s
    have : Y1 s ^ 2 = rdot p1 p1 * (D * s) ^ 2 := by rw [← vlen_sq]; simp only [Y1]; ring
    rw [this, hX1, hDd]
    simp [q, det3, rdot]; ring
  have hA1 : ∀ s, X1 s / Real.sqrt (X1 s ^ 2 + Y1 s ^ 2) = rdot (cross p1 (q s)) (cross p1 p2) / (vlen (cross p1 (q s)) * vlen (cross p1 p2)) := by
    intro s
    rw [hXY1, Real.sqrt_mul (rdot_self_nonneg _), hX1]; rfl
  -- the angle at `q s`
  let X3 : ℝ → ℝ := fun s => rdot (cross p2 d) (cross p1 p2) + rdot (cross p2 d) (cross p1 d) * s
  let Y3 : ℝ → ℝ := fun s => vlen (q s) * D
  have hX3 : ∀ s, X3 s = rdot (cross p2 d) (cross p1 (q s)) := by intro s; simp [X3, q, rdot]; ring
  have hXY3 : ∀ s, X3 s ^ 2 + Y3 s ^ 2 = rdot (cross p2 d) (cross p2 d) * rdot (cross p1 (q s)) (cross p1 (q s)) := by
    intro s
    have : Y3 s ^ 2 = rdot (q s) (q s) * D ^ 2 := by rw [← vlen_sq]; simp only [Y3]; ring
    rw [this, hX3, ← hcq s]
    have e : D = det3 p1 (q s) d := by rw [hDd]; simp [q, det3, rdot]; ring
    rw [e]
    generalize q s = w
    simp [det3, rdot]; ring
  have hA3 : ∀ s, X3 s / Real.sqrt (X3 s ^ 2 + Y3 s ^ 2) = rdot (cross p2 d) (cross p1 (q s)) / (vlen (cross p2 d) * vlen (cross p1 (q s))) := by
    intro s
    rw [hXY3, Real.sqrt_mul (rdot_self_nonneg _), hX3]; rfl
  let F : ℝ → ℝ := fun s => Real.arccos (X1 s / Real.sqrt (X1 s ^ 2 + Y1 s ^ 2)) + Real.arccos (X3 s / Real.sqrt (X3 s ^ 2 + Y3 s ^ 2))
  have hcontX1 : Continuous X1 := by fun_prop
  have hcontY1 : Continuous Y1 := by fun_prop
  have hcontX3 : Continuous X3 := by fun_prop
  have hcontY3 : Continuous Y3 := (continuous_ray p2 d).mul continuous_const
  have hpos1 : ∀ s, 0 < X1 s ^ 2 + Y1 s ^ 2 := by
    intro s; rw [hXY1]; exact mul_pos (rdot_self_pos (hq1 s)) (rdot_self_pos h12)
  have hpos3 : ∀ s, 0 < X3 s ^ 2 + Y3 s ^ 2 := by
    intro s; rw [hXY3]; exact mul_pos (rdot_self_pos hc) (rdot_self_pos (hq1 s))
  have hFc : Continuous F := by
    apply Continuous.add
    · exact Real.continuous_arccos.comp (hcontX1.div (by fun_prop) (fun s => (Real.sqrt_pos.mpr (hpos1 s)).ne'))
    · exact Real.continuous_arccos.comp (hcontX3.div (by fun_prop) (fun s => (Real.sqrt_pos.mpr (hpos3 s)).ne'))
  have hderiv : ∀ s ∈ Set.Ioo (0 : ℝ) 1, HasDerivAt F
      (D * ((vlen p1 - rdot p1 (q s) / vlen (q s)) / rdot (cross p1 (q s)) (cross p1 (q s)))) s := by
    intro s hs
    have x1 : HasDerivAt X1 (rdot (cross p1 d) (cross p1 p2)) s := hasDerivAt_affine _ _ s
    have y1 : HasDerivAt Y1 (vlen p1 * D) s := by
      simpa using (hasDerivAt_id s).const_mul (vlen p1 * D)
    have x3 : HasDerivAt X3 (rdot (cross p2 d) (cross p1 d)) s := hasDerivAt_affine _ _ s
    have y3 : HasDerivAt Y3 ((rdot d d * s + rdot p2 d) / vlen (q s) * D) s :=
      (hasDerivAt_ray p2 d (rdot_self_pos (hq0 s))).mul_const D
    have a1 := hasDerivAt_angle x1 y1 (mul_pos (mul_pos (vlen_pos hp1) hD) hs.1)
    have a3 := hasDerivAt_angle x3 y3 (mul_pos (vlen_pos (hq0 s)) hD)
    refine (a1.add a3).congr_deriv ?_
    rw [hXY1, hXY3]
    have r1 := (rdot_self_pos h12).ne'
    have r3 := (rdot_self_pos hc).ne'
    have rq := (rdot_self_pos (hq1 s)).ne'
    have e1 : X1 s * (vlen p1 * D) - rdot (cross p1 d) (cross p1 p2) * Y1 s = vlen p1 * D * rdot (cross p1 p2) (cross p1 p2) := by
      simp only [X1, Y1]; ring
    have hl := (vlen_pos (hq0 s)).ne'
    have hl2 := vlen_sq (q s)
    have e3 : X3 s * ((rdot d d * s + rdot p2 d) / vlen (q s) * D) - rdot (cross p2 d) (cross p1 d) * Y3 s =
        -(D * rdot p1 (q s) / vlen (q s)) * rdot (cross p2 d) (cross p2 d) := by
      have f1 : rdot d d * s + rdot p2 d = rdot (q s) d := by simp [q, rdot]; ring
      have f2 : Y3 s = rdot (q s) (q s) * D / vlen (q s) := by rw [← hl2]; simp only [Y3]; field_simp
      rw [f1, f2, hX3, ← hcq s]
      generalize q s = w at *
      field_simp
      simp [rdot]; ring
    rw [e1, e3]
    generalize rdot (cross p1 p2) (cross p1 p2) = A at *
    generalize rdot (cross p2 d) (cross p2 d) = B at *
    generalize rdot (cross p1 (q s)) (cross p1 (q s)) = C at *
    field_simp
    try ring
  have hint : ∀ s, ∫ v in (0 : ℝ)..1, v / vlen (p1.add (V3.smul v ((p2.sub p1).add (V3.smul s d)))) ^ 3 =
      (vlen p1 - rdot p1 (q s) / vlen (q s)) / rdot (cross p1 (q s)) (cross p1 (q s)) := by
    intro s
    have e1 : p1.add ((p2.sub p1).add (V3.smul s d)) = q s := by refine V3.ext' ?_ ?_ ?_ <;> simp [q] <;> ring
    have e2 : cross p1 ((p2.sub p1).add (V3.smul s d)) = cross p1 (q s) := by refine V3.ext' ?_ ?_ ?_ <;> simp [q] <;> ring
    have := integral_ray_cube (p := p1) (w := (p2.sub p1).add (V3.smul s d)) (by rw [e2]; exact hq1 s)
    rw [e1, e2] at this
    exact this
  have hci : Continuous (fun s => D * ((vlen p1 - rdot p1 (q s) / vlen (q s)) / rdot (cross p1 (q s)) (cross p1 (q s)))) := by
    have c1 : Continuous (fun s => rdot p1 (q s)) := by simp only [q, rdot, add_x, add_y, add_z, smul_x, smul_y, smul_z]; fun_prop
    have c2 : Continuous (fun s => rdot (cross p1 (q s)) (cross p1 (q s))) := by
      simp only [q, rdot, cross_x, cross_y, cross_z, add_x, add_y, add_z, smul_x, smul_y, smul_z]; fun_prop
    exact continuous_const.mul ((continuous_const.sub (c1.div (continuous_ray p2 d) (fun s => (vlen_pos (hq0 s)).ne'))).div c2 (fun s => (rdot_self_pos (hq1 s)).ne'))
  have hftc := intervalIntegral.integral_eq_sub_of_hasDerivAt_of_le zero_le_one hFc.continuousOn hderiv (hci.intervalIntegrable 0 1)
  have hrhs : D * ∫ s in (0 : ℝ)..1, ∫ v in (0 : ℝ)..1, v / vlen (p1.add (V3.smul v ((p2.sub p1).add (V3.smul s d)))) ^ 3 = F 1 - F 0 := by
    rw [← hftc, intervalIntegral.integral_const_mul]
    simp only [hint]
  rw [hrhs]
  have q1 : q 1 = p3 := by refine V3.ext' ?_ ?_ ?_ <;> simp [q, hd]
  have q0 : q 0 = p2 := by refine V3.ext' ?_ ?_ ?_ <;> simp [q]
  have cd : cross p2 d = cross p2 p3 := by rw [hd]; refine V3.ext' ?_ ?_ ?_ <;> simp <;> ring
  have F1 : F 1 = sphAngle p2 p3 p1 + sphAngle p3 p1 p2 := by
    simp only [F]
    rw [hA1, hA3, q1, cd, add_comm]
    unfold sphAngle cosAngle
    have c13 : cross p3 p1 = (cross p1 p3).neg := cross_neg_swap _ _
    rw [c13, vlen_neg, rdot_neg, neg_rdot, neg_neg, neg_neg]
  have F0 : F 0 = Real.pi - sphAngle p1 p2 p3 := by
    simp only [F]
    rw [hA1, hA3, q0, cd]
    have hl := (vlen_pos h12).ne'
    rw [← vlen_sq, div_self (mul_ne_zero hl hl), Real.arccos_one, zero_add]
    unfold sphAngle cosAngle
    rw [neg_div, Real.arccos_neg, rdot_comm, mul_comm]
    ring
  rw [F1, F0]
  ring

/-- the excess does not depend on the side from which the triangle is seen -/
theorem girard {p1 p2 p3 : V3 ℝ} (hD : det3 p1 p2 p3 ≠ 0) :
    sphAngle p1 p2 p3 + sphAngle p2 p3 p1 + sphAngle p3 p1 p2 - Real.pi =
      |det3 p1 p2 p3| * ∫ s in (0 : ℝ)..1, ∫ v in (0 : ℝ)..1,
        v / vlen (p1.add (V3.smul v ((p2.sub p1).add (V3.smul s (p3.sub p2))))) ^ 3 := by
  rcases lt_or_gt_of_ne hD with h | h
  · have e : det3 p1.neg p2.neg p3.neg = -det3 p1 p2 p3 := by simp [det3, rdot]; ring
    have hc : ∀ p q : V3 ℝ, cross p.neg q.neg = cross p q := by intro p q; refine V3.ext' ?_ ?_ ?_ <;> simp
    have ha : ∀ p q r : V3 ℝ, sphAngle p.neg q.neg r.neg = sphAngle p q r := by
      intro p q r; unfold sphAngle cosAngle; rw [hc, hc]
    have := girard_pos (p1 := p1.neg) (p2 := p2.neg) (p3 := p3.neg) (by rw [e]; linarith)
    rw [ha, ha, ha, e] at this
    rw [this, abs_of_neg h]
    congr 2
    funext s
    congr 1
    funext v
    rw [← vlen_neg (p1.add _)]
    congr 3
    refine V3.ext' ?_ ?_ ?_ <;> simp <;> ring
  · rw [abs_of_pos h]; exact girard_pos h

end
end Geec
