import Verif.Lemmas.TensorInt
import Verif.Props.SolidAngle
import Mathlib.Analysis.SpecialFunctions.Trigonometric.InverseDeriv
/-
The derivatives the code computes next to its angles and line integrals are the derivatives of these angles and line
integrals with respect to the station.
-/
namespace Geec
open Arith MeasureTheory
noncomputable section

theorem add_rdot (a b c : V3 ℝ) : rdot (a.add b) c = rdot a c + rdot b c := by simp [rdot]; ring
theorem sub_rdot (a b c : V3 ℝ) : rdot (a.sub b) c = rdot a c - rdot b c := by simp [rdot]; ring
theorem vlen_zeros : vlen V3.zeros = 0 := by simp [vlen, rdot]

/-- `Σ_j d_j m_j` -/
def mulT (m : M3 ℝ) (d : V3 ℝ) : V3 ℝ := ((V3.smul d.x m.r0).add (V3.smul d.y m.r1)).add (V3.smul d.z m.r2)

theorem dUnit_dot (dV : M3 ℝ) {v : ℝ} (hv : v ≠ 0) (V A B d : V3 ℝ) :
    rdot (matVec (dUnit dV v V (matVec dV A)) B) d = (rdot (mulT dV d) B * v - rdot V B * rdot (mulT dV d) A) / (v * v) := by
  simp only [dUnit, matVec, mulT, rdot, r_mdot, sdiv_x, sdiv_y, sdiv_z, smul_x, smul_y, smul_z, sub_x, sub_y, sub_z, add_x, add_y, add_z, r_mul]
  field_simp
  ring

theorem mulT_V1 (p q d : V3 ℝ) : mulT ((crossDp p).neg.add (crossDp q)) d = (cross d q).add (cross p d) := by
  refine V3.ext' ?_ ?_ ?_ <;> simp [mulT, crossDp, minusIdentity, M3.neg, M3.add] <;> ring

theorem cross_path (p q d : V3 ℝ) (x : ℝ) :
    cross (p.sub (V3.smul x d)) (q.sub (V3.smul x d)) = (cross p q).sub (V3.smul x ((cross d q).add (cross p d))) := by
  refine V3.ext' ?_ ?_ ?_ <;> simp <;> ring

/-- the derivative of the dot product of two vectors moving along lines -/
theorem dot_paths (p q d1 d2 : V3 ℝ) : HasDerivAt (fun x => rdot (p.sub (V3.smul x d1)) (q.sub (V3.smul x d2))) (-(rdot d1 q + rdot p d2)) 0 := by
  have h : ∀ x, rdot (p.sub (V3.smul x d1)) (q.sub (V3.smul x d2)) = rdot p q + x * (-(rdot d1 q + rdot p d2)) + x ^ 2 * rdot d1 d2 := by
    intro x; simp [rdot]; ring
  rw [funext h]
  refine ((((hasDerivAt_id (0 : ℝ)).mul_const _).const_add _).add ((hasDerivAt_pow 2 (0 : ℝ)).mul_const (rdot d1 d2))).congr_deriv ?_
  simp

theorem path_zero (p d : V3 ℝ) : p.sub (V3.smul 0 d) = p := by refine V3.ext' ?_ ?_ ?_ <;> simp

/-- derivative of the cosine of the angle -/
theorem cosAngle_path {p q r : V3 ℝ} (hD : det3 p q r ≠ 0) (d : V3 ℝ) :
    HasDerivAt (fun x => cosAngle (p.sub (V3.smul x d)) (q.sub (V3.smul x d)) (r.sub (V3.smul x d)))
      (rdot ((matVec (dUnit ((crossDp p).neg.add (crossDp q)) (vlen (cross p q).neg) (cross p q).neg
          (matVec ((crossDp p).neg.add (crossDp q)) ((cross p q).neg.sdiv (vlen (cross p q).neg)))) ((cross q r).sdiv (vlen (cross q r)))).add
        (matVec (dUnit ((crossDp r).neg.add (crossDp q)) (vlen (cross q r)) (cross q r)
          (matVec ((crossDp r).neg.add (crossDp q)) ((cross q r).sdiv (vlen (cross q r))))) ((cross p q).neg.sdiv (vlen (cross p q).neg)))) d) 0 := by
  have n1 : cross p q ≠ V3.zeros := cross_ne_of_det hD
  have n2 : cross q r ≠ V3.zeros := by rw [det3_cyc] at hD; exact cross_ne_of_det hD
  have v1 := (vlen_pos n1).ne'
  have v2 := (vlen_pos n2).ne'
  set D1 := (cross d q).add (cross p d) with hD1
  set D2 := (cross d r).add (cross q d) with hD2
  unfold cosAngle
  simp only [cross_path, ← hD1, ← hD2]
  have h1 := vlen_path (p := cross p q) (d := D1) (x := 0) (by rw [path_zero]; exact n1)
  have h2 := vlen_path (p := cross q r) (d := D2) (x := 0) (by rw [path_zero]; exact n2)
  have h3 := dot_paths (cross p q) (cross q r) D1 D2
  have h4 := h3.neg.div (h1.mul h2) (by simp only [Pi.mul_apply, path_zero]; exact mul_ne_zero v1 v2)
  refine h4.congr_deriv ?_
  simp only [Pi.mul_apply, Pi.neg_apply, path_zero, vlen_neg]
  rw [add_rdot (matVec _ _), dUnit_dot _ v1, dUnit_dot _ v2, mulT_V1, mulT_V1, ← hD1]
  have e2 : (cross d q).add (cross r d) = D2.neg := by rw [hD2]; refine V3.ext' ?_ ?_ ?_ <;> simp <;> ring
  rw [e2]
  simp only [rdot_sdiv, neg_rdot, rdot_neg, sdiv_neg]
  rw [rdot_comm D1 (cross p q), rdot_comm D2 (cross q r), rdot_comm D2 (cross p q), rdot_comm (cross q r) (cross p q)]
  field_simp
  ring

theorem sin_angle_pos {p q r : V3 ℝ} (hD : det3 p q r ≠ 0) : |cosAngle p q r| < 1 := by
  have n1 : cross p q ≠ V3.zeros := cross_ne_of_det hD
  have n2 : cross q r ≠ V3.zeros := by rw [det3_cyc] at hD; exact cross_ne_of_det hD
  have v1 := vlen_pos n1
  have v2 := vlen_pos n2
  have hq : q ≠ V3.zeros := by rintro rfl; apply n1; refine V3.ext' ?_ ?_ ?_ <;> simp
  have hc : cross (cross p q) (cross q r) = V3.smul (det3 p q r) q := by
    refine V3.ext' ?_ ?_ ?_ <;> simp [det3, rdot] <;> ring
  have h0 : cross (cross p q) (cross q r) ≠ V3.zeros := by
    rw [hc]
    intro h
    apply hq
    have hx := congrArg V3.x h
    have hy := congrArg V3.y h
    have hz := congrArg V3.z h
    simp only [smul_x, smul_y, smul_z, zeros_x, zeros_y, zeros_z, mul_eq_zero, hD, false_or] at hx hy hz
    exact V3.ext' hx hy hz
  have := cs_strict h0
  unfold cosAngle
  rw [abs_div, abs_neg, abs_of_pos (mul_pos v1 v2), div_lt_one (mul_pos v1 v2)]
  exact this

/-- **the angle gradient of the code is the gradient of the angle** -/
theorem sphAngle_path {p q r : V3 ℝ} (hD : det3 p q r ≠ 0) (d : V3 ℝ) :
    HasDerivAt (fun x => sphAngle (p.sub (V3.smul x d)) (q.sub (V3.smul x d)) (r.sub (V3.smul x d))) (rdot (dAngle p q r) d) 0 := by
  have hl := abs_lt.mp (sin_angle_pos hD)
  have h1 := cosAngle_path hD d
  have h2 := Real.hasDerivAt_arccos (x := cosAngle (p.sub (V3.smul 0 d)) (q.sub (V3.smul 0 d)) (r.sub (V3.smul 0 d)))
    (by simp only [path_zero]; exact hl.1.ne') (by simp only [path_zero]; exact hl.2.ne)
  refine (h2.comp (0 : ℝ) h1).congr_deriv ?_
  simp only [path_zero]
  have hpos : 0 < 1 - cosAngle p q r ^ 2 := by nlinarith
  have hden : Real.sqrt (1 - cosAngle p q r ^ 2) ≠ 0 := (Real.sqrt_pos.mpr hpos).ne'
  unfold dAngle
  simp only [← pow_two]
  rw [if_neg hden, sdiv_rdot, neg_rdot]
  field_simp

theorem dOmega_path {p q r : V3 ℝ} (hD : det3 p q r ≠ 0) (d : V3 ℝ) :
    HasDerivAt (fun x => sphAngle (p.sub (V3.smul x d)) (q.sub (V3.smul x d)) (r.sub (V3.smul x d)) +
      sphAngle (q.sub (V3.smul x d)) (r.sub (V3.smul x d)) (p.sub (V3.smul x d)) +
      sphAngle (r.sub (V3.smul x d)) (p.sub (V3.smul x d)) (q.sub (V3.smul x d)) - Real.pi) (rdot (dOmega p q r) d) 0 := by
  have hD2 : det3 q r p ≠ 0 := by rwa [← det3_cyc]
  have hD3 : det3 r p q ≠ 0 := by rwa [← det3_cyc]
  refine ((((sphAngle_path hD d).add (sphAngle_path hD2 d)).add (sphAngle_path hD3 d)).sub_const _).congr_deriv ?_
  unfold dOmega
  rw [add_rdot, add_rdot]

/-- the line integral and the gradient computed next to it -/
theorem lineJ_path {R L : V3 ℝ} (h : cross R L ≠ V3.zeros) (d : V3 ℝ) :
    HasDerivAt (fun x => vlen L * lineJ (R.sub (V3.smul x d)) L) (rdot (edgeGrad R L) d) 0 := by
  have hL := right_ne_of_cross h
  have hl := (vlen_pos hL).ne'
  have hR : R ≠ V3.zeros := by rintro rfl; apply h; refine V3.ext' ?_ ?_ ?_ <;> simp
  have hRL : R.add L ≠ V3.zeros := by
    intro h0
    apply h
    have : R = L.neg := by
      have hx := congrArg V3.x h0
      have hy := congrArg V3.y h0
      have hz := congrArg V3.z h0
      simp only [add_x, add_y, add_z, zeros_x, zeros_y, zeros_z] at hx hy hz
      exact V3.ext' (by simp; linarith) (by simp; linarith) (by simp; linarith)
    rw [this]; refine V3.ext' ?_ ?_ ?_ <;> simp <;> ring
  have hv : 0 < vlen R + rdot R L / vlen L := by
    have h1 := (abs_lt.mp (cs_strict h)).1
    have h2 := vlen_pos hL
    rw [← neg_lt_iff_pos_add, neg_lt_iff_pos_add', ← neg_lt_iff_pos_add, lt_div_iff₀ h2]
    linarith
  have hu : 0 < vlen (R.add L) + vlen L + rdot R L / vlen L := by
    have h0 : cross (R.add L) L ≠ V3.zeros := by
      have := cross_ray (R := R) (L := L) 1
      have e : R.add (V3.smul 1 L) = R.add L := by refine V3.ext' ?_ ?_ ?_ <;> simp
      rw [e] at this; rw [this]; exact h
    have h1 := (abs_lt.mp (cs_strict h0)).1
    have h2 := vlen_pos hL
    have h3 : rdot (R.add L) L = rdot R L + vlen L * vlen L := by rw [add_rdot, vlen_sq]
    have h4 : vlen L + rdot R L / vlen L = rdot (R.add L) L / vlen L := by rw [h3]; field_simp; ring
    have h5 : -vlen (R.add L) < rdot (R.add L) L / vlen L := by rw [lt_div_iff₀ h2]; linarith
    linarith
  have hadd : ∀ x : ℝ, (R.sub (V3.smul x d)).add L = (R.add L).sub (V3.smul x d) := by
    intro x; refine V3.ext' ?_ ?_ ?_ <;> simp <;> ring
  have d1 := vlen_path (p := R) (d := d) (x := 0) (by rw [path_zero]; exact hR)
  have d2 := vlen_path (p := R.add L) (d := d) (x := 0) (by rw [path_zero]; exact hRL)
  have d3 := (rdot_path R d L 0).div_const (vlen L)
  have du := (d2.add_const (vlen L)).add d3
  have dv := d1.add d3
  have hd := (du.div dv (by simp only [Pi.add_apply, path_zero]; exact hv.ne')).log
    (by simp only [Pi.div_apply, Pi.add_apply, path_zero]; exact (div_pos hu hv).ne')
  have hev : ∀ᶠ x in nhds (0 : ℝ), cross (R.sub (V3.smul x d)) L ≠ V3.zeros := by
    have hc : Continuous (fun x : ℝ => vlen (cross (R.sub (V3.smul x d)) L)) := by
      apply continuous_vlen <;> simp only [cross_x, cross_y, cross_z, sub_x, sub_y, sub_z, smul_x, smul_y, smul_z] <;> fun_prop
    have h0 : (0 : ℝ) < vlen (cross (R.sub (V3.smul 0 d)) L) := by rw [path_zero]; exact vlen_pos h
    filter_upwards [(hc.tendsto 0).eventually (lt_mem_nhds h0)] with x hx h1
    rw [h1, vlen_zeros] at hx
    exact lt_irrefl _ hx
  have heq : (fun x => vlen L * lineJ (R.sub (V3.smul x d)) L) =ᶠ[nhds 0]
      fun x => Real.log ((vlen ((R.add L).sub (V3.smul x d)) + vlen L + rdot (R.sub (V3.smul x d)) L / vlen L) /
        (vlen (R.sub (V3.smul x d)) + rdot (R.sub (V3.smul x d)) L / vlen L)) := by
    filter_upwards [hev] with x hx
    rw [lineJ_off hx, hadd]
    field_simp
  refine (hd.congr_of_eventuallyEq heq).congr_deriv ?_
  simp only [Pi.add_apply, Pi.div_apply, path_zero]
  unfold edgeGrad
  simp only [sub_rdot, sdiv_rdot, neg_rdot, add_rdot]
  rw [rdot_comm d L]
  set u := vlen (R.add L) + vlen L + rdot R L / vlen L
  set v := vlen R + rdot R L / vlen L
  have := hu.ne'
  have := hv.ne'
  have := (vlen_pos hR).ne'
  have := (vlen_pos hRL).ne'
  field_simp
  ring

end
end Geec
