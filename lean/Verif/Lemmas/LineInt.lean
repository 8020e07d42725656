import Verif.Spec.Newton
import Verif.Lemmas.RealKernel
import Mathlib.MeasureTheory.Integral.IntervalIntegral.FundThmCalculus
import Mathlib.Analysis.SpecialFunctions.Log.Deriv
import Mathlib.Analysis.SpecialFunctions.Sqrt
/-
The edge integral of the code is the line integral of `1/r`.
-/
namespace Geec
open Arith MeasureTheory
noncomputable section

theorem vlen_sq (a : V3 ℝ) : vlen a * vlen a = rdot a a := Real.mul_self_sqrt (rdot_self_nonneg a)
theorem vlen_nonneg (a : V3 ℝ) : 0 ≤ vlen a := Real.sqrt_nonneg _
theorem vlen_pos {a : V3 ℝ} (h : a ≠ V3.zeros) : 0 < vlen a := norm_pos h
theorem vlen_neg (a : V3 ℝ) : vlen a.neg = vlen a := by unfold vlen; rw [rdot_neg, neg_rdot, neg_neg]
theorem vlen_smul (c : ℝ) (a : V3 ℝ) : vlen (V3.smul c a) = |c| * vlen a := by
  unfold vlen
  rw [rdot_smul, smul_rdot, ← mul_assoc, Real.sqrt_mul (mul_self_nonneg c), Real.sqrt_mul_self_eq_abs]
theorem vlen_eq_zero {a : V3 ℝ} : vlen a = 0 ↔ a = V3.zeros := by
  unfold vlen
  rw [Real.sqrt_eq_zero (rdot_self_nonneg a), rdot_self_eq_zero]

/-- `|R + v L|²` as a polynomial -/
theorem ray_sq (R L : V3 ℝ) (v : ℝ) : rdot (R.add (V3.smul v L)) (R.add (V3.smul v L)) =
    rdot L L * v ^ 2 + 2 * rdot R L * v + rdot R R := by
  simp [rdot]; ring

theorem hasDerivAt_ray (R L : V3 ℝ) {v : ℝ} (h : 0 < rdot (R.add (V3.smul v L)) (R.add (V3.smul v L))) :
    HasDerivAt (fun v => vlen (R.add (V3.smul v L))) ((rdot L L * v + rdot R L) / vlen (R.add (V3.smul v L))) v := by
  have h1 : HasDerivAt (fun v => rdot L L * v ^ 2 + 2 * rdot R L * v + rdot R R) (rdot L L * (2 * v) + 2 * rdot R L) v := by
    have := (((hasDerivAt_id v).pow 2).const_mul (rdot L L)).add ((hasDerivAt_id v).const_mul (2 * rdot R L))
    have := this.add_const (rdot R R)
    refine this.congr_deriv ?_
    simp
  have h2 := h1.sqrt (by rw [← ray_sq]; exact h.ne')
  have e : (fun v => vlen (R.add (V3.smul v L))) = fun v => Real.sqrt (rdot L L * v ^ 2 + 2 * rdot R L * v + rdot R R) := by
    funext v; unfold vlen; rw [ray_sq]
  rw [e]
  convert h2 using 1
  unfold vlen
  rw [ray_sq]
  have : Real.sqrt (rdot L L * v ^ 2 + 2 * rdot R L * v + rdot R R) ≠ 0 := by
    rw [← ray_sq]; exact (Real.sqrt_pos.mpr h).ne'
  field_simp
  try ring

theorem continuous_ray (R L : V3 ℝ) : Continuous (fun v => vlen (R.add (V3.smul v L))) := by
  have e : (fun v => vlen (R.add (V3.smul v L))) = fun v => Real.sqrt (rdot L L * v ^ 2 + 2 * rdot R L * v + rdot R R) := by
    funext v; unfold vlen; rw [ray_sq]
  rw [e]
  fun_prop

/-- primitive of `1 / |R + v L|` -/
theorem lineJ_eq {R L : V3 ℝ} (hL : L ≠ V3.zeros)
    (h1 : ∀ v ∈ Set.Icc (0 : ℝ) 1, 0 < vlen L * vlen (R.add (V3.smul v L)) + (rdot L L * v + rdot R L))
    (h0 : ∀ v ∈ Set.Icc (0 : ℝ) 1, R.add (V3.smul v L) ≠ V3.zeros) :
    lineJ R L = Real.log ((vlen (R.add L) + vlen L + rdot R L / vlen L) / (vlen R + rdot R L / vlen L)) / vlen L := by
  have hl := vlen_pos hL
  have hl2 := vlen_sq L
  have hd : ∀ v ∈ Set.uIcc (0 : ℝ) 1, HasDerivAt
      (fun v => Real.log (vlen L * vlen (R.add (V3.smul v L)) + (rdot L L * v + rdot R L)) / vlen L)
      (1 / vlen (R.add (V3.smul v L))) v := by
    intro v hv
    rw [Set.uIcc_of_le zero_le_one] at hv
    have hp := vlen_pos (h0 v hv)
    have hq := h1 v hv
    have d1 := (hasDerivAt_ray R L (rdot_self_pos (h0 v hv))).const_mul (vlen L)
    have d2 : HasDerivAt (fun v => rdot L L * v + rdot R L) (rdot L L) v := by
      simpa using ((hasDerivAt_id v).const_mul (rdot L L)).add_const (rdot R L)
    have d3 := ((d1.add d2).log hq.ne').div_const (vlen L)
    refine d3.congr_deriv ?_
    simp only [Pi.add_apply]
    rw [← hl2] at hq ⊢
    rw [div_div, div_eq_div_iff (mul_pos hq hl).ne' hp.ne', add_mul, mul_assoc (vlen L), div_mul_cancel₀ _ hp.ne']
    ring
  have hc : IntervalIntegrable (fun v => 1 / vlen (R.add (V3.smul v L))) volume 0 1 := by
    apply ContinuousOn.intervalIntegrable
    intro v hv
    rw [Set.uIcc_of_le zero_le_one] at hv
    exact (continuousAt_const.div (continuous_ray R L).continuousAt (vlen_pos (h0 v hv)).ne').continuousWithinAt
  unfold lineJ
  rw [intervalIntegral.integral_eq_sub_of_hasDerivAt hd hc]
  have a1 := h1 1 (by simp)
  have a0 := h1 0 (by simp)
  have e1 : R.add (V3.smul 1 L) = R.add L := by refine V3.ext' ?_ ?_ ?_ <;> simp
  have e0 : R.add (V3.smul 0 L) = R := by refine V3.ext' ?_ ?_ ?_ <;> simp
  rw [e1] at a1 ⊢
  rw [e0] at a0 ⊢
  rw [← sub_div, ← Real.log_div a1.ne' a0.ne']
  congr 2
  rw [← hl2] at a1 a0 ⊢
  have : vlen R + rdot R L / vlen L ≠ 0 := by
    intro h
    apply a0.ne'
    have : vlen L * (vlen R + rdot R L / vlen L) = 0 := by rw [h, mul_zero]
    rw [mul_add, mul_div_cancel₀ _ hl.ne'] at this
    rw [mul_zero, zero_add]; exact this
  rw [div_eq_div_iff a0.ne' this]
  field_simp
  ring

/-- running along the edge in the other direction -/
theorem lineJ_reverse (R L : V3 ℝ) : lineJ (R.add L) L.neg = lineJ R L := by
  unfold lineJ
  have h := intervalIntegral.integral_comp_sub_left (a := 0) (b := 1) (fun v => 1 / vlen (R.add (V3.smul v L))) 1
  rw [sub_self, sub_zero] at h
  rw [← h]
  congr 1
  funext v
  congr 2
  refine V3.ext' ?_ ?_ ?_ <;> simp <;> ring

theorem cs_strict {R L : V3 ℝ} (h : cross R L ≠ V3.zeros) : |rdot R L| < vlen R * vlen L := by
  have h1 := rdot_self_pos h
  rw [lagrange, rdot_comm L R] at h1
  apply abs_lt_of_sq_lt_sq
  · have := vlen_sq R
    have := vlen_sq L
    nlinarith
  · exact mul_nonneg (vlen_nonneg _) (vlen_nonneg _)

theorem cross_ray {R L : V3 ℝ} (v : ℝ) : cross (R.add (V3.smul v L)) L = cross R L := by
  refine V3.ext' ?_ ?_ ?_ <;> simp <;> ring

theorem left_ne_of_cross {R L : V3 ℝ} (h : cross R L ≠ V3.zeros) : R ≠ V3.zeros := by
  rintro rfl; apply h; refine V3.ext' ?_ ?_ ?_ <;> simp
theorem right_ne_of_cross {R L : V3 ℝ} (h : cross R L ≠ V3.zeros) : L ≠ V3.zeros := by
  rintro rfl; apply h; refine V3.ext' ?_ ?_ ?_ <;> simp

/-- off the line -/
theorem lineJ_off {R L : V3 ℝ} (h : cross R L ≠ V3.zeros) :
    lineJ R L = Real.log ((vlen (R.add L) + vlen L + rdot R L / vlen L) / (vlen R + rdot R L / vlen L)) / vlen L := by
  apply lineJ_eq (right_ne_of_cross h)
  · intro v _
    have h1 : cross (R.add (V3.smul v L)) L ≠ V3.zeros := by rw [cross_ray]; exact h
    have h2 := (abs_lt.mp (cs_strict h1)).1
    have e : rdot (R.add (V3.smul v L)) L = rdot L L * v + rdot R L := by simp [rdot]; ring
    rw [e] at h2
    linarith [mul_comm (vlen L) (vlen (R.add (V3.smul v L)))]
  · intro v _
    apply left_ne_of_cross (L := L)
    rw [cross_ray]; exact h

/-- on the line, before the start of the edge -/
theorem lineJ_on {L : V3 ℝ} (hL : L ≠ V3.zeros) {c : ℝ} (hc : 0 < c) :
    lineJ (V3.smul c L) L = Real.log ((vlen ((V3.smul c L).add L) + vlen L + rdot (V3.smul c L) L / vlen L) /
      (vlen (V3.smul c L) + rdot (V3.smul c L) L / vlen L)) / vlen L := by
  have e : ∀ v, (V3.smul c L).add (V3.smul v L) = V3.smul (c + v) L := by
    intro v; refine V3.ext' ?_ ?_ ?_ <;> simp <;> ring
  have hp := rdot_self_pos hL
  apply lineJ_eq hL
  · intro v hv
    have : 0 < c + v := by linarith [hv.1]
    rw [e, vlen_smul, smul_rdot]
    have h1 := vlen_nonneg L
    have h2 : 0 ≤ |c + v| := abs_nonneg _
    nlinarith [mul_nonneg h1 (mul_nonneg h2 h1), mul_pos hp this]
  · intro v hv h
    have : 0 < c + v := by linarith [hv.1]
    rw [e, ← vlen_eq_zero, vlen_smul] at h
    have := mul_pos (abs_pos.mpr this.ne') (vlen_pos hL)
    linarith

/-! ### the code -/

/-- the derivatives computed next to the integral in the general branch -/
def edgeGrad (R L : V3 ℝ) : V3 ℝ :=
  (((((L.add R).sdiv (vlen (R.add L))).add (L.sdiv (vlen L))).neg).sdiv (vlen (R.add L) + vlen L + rdot R L / vlen L)).sub
    ((((R.sdiv (vlen R)).add (L.sdiv (vlen L))).neg).sdiv (vlen R + rdot R L / vlen L))

/-- general branch of the code -/
theorem lineIntegral_general {R L : V3 ℝ} (hL : L ≠ V3.zeros)
    (hc : repsilon < vlen R + rdot R L / vlen L) (hu : 0 < vlen (R.add L) + vlen L + rdot R L / vlen L) (gr : Bool) :
    lineIntegralAlongEdge (vlen R + rdot R L / vlen L) L (vlen L) R (vlen R) (rdot R L / vlen L) (2 * rdot R L) gr =
      .ok (V3.smul (Real.log ((vlen (R.add L) + vlen L + rdot R L / vlen L) / (vlen R + rdot R L / vlen L))) (L.sdiv (vlen L)),
        if gr then some ⟨V3.smul (edgeGrad R L).x (L.sdiv (vlen L)), V3.smul (edgeGrad R L).y (L.sdiv (vlen L)),
          V3.smul (edgeGrad R L).z (L.sdiv (vlen L))⟩ else none) := by
  have hl := vlen_pos hL
  have heps : (0 : ℝ) < repsilon := by unfold repsilon; positivity
  have hcp : 0 < vlen R + rdot R L / vlen L := heps.trans hc
  have hsq : Real.sqrt (vlen L * vlen L + 2 * rdot R L + vlen R * vlen R) = vlen (R.add L) := by
    have : R.add L = R.add (V3.smul 1 L) := by refine V3.ext' ?_ ?_ ?_ <;> simp
    unfold vlen
    rw [this, ray_sq, Real.mul_self_sqrt (rdot_self_nonneg _), Real.mul_self_sqrt (rdot_self_nonneg _)]
    congr 1
    ring
  unfold lineIntegralAlongEdge
  have hb : ((eps : ℝ) <. Arith.abs (vlen R + rdot R L / vlen L)) = true := by
    rw [r_lt, r_abs, r_eps, abs_of_pos hcp]; exact hc
  simp only [hb, if_true, bind, Except.bind, pure, Except.pure, r_add, r_mul, r_sqrt, hsq, numbaDiv_real, if_neg hcp.ne', r_log]
  cases gr
  · rfl
  · simp only [if_true]
    have key : ∀ (DU DV : V3 ℝ), ((((V3.smul (vlen R + rdot R L / vlen L) DU).sub
        (V3.smul ((vlen (R.add L) + vlen L + rdot R L / vlen L) / (vlen R + rdot R L / vlen L) * (vlen R + rdot R L / vlen L)) DV)).sdiv
        ((vlen R + rdot R L / vlen L) * (vlen R + rdot R L / vlen L))).sdiv
        ((vlen (R.add L) + vlen L + rdot R L / vlen L) / (vlen R + rdot R L / vlen L))) =
        (DU.sdiv (vlen (R.add L) + vlen L + rdot R L / vlen L)).sub (DV.sdiv (vlen R + rdot R L / vlen L)) := by
      intro DU DV
      generalize vlen R + rdot R L / vlen L = c at hcp
      generalize vlen (R.add L) + vlen L + rdot R L / vlen L = u at hu
      refine V3.ext' ?_ ?_ ?_ <;> simp <;> field_simp
    simp only [key]
    rfl

theorem neg_ne' {a : V3 ℝ} (ha : a ≠ V3.zeros) : a.neg ≠ V3.zeros := by
  intro h
  apply ha
  rw [← rdot_self_eq_zero] at h ⊢
  rwa [rdot_neg, neg_rdot, neg_neg] at h

theorem ok_pair {a a' : V3 ℝ} {d : Option (M3 ℝ)} (h : a = a') : ∃ d', (Except.ok (a, d) : Except PyErr (V3 ℝ × Option (M3 ℝ))) = .ok (a', d') :=
  ⟨d, by rw [h]⟩

/-- what an edge of the code must be for the claims about its integral: the attributes of the constructor -/
structure Edge.Proper (e : Edge ℝ) : Prop where
  vector : e.vector = e.fin.sub e.start
  length : e.length = vlen e.vector
  ne : e.start ≠ e.fin

theorem sub_ne_zeros {a b : V3 ℝ} (h : a ≠ b) : b.sub a ≠ V3.zeros := by
  intro h0
  apply h
  have hx := congrArg V3.x h0
  have hy := congrArg V3.y h0
  have hz := congrArg V3.z h0
  simp only [sub_x, sub_y, sub_z, zeros_x, zeros_y, zeros_z] at hx hy hz
  exact V3.ext' (by linarith) (by linarith) (by linarith)

/-- the code when it does not exchange the ends and does not turn the edge -/
theorem edgeIntegral_plain {e : Edge ℝ} (he : e.Proper) {obs : V3 ℝ} (gr : Bool)
    (hs : vlen (e.start.sub obs) ≤ vlen (e.fin.sub obs) ∨ rdot (e.start.sub obs) (e.fin.sub obs) ≠ vlen (e.start.sub obs) * vlen (e.fin.sub obs))
    (hc : repsilon < vlen (e.start.sub obs) + rdot (e.start.sub obs) e.vector / vlen e.vector)
    (hu : 0 < vlen (e.fin.sub obs) + vlen e.vector + rdot (e.start.sub obs) e.vector / vlen e.vector) :
    edgeIntegral e obs gr =
      .ok (V3.smul (Real.log ((vlen (e.fin.sub obs) + vlen e.vector + rdot (e.start.sub obs) e.vector / vlen e.vector) /
          (vlen (e.start.sub obs) + rdot (e.start.sub obs) e.vector / vlen e.vector))) (e.vector.sdiv (vlen e.vector)),
        if gr then some ⟨V3.smul (edgeGrad (e.start.sub obs) e.vector).x (e.vector.sdiv (vlen e.vector)),
          V3.smul (edgeGrad (e.start.sub obs) e.vector).y (e.vector.sdiv (vlen e.vector)),
          V3.smul (edgeGrad (e.start.sub obs) e.vector).z (e.vector.sdiv (vlen e.vector))⟩ else none) := by
  have hL : e.vector ≠ V3.zeros := by rw [he.vector]; exact sub_ne_zeros he.ne
  have hl := vlen_pos hL
  have heps : (0 : ℝ) < repsilon := by unfold repsilon; positivity
  have hfin : e.fin.sub obs = (e.start.sub obs).add e.vector := by
    rw [he.vector]; refine V3.ext' ?_ ?_ ?_ <;> simp
  have hswap : ((norm (e.fin.sub obs) <. norm (e.start.sub obs)) && ((dot (e.start.sub obs) (e.fin.sub obs) /. (norm (e.start.sub obs) *. norm (e.fin.sub obs))) ==. one)) = false := by
    rw [Bool.eq_false_iff, ne_eq, Bool.and_eq_true, r_lt, r_eq]
    rintro ⟨h1, h2⟩
    rcases hs with hs | hs
    · exact absurd h1 (not_lt.mpr hs)
    · apply hs
      simp only [r_div, r_dot, r_mul, r_norm, r_one] at h2
      have : Real.sqrt (rdot (e.start.sub obs) (e.start.sub obs)) * Real.sqrt (rdot (e.fin.sub obs) (e.fin.sub obs)) ≠ 0 := by
        intro h0; rw [h0, div_zero] at h2; exact zero_ne_one h2
      exact (div_eq_one_iff_eq this).mp h2
  have hb2 : (2 * rdot (e.start.sub obs) e.vector) / e.length / 2 = rdot (e.start.sub obs) e.vector / vlen e.vector := by
    rw [he.length]; ring
  have hflip : (Arith.abs (norm (e.start.sub obs) +. two *. dot (e.start.sub obs) e.vector /. e.length /. two) <. (eps : ℝ)) = false := by
    rw [Bool.eq_false_iff, ne_eq, r_lt]
    simp only [r_abs, r_add, r_norm, r_div, r_mul, r_two, r_dot, r_eps, hb2]
    rw [not_lt]
    exact hc.le.trans (le_abs_self _)
  unfold edgeIntegral
  simp only [hswap, hflip, Bool.false_eq_true, if_false]
  have hlin := lineIntegral_general hL hc (by rw [← hfin]; exact hu) gr
  rw [← hfin] at hlin
  have hargs : lineIntegralAlongEdge (norm (e.start.sub obs) +. two *. dot (e.start.sub obs) e.vector /. e.length /. two) e.vector e.length
      (e.start.sub obs) (norm (e.start.sub obs)) (two *. dot (e.start.sub obs) e.vector /. e.length /. two) (two *. dot (e.start.sub obs) e.vector) gr =
      lineIntegralAlongEdge (vlen (e.start.sub obs) + rdot (e.start.sub obs) e.vector / vlen e.vector) e.vector (vlen e.vector)
      (e.start.sub obs) (vlen (e.start.sub obs)) (rdot (e.start.sub obs) e.vector / vlen e.vector) (2 * rdot (e.start.sub obs) e.vector) gr := by
    simp only [r_add, r_norm, r_div, r_mul, r_two, r_dot, hb2]
    rw [he.length]
    rfl
  rw [hargs, hlin]
  show Except.ok (V3.smul 1 _, _) = Except.ok _
  congr 2
  refine V3.ext' ?_ ?_ ?_ <;> simp

/-- the code when the station is in line with the edge beyond its end -/
theorem edgeIntegral_beyond {e : Edge ℝ} (he : e.Proper) {obs : V3 ℝ} (gr : Bool) {c : ℝ} (hc0 : 0 < c)
    (hc : obs.sub e.fin = V3.smul c e.vector) (hr : repsilon < 2 * vlen (e.fin.sub obs)) :
    ∃ d, edgeIntegral e obs gr = .ok (V3.smul (lineJ (e.start.sub obs) e.vector) e.vector, d) := by
  have hL : e.vector ≠ V3.zeros := by rw [he.vector]; exact sub_ne_zeros he.ne
  have hl := vlen_pos hL
  have heps : (0 : ℝ) < repsilon := by unfold repsilon; positivity
  have hR2 : e.fin.sub obs = V3.smul c e.vector.neg := by
    have hx := congrArg V3.x hc
    have hy := congrArg V3.y hc
    have hz := congrArg V3.z hc
    refine V3.ext' ?_ ?_ ?_ <;> simp at hx hy hz ⊢ <;> linarith
  have hR1 : e.start.sub obs = V3.smul (c + 1) e.vector.neg := by
    have hx := congrArg V3.x hR2
    have hy := congrArg V3.y hR2
    have hz := congrArg V3.z hR2
    have hv := he.vector
    have vx := congrArg V3.x hv
    have vy := congrArg V3.y hv
    have vz := congrArg V3.z hv
    refine V3.ext' ?_ ?_ ?_ <;> simp at hx hy hz vx vy vz ⊢ <;> linarith
  have hn1 : vlen (e.start.sub obs) = (c + 1) * vlen e.vector := by rw [hR1, vlen_smul, vlen_neg, abs_of_pos (by linarith)]
  have hn2 : vlen (e.fin.sub obs) = c * vlen e.vector := by rw [hR2, vlen_smul, vlen_neg, abs_of_pos hc0]
  have hll := vlen_sq e.vector
  have hd12 : rdot (e.start.sub obs) (e.fin.sub obs) = (c + 1) * c * (vlen e.vector * vlen e.vector) := by
    rw [hR1, hR2, hll]; simp [rdot]; ring
  have hswap : ((norm (e.fin.sub obs) <. norm (e.start.sub obs)) && ((dot (e.start.sub obs) (e.fin.sub obs) /. (norm (e.start.sub obs) *. norm (e.fin.sub obs))) ==. one)) = true := by
    rw [Bool.and_eq_true, r_lt, r_eq]
    constructor
    · show vlen _ < vlen _
      rw [hn1, hn2]; nlinarith
    · show rdot _ _ / (vlen _ * vlen _) = 1
      rw [hd12, hn1, hn2]
      field_simp
  have hdL : rdot (e.fin.sub obs) e.vector = -(c * (vlen e.vector * vlen e.vector)) := by
    rw [hR2, hll]; simp [rdot]; ring
  have hb2 : (2 * rdot (e.fin.sub obs) e.vector) / e.length / 2 = -(c * vlen e.vector) := by
    rw [he.length, hdL]; field_simp
  have hflip : (Arith.abs (norm (e.fin.sub obs) +. two *. dot (e.fin.sub obs) e.vector /. e.length /. two) <. (eps : ℝ)) = true := by
    rw [r_lt]
    show |vlen _ + (2 * rdot (e.fin.sub obs) e.vector) / e.length / 2| < repsilon
    rw [hb2, hn2, add_neg_cancel, abs_zero]; exact heps
  unfold edgeIntegral
  simp only [hswap, hflip, if_true]
  have hdn : rdot (e.fin.sub obs) e.vector.neg = c * (vlen e.vector * vlen e.vector) := by rw [rdot_neg, hdL, neg_neg]
  have hLn : e.vector.neg ≠ V3.zeros := neg_ne' hL
  have hc' : repsilon < vlen (e.fin.sub obs) + rdot (e.fin.sub obs) e.vector.neg / vlen e.vector.neg := by
    rw [vlen_neg, hdn, hn2]
    have : c * (vlen e.vector * vlen e.vector) / vlen e.vector = c * vlen e.vector := by field_simp
    rw [this, ← hn2]; linarith
  have hR2' : e.fin.sub obs ≠ V3.zeros := by
    intro h0
    have := vlen_eq_zero.mpr h0
    rw [hn2] at this
    have := mul_pos hc0 hl
    linarith
  have hu : 0 < vlen ((e.fin.sub obs).add e.vector.neg) + vlen e.vector.neg + rdot (e.fin.sub obs) e.vector.neg / vlen e.vector.neg := by
    have h1 := vlen_nonneg ((e.fin.sub obs).add e.vector.neg)
    rw [vlen_neg, hdn]
    have : 0 < c * (vlen e.vector * vlen e.vector) / vlen e.vector := by positivity
    linarith
  have hlin := lineIntegral_general hLn hc' hu gr
  have hargs : lineIntegralAlongEdge (norm (e.fin.sub obs) +. Arith.neg (two *. dot (e.fin.sub obs) e.vector) /. e.length /. two) e.vector.neg e.length
      (e.fin.sub obs) (norm (e.fin.sub obs)) (Arith.neg (two *. dot (e.fin.sub obs) e.vector) /. e.length /. two) (Arith.neg (two *. dot (e.fin.sub obs) e.vector)) gr =
      lineIntegralAlongEdge (vlen (e.fin.sub obs) + rdot (e.fin.sub obs) e.vector.neg / vlen e.vector.neg) e.vector.neg (vlen e.vector.neg)
      (e.fin.sub obs) (vlen (e.fin.sub obs)) (rdot (e.fin.sub obs) e.vector.neg / vlen e.vector.neg) (2 * rdot (e.fin.sub obs) e.vector.neg) gr := by
    have h1 : Arith.neg (two *. dot (e.fin.sub obs) e.vector) = 2 * rdot (e.fin.sub obs) e.vector.neg := by
      simp only [r_neg, r_mul, r_two, r_dot, rdot_neg]; ring
    have h2 : Arith.neg (two *. dot (e.fin.sub obs) e.vector) /. e.length /. two = rdot (e.fin.sub obs) e.vector.neg / vlen e.vector.neg := by
      rw [h1, vlen_neg, ← he.length]; simp only [r_div, r_two]; ring
    rw [h2, h1, vlen_neg, ← he.length]
    rfl
  rw [hargs, hlin]
  have hJ : lineJ (e.start.sub obs) e.vector = lineJ (e.fin.sub obs) e.vector.neg := by
    rw [← lineJ_reverse]
    congr 1
    rw [he.vector]; refine V3.ext' ?_ ?_ ?_ <;> simp
  rw [hJ]
  have hon := lineJ_on hLn hc0
  rw [← hR2] at hon
  rw [hon]
  refine ok_pair (a := V3.smul (-1) _) ?_
  simp only [vlen_neg]
  refine V3.ext' ?_ ?_ ?_ <;> simp <;> ring

/-- the value of an edge at a station clear of it -/
theorem edgeIntegral_clear {e : Edge ℝ} (he : e.Proper) {obs : V3 ℝ} (h : ClearOf e.start e.fin obs) (gr : Bool) :
    ∃ d, edgeIntegral e obs gr = .ok (V3.smul (lineJ (e.start.sub obs) e.vector) e.vector, d) := by
  have hL : e.vector ≠ V3.zeros := by rw [he.vector]; exact sub_ne_zeros he.ne
  have hl := vlen_pos hL
  have hfin : e.fin.sub obs = (e.start.sub obs).add e.vector := by
    rw [he.vector]; refine V3.ext' ?_ ?_ ?_ <;> simp
  unfold ClearOf at h
  rw [← he.vector] at h
  rcases h with ⟨hx, hc⟩ | ⟨c, hc0, hc, hr⟩ | ⟨c, hc0, hc, hr⟩
  · have hx' : cross (e.start.sub obs) (e.fin.sub obs) ≠ V3.zeros := by
      have : cross (e.start.sub obs) (e.fin.sub obs) = cross (e.start.sub obs) e.vector := by
        rw [hfin]; refine V3.ext' ?_ ?_ ?_ <;> simp <;> ring
      rw [this]; exact hx
    have hu : 0 < vlen (e.fin.sub obs) + vlen e.vector + rdot (e.start.sub obs) e.vector / vlen e.vector := by
      have h1 : cross (e.fin.sub obs) e.vector ≠ V3.zeros := by
        have : cross (e.fin.sub obs) e.vector = cross (e.start.sub obs) e.vector := by
          rw [hfin]; refine V3.ext' ?_ ?_ ?_ <;> simp <;> ring
        rw [this]; exact hx
      have h2 := (abs_lt.mp (cs_strict h1)).1
      have h3 : rdot (e.fin.sub obs) e.vector = rdot (e.start.sub obs) e.vector + vlen e.vector * vlen e.vector := by
        rw [hfin, vlen_sq]; simp [rdot]; ring
      rw [h3] at h2
      have : vlen (e.fin.sub obs) + vlen e.vector + rdot (e.start.sub obs) e.vector / vlen e.vector =
          (vlen (e.fin.sub obs) * vlen e.vector + vlen e.vector * vlen e.vector + rdot (e.start.sub obs) e.vector) / vlen e.vector := by
        field_simp
      rw [this]
      apply div_pos _ hl
      linarith
    have := edgeIntegral_plain he gr (.inr (by
      have := (abs_lt.mp (cs_strict hx')).2
      exact this.ne)) hc hu
    rw [this, lineJ_off hx, ← hfin]
    apply ok_pair
    refine V3.ext' ?_ ?_ ?_ <;> simp <;> ring
  · have hR1 : vlen (e.start.sub obs) = c * vlen e.vector := by rw [hc, vlen_smul, abs_of_pos hc0]
    have hll := vlen_sq e.vector
    have hd : rdot (e.start.sub obs) e.vector / vlen e.vector = c * vlen e.vector := by
      rw [hc, smul_rdot, ← hll]; field_simp
    have hf : e.fin.sub obs = V3.smul (c + 1) e.vector := by
      rw [hfin, hc]; refine V3.ext' ?_ ?_ ?_ <;> simp <;> ring
    have hR2 : vlen (e.fin.sub obs) = (c + 1) * vlen e.vector := by rw [hf, vlen_smul, abs_of_pos (by linarith)]
    have := edgeIntegral_plain he gr (obs := obs) (.inl (by rw [hR1, hR2]; nlinarith)) (by rw [hd, ← hR1]; linarith) (by
        rw [hd, hR2]
        have := mul_pos hc0 hl
        nlinarith)
    have hon := lineJ_on hL hc0
    rw [← hc, ← hfin] at hon
    rw [this, hon]
    apply ok_pair
    refine V3.ext' ?_ ?_ ?_ <;> simp <;> ring
  · exact edgeIntegral_beyond he gr hc0 hc hr

end
end Geec
