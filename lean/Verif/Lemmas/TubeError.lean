import Verif.Props.ThinTube
import Mathlib.Order.Monotone.Union
/-
Lemmas for the exact form of C64: the error of the tensor at a station in the thin tube of one edge.
-/
namespace Geec
open Arith MeasureTheory
noncomputable section

/-- `log (x + √(x²+ρ²)) - x / √(x²+ρ²)` increases -/
theorem logTail_strictMono {ρ : ℝ} (hρ : 0 < ρ) :
    StrictMono (fun x : ℝ => Real.log (Real.sqrt (x ^ 2 + ρ ^ 2) + x) - x / Real.sqrt (x ^ 2 + ρ ^ 2)) := by
  have hpos : ∀ x : ℝ, 0 < x ^ 2 + ρ ^ 2 := fun x => by positivity
  have hs : ∀ x : ℝ, 0 < Real.sqrt (x ^ 2 + ρ ^ 2) := fun x => Real.sqrt_pos.mpr (hpos x)
  have hsum : ∀ x : ℝ, 0 < Real.sqrt (x ^ 2 + ρ ^ 2) + x := by
    intro x
    have h1 : |x| < Real.sqrt (x ^ 2 + ρ ^ 2) := by
      apply Real.lt_sqrt_of_sq_lt
      rw [sq_abs]; nlinarith [sq_pos_of_pos hρ]
    linarith [neg_abs_le x]
  have hd : ∀ x : ℝ, HasDerivAt (fun x : ℝ => Real.log (Real.sqrt (x ^ 2 + ρ ^ 2) + x) - x / Real.sqrt (x ^ 2 + ρ ^ 2))
      (x ^ 2 / Real.sqrt (x ^ 2 + ρ ^ 2) ^ 3) x := by
    intro x
    have d0 : HasDerivAt (fun x : ℝ => x ^ 2 + ρ ^ 2) (2 * x) x := by
      simpa using (hasDerivAt_pow 2 x).add_const (ρ ^ 2)
    have d1 := d0.sqrt (hpos x).ne'
    have d2 := (d1.add (hasDerivAt_id x)).log (hsum x).ne'
    have d3 := (hasDerivAt_id x).div d1 (hs x).ne'
    refine (d2.sub d3).congr_deriv ?_
    have e := Real.sq_sqrt (hpos x).le
    have := (hs x).ne'
    have := (hsum x).ne'
    simp only [Pi.add_apply, id]
    set q := Real.sqrt (x ^ 2 + ρ ^ 2)
    field_simp
    first | done | ring
  have hcont : Continuous (fun x : ℝ => Real.log (Real.sqrt (x ^ 2 + ρ ^ 2) + x) - x / Real.sqrt (x ^ 2 + ρ ^ 2)) :=
    continuous_iff_continuousAt.mpr fun x => (hd x).continuousAt
  have h1 := strictMonoOn_of_deriv_pos (convex_Iic (0 : ℝ)) hcont.continuousOn (by
    intro x hx
    rw [interior_Iic] at hx
    rw [(hd x).deriv]
    exact div_pos (by have : x ≠ 0 := ne_of_lt hx; positivity) (pow_pos (hs x) 3))
  have h2 := strictMonoOn_of_deriv_pos (convex_Ici (0 : ℝ)) hcont.continuousOn (by
    intro x hx
    rw [interior_Ici] at hx
    rw [(hd x).deriv]
    exact div_pos (by have : x ≠ 0 := ne_of_gt hx; positivity) (pow_pos (hs x) 3))
  exact StrictMonoOn.Iic_union_Ici h1 h2

/-- the part of the gradient across the edge is smaller than the integral over the squared distance -/
theorem edge_slack {R L : V3 ℝ} (h : cross R L ≠ V3.zeros) :
    rdot L L * rdot (edgeGrad R L) R - rdot R L * rdot (edgeGrad R L) L < rdot L L * (vlen L * lineJ R L) := by
  have hL := right_ne_of_cross h
  have hl := vlen_pos hL
  have hl2 := vlen_sq L
  have h' : cross (R.add L) L ≠ V3.zeros := by
    have : cross (R.add L) L = cross R L := by refine V3.ext' ?_ ?_ ?_ <;> simp <;> ring
    rw [this]; exact h
  have r1p := vlen_pos (left_ne_of_cross h)
  have r2p := vlen_pos (left_ne_of_cross h')
  have r1s := vlen_sq R
  have r2s := vlen_sq (R.add L)
  set l := vlen L
  set r1 := vlen R
  set r2 := vlen (R.add L)
  set x0 := rdot R L / l with hx0
  set x1 := l + rdot R L / l with hx1
  have e0 : rdot R L = l * x0 := by rw [hx0]; field_simp
  have e1 : rdot (R.add L) (R.add L) = rdot R R + 2 * rdot R L + rdot L L := by simp [rdot]; ring
  have e2 : rdot (R.add L) L = rdot R L + rdot L L := by simp [rdot]; ring
  have c1 := abs_lt.mp (cs_strict h)
  have c2 := abs_lt.mp (cs_strict h')
  have hV : 0 < r1 + x0 := by
    have : l * (r1 + x0) = r1 * l + rdot R L := by rw [e0]; ring
    have : 0 < l * (r1 + x0) := by rw [this]; linarith [c1.1]
    exact (mul_pos_iff_of_pos_left hl).mp this
  have hU : 0 < r2 + x1 := by
    have : l * (r2 + x1) = r2 * l + rdot (R.add L) L := by rw [e2, hx1, ← hl2, ← hx0, e0]; ring
    have : 0 < l * (r2 + x1) := by rw [this]; linarith [c2.1]
    exact (mul_pos_iff_of_pos_left hl).mp this
  have hρ : 0 < r1 * r1 - x0 * x0 := by
    have h1 : 0 < r1 - x0 := by
      have : l * (r1 - x0) = r1 * l - rdot R L := by rw [e0]; ring
      have : 0 < l * (r1 - x0) := by rw [this]; linarith [c1.2]
      exact (mul_pos_iff_of_pos_left hl).mp this
    nlinarith [mul_pos h1 hV]
  have hx10 : x1 = l + x0 := rfl
  have hr2 : r2 * r2 = x1 * x1 + (r1 * r1 - x0 * x0) := by rw [r2s, e1, ← r1s, ← hl2, e0, hx10]; ring
  have q0 : Real.sqrt (x0 ^ 2 + Real.sqrt (r1 * r1 - x0 * x0) ^ 2) = r1 := by
    rw [Real.sq_sqrt hρ.le, show x0 ^ 2 + (r1 * r1 - x0 * x0) = r1 * r1 by ring, Real.sqrt_mul_self r1p.le]
  have q1 : Real.sqrt (x1 ^ 2 + Real.sqrt (r1 * r1 - x0 * x0) ^ 2) = r2 := by
    rw [Real.sq_sqrt hρ.le, show x1 ^ 2 + (r1 * r1 - x0 * x0) = r2 * r2 by rw [hr2]; ring, Real.sqrt_mul_self r2p.le]
  have hm := logTail_strictMono (Real.sqrt_pos.mpr hρ) (show x0 < x1 by rw [hx10]; linarith)
  simp only [q0, q1] at hm
  have hJ : l * lineJ R L = Real.log (r2 + x1) - Real.log (r1 + x0) := by
    rw [lineJ_off h, mul_div_cancel₀ _ hl.ne', ← Real.log_div hU.ne' hV.ne', hx1, add_assoc]
  have gR : rdot (edgeGrad R L) R = -((l * x0 + r1 * r1) / r2 + x0) / (r2 + x1) + (r1 * r1 / r1 + x0) / (r1 + x0) := by
    have : rdot (edgeGrad R L) R = -((rdot R L + rdot R R) / r2 + rdot R L / l) / (r2 + l + rdot R L / l) + (rdot R R / r1 + rdot R L / l) / (r1 + rdot R L / l) := by
      simp only [edgeGrad, rdot, sub_x, sub_y, sub_z, sdiv_x, sdiv_y, sdiv_z, neg_x, neg_y, neg_z, add_x, add_y, add_z, r2, l, r1]
      ring
    rw [this, ← hx0, e0, ← r1s, hx10, add_assoc]
  have gL : rdot (edgeGrad R L) L = -((l * l + l * x0) / r2 + l) / (r2 + x1) + (l * x0 / r1 + l) / (r1 + x0) := by
    have : rdot (edgeGrad R L) L = -((rdot L L + rdot R L) / r2 + rdot L L / l) / (r2 + l + rdot R L / l) + (rdot R L / r1 + rdot L L / l) / (r1 + rdot R L / l) := by
      simp only [edgeGrad, rdot, sub_x, sub_y, sub_z, sdiv_x, sdiv_y, sdiv_z, neg_x, neg_y, neg_z, add_x, add_y, add_z, r2, l, r1]
      ring
    rw [this, ← hx0, e0, ← hl2, hx10, add_assoc, mul_div_cancel_right₀ _ hl.ne']
  have key : rdot (edgeGrad R L) R * (l * l) - l * x0 * rdot (edgeGrad R L) L = l * l * (x1 / r2 - x0 / r1) := by
    rw [gR, gL]
    have a1 := r1p.ne'
    have a2 := r2p.ne'
    have a3 := hU.ne'
    have a4 := hV.ne'
    have b1 : (l * x0 + r1 * r1) / r2 + x0 = (r2 - x1 + x0) / r2 * (r2 + x1) := by
      field_simp
      rw [hx10] at hr2 ⊢
      linear_combination -hr2
    have b2 : (l * l + l * x0) / r2 + l = l / r2 * (r2 + x1) := by field_simp; rw [hx10]; ring
    have b3 : l * x0 / r1 + l = l / r1 * (r1 + x0) := by field_simp; ring
    have b4 : r1 * r1 / r1 + x0 = r1 + x0 := by field_simp
    rw [b1, b2, b3, b4, neg_div, neg_div, mul_div_cancel_right₀ _ a3, mul_div_cancel_right₀ _ a3, mul_div_cancel_right₀ _ a4, div_self a4]
    field_simp
    ring
  rw [← hl2, e0, hJ, mul_comm (l * l) (rdot _ R), key]
  exact mul_lt_mul_of_pos_left (by linarith) (mul_pos hl hl)

/-- the code when it turns the edge without exchanging its ends, with the gradient -/
theorem edgeIntegral_turned_gradient {e : Edge ℝ} (he : e.Proper) {obs : V3 ℝ} (hx : cross (e.start.sub obs) e.vector ≠ V3.zeros)
    (hc : vlen (e.start.sub obs) + rdot (e.start.sub obs) e.vector / vlen e.vector < repsilon) (hr : repsilon < vlen (e.start.sub obs)) :
    edgeIntegral e obs true = .ok (V3.smul (-lineJ (e.start.sub obs) e.vector.neg) e.vector,
      some (gradRows (edgeGrad (e.start.sub obs) e.vector.neg).neg (e.vector.sdiv (vlen e.vector)))) := by
  have hL : e.vector ≠ V3.zeros := by rw [he.vector]; exact sub_ne_zeros he.ne
  have hl := vlen_pos hL
  have heps : (0 : ℝ) < repsilon := by unfold repsilon; positivity
  have hfin : e.fin.sub obs = (e.start.sub obs).add e.vector := by
    rw [he.vector]; refine V3.ext' ?_ ?_ ?_ <;> simp
  have hx' : cross (e.start.sub obs) (e.fin.sub obs) ≠ V3.zeros := by
    have : cross (e.start.sub obs) (e.fin.sub obs) = cross (e.start.sub obs) e.vector := by
      rw [hfin]; refine V3.ext' ?_ ?_ ?_ <;> simp <;> ring
    rw [this]; exact hx
  have hs := (abs_lt.mp (cs_strict hx')).2.ne
  have hswap : ((norm (e.fin.sub obs) <. norm (e.start.sub obs)) && ((dot (e.start.sub obs) (e.fin.sub obs) /. (norm (e.start.sub obs) *. norm (e.fin.sub obs))) ==. one)) = false := by
    rw [Bool.eq_false_iff, ne_eq, Bool.and_eq_true, r_lt, r_eq]
    rintro ⟨h1, h2⟩
    apply hs
    simp only [r_div, r_dot, r_mul, r_norm, r_one] at h2
    have : Real.sqrt (rdot (e.start.sub obs) (e.start.sub obs)) * Real.sqrt (rdot (e.fin.sub obs) (e.fin.sub obs)) ≠ 0 := by
      intro h0; rw [h0, div_zero] at h2; exact zero_ne_one h2
    exact (div_eq_one_iff_eq this).mp h2
  have hb2 : (2 * rdot (e.start.sub obs) e.vector) / e.length / 2 = rdot (e.start.sub obs) e.vector / vlen e.vector := by
    rw [he.length]; ring
  have hpos : 0 < vlen (e.start.sub obs) + rdot (e.start.sub obs) e.vector / vlen e.vector := by
    have h1 := (abs_lt.mp (cs_strict hx)).1
    have : vlen (e.start.sub obs) + rdot (e.start.sub obs) e.vector / vlen e.vector =
        (vlen (e.start.sub obs) * vlen e.vector + rdot (e.start.sub obs) e.vector) / vlen e.vector := by field_simp
    rw [this]
    apply div_pos _ hl
    linarith
  have hflip : (Arith.abs (norm (e.start.sub obs) +. two *. dot (e.start.sub obs) e.vector /. e.length /. two) <. (eps : ℝ)) = true := by
    rw [r_lt]
    simp only [r_abs, r_add, r_norm, r_div, r_mul, r_two, r_dot, r_eps, hb2]
    show |vlen _ + _| < _
    rw [abs_of_pos hpos]
    exact hc
  unfold edgeIntegral
  simp only [hswap, hflip, Bool.false_eq_true, if_false, if_true]
  have hLn : e.vector.neg ≠ V3.zeros := neg_ne' hL
  have hdiv : rdot (e.start.sub obs) e.vector.neg / vlen e.vector.neg = -(rdot (e.start.sub obs) e.vector / vlen e.vector) := by
    rw [vlen_neg, rdot_neg, neg_div]
  have hc' : repsilon < vlen (e.start.sub obs) + rdot (e.start.sub obs) e.vector.neg / vlen e.vector.neg := by
    rw [hdiv]; linarith
  have hu : 0 < vlen ((e.start.sub obs).add e.vector.neg) + vlen e.vector.neg + rdot (e.start.sub obs) e.vector.neg / vlen e.vector.neg := by
    have h1 := vlen_nonneg ((e.start.sub obs).add e.vector.neg)
    rw [hdiv, vlen_neg]; linarith
  have hlin := lineIntegral_general hLn hc' hu true
  have hargs : lineIntegralAlongEdge (norm (e.start.sub obs) +. Arith.neg (two *. dot (e.start.sub obs) e.vector) /. e.length /. two) e.vector.neg e.length
      (e.start.sub obs) (norm (e.start.sub obs)) (Arith.neg (two *. dot (e.start.sub obs) e.vector) /. e.length /. two) (Arith.neg (two *. dot (e.start.sub obs) e.vector)) true =
      lineIntegralAlongEdge (vlen (e.start.sub obs) + rdot (e.start.sub obs) e.vector.neg / vlen e.vector.neg) e.vector.neg (vlen e.vector.neg)
      (e.start.sub obs) (vlen (e.start.sub obs)) (rdot (e.start.sub obs) e.vector.neg / vlen e.vector.neg) (2 * rdot (e.start.sub obs) e.vector.neg) true := by
    have h1 : Arith.neg (two *. dot (e.start.sub obs) e.vector) = 2 * rdot (e.start.sub obs) e.vector.neg := by
      simp only [r_neg, r_mul, r_two, r_dot, rdot_neg]; ring
    have h2 : Arith.neg (two *. dot (e.start.sub obs) e.vector) /. e.length /. two = rdot (e.start.sub obs) e.vector.neg / vlen e.vector.neg := by
      rw [h1, vlen_neg, ← he.length]; simp only [r_div, r_two]; ring
    rw [h2, h1, vlen_neg, ← he.length]
    rfl
  rw [hargs, hlin]
  have hxn : cross (e.start.sub obs) e.vector.neg ≠ V3.zeros := by
    intro h0
    apply hx
    have a1 := congrArg V3.x h0
    have a2 := congrArg V3.y h0
    have a3 := congrArg V3.z h0
    simp at a1 a2 a3
    refine V3.ext' ?_ ?_ ?_ <;> simp <;> linarith
  have hJ := lineJ_off hxn
  have hJ' : Real.log ((vlen ((e.start.sub obs).add e.vector.neg) + vlen e.vector.neg + rdot (e.start.sub obs) e.vector.neg / vlen e.vector.neg) /
      (vlen (e.start.sub obs) + rdot (e.start.sub obs) e.vector.neg / vlen e.vector.neg)) = vlen e.vector * lineJ (e.start.sub obs) e.vector.neg := by
    rw [hJ, vlen_neg]; field_simp
  rw [hJ']
  simp only [bind, Except.bind, pure, Except.pure, if_true]
  rw [vlen_neg, sdiv_neg]
  congr 2
  · refine V3.ext' ?_ ?_ ?_ <;> simp <;> field_simp
  · unfold gradRows
    congr 1
    refine M3.ext' (V3.ext' ?_ ?_ ?_) (V3.ext' ?_ ?_ ?_) (V3.ext' ?_ ?_ ?_) <;> simp

/-- two planes through an edge: `a bᵀ - a' b'ᵀ` with `a = n × L`, `b = (n·R) w - δ n` has its strict lower triangle only when the
planes are parallel -/
theorem twoPlanes {n n' L R w : V3 ℝ} {δ : ℝ} (u1 : rdot n n = 1) (u2 : rdot n' n' = 1) (o1 : rdot n L = 0) (o2 : rdot n' L = 0)
    (hL : L ≠ V3.zeros) (hδ : δ < 0) (hQ : rdot L L * δ < rdot L L * rdot w R - rdot R L * rdot w L)
    (C : V3 ℝ → V3 ℝ → ℝ)
    (hC : ∀ e d, C e d = rdot (cross n L) e * (rdot n R * rdot w d - δ * rdot n d) - rdot (cross n' L) e * (rdot n' R * rdot w d - δ * rdot n' d))
    (xx : C ⟨1, 0, 0⟩ ⟨1, 0, 0⟩ = 0) (xy : C ⟨1, 0, 0⟩ ⟨0, 1, 0⟩ = 0) (xz : C ⟨1, 0, 0⟩ ⟨0, 0, 1⟩ = 0)
    (yy : C ⟨0, 1, 0⟩ ⟨0, 1, 0⟩ = 0) (yz : C ⟨0, 1, 0⟩ ⟨0, 0, 1⟩ = 0) (zz : C ⟨0, 0, 1⟩ ⟨0, 0, 1⟩ = 0) : n' = n ∨ n' = n.neg := by
  have hl := rdot_self_pos hL
  set k := rdot (cross n n') L with hk
  have N : cross (cross n n') L = V3.zeros := by
    have : cross (cross n n') L = (V3.smul (rdot n L) n').sub (V3.smul (rdot n' L) n) := by
      refine V3.ext' ?_ ?_ ?_ <;> simp [rdot] <;> ring
    rw [this, o1, o2]; refine V3.ext' ?_ ?_ ?_ <;> simp
  have N2 : V3.smul (rdot L L) (cross n n') = V3.smul k L := by
    have e : cross L (cross (cross n n') L) = (V3.smul (rdot L L) (cross n n')).sub (V3.smul k L) := by
      rw [hk]; refine V3.ext' ?_ ?_ ?_ <;> simp [rdot] <;> ring
    rw [N] at e
    have hx := congrArg V3.x e
    have hy := congrArg V3.y e
    have hz := congrArg V3.z e
    simp only [cross_x, cross_y, cross_z, zeros_x, zeros_y, zeros_z, sub_x, sub_y, sub_z] at hx hy hz
    exact V3.ext' (by linarith) (by linarith) (by linarith)
  set b := (V3.smul (rdot n R) w).sub (V3.smul δ n) with hb
  set b' := (V3.smul (rdot n' R) w).sub (V3.smul δ n') with hb'
  have hC' : ∀ e d, C e d = rdot (cross n L) e * rdot b d - rdot (cross n' L) e * rdot b' d := by
    intro e d; rw [hC, hb, hb']; simp [rdot]; ring
  have minors : C ⟨1, 0, 0⟩ ⟨1, 0, 0⟩ * C ⟨0, 1, 0⟩ ⟨0, 1, 0⟩ - C ⟨1, 0, 0⟩ ⟨0, 1, 0⟩ * C ⟨0, 1, 0⟩ ⟨1, 0, 0⟩ +
      (C ⟨1, 0, 0⟩ ⟨1, 0, 0⟩ * C ⟨0, 0, 1⟩ ⟨0, 0, 1⟩ - C ⟨1, 0, 0⟩ ⟨0, 0, 1⟩ * C ⟨0, 0, 1⟩ ⟨1, 0, 0⟩) +
      (C ⟨0, 1, 0⟩ ⟨0, 1, 0⟩ * C ⟨0, 0, 1⟩ ⟨0, 0, 1⟩ - C ⟨0, 1, 0⟩ ⟨0, 0, 1⟩ * C ⟨0, 0, 1⟩ ⟨0, 1, 0⟩) =
      -rdot (cross (cross n L) (cross n' L)) (cross b b') := by
    simp only [hC', rdot, mul_one, mul_zero, add_zero, zero_add, cross_x, cross_y, cross_z]; ring
  rw [xx, xy, xz, yy, yz, zz] at minors
  have a1 : cross (cross n L) (cross n' L) = V3.smul k L := by
    rw [hk]; refine V3.ext' ?_ ?_ ?_ <;> simp [rdot] <;> ring
  have a2 : rdot L (cross b b') = δ ^ 2 * rdot (cross n n') L - δ * rdot (cross w (cross (cross n n') R)) L := by
    rw [hb, hb']; simp [rdot]; ring
  have a3 : rdot L L * rdot (cross w (cross (cross n n') R)) L = k * (rdot L L * rdot w R - rdot R L * rdot w L) := by
    have e1 : rdot L L * rdot (cross w (cross (cross n n') R)) L = rdot (cross w (cross (V3.smul (rdot L L) (cross n n')) R)) L := by
      simp only [rdot, cross_x, cross_y, cross_z, smul_x, smul_y, smul_z]; ring
    rw [e1, N2]
    simp only [rdot, cross_x, cross_y, cross_z, smul_x, smul_y, smul_z]; ring
  have a4 : k * (k * (δ * (rdot L L * δ - (rdot L L * rdot w R - rdot R L * rdot w L)))) = 0 := by
    have : rdot (V3.smul k L) (cross b b') = k * rdot L (cross b b') := by simp [rdot]; ring
    rw [a1, this, a2] at minors
    have m2 : k * (rdot L L * (δ ^ 2 * k) - δ * (rdot L L * rdot (cross w (cross (cross n n') R)) L)) = 0 := by
      rw [← hk] at minors; linear_combination (rdot L L) * minors
    rw [a3] at m2
    linear_combination m2
  have k0 : k = 0 := by
    by_contra hk0
    have h1 := (mul_eq_zero.mp ((mul_eq_zero.mp a4).resolve_left hk0)).resolve_left hk0
    rcases mul_eq_zero.mp h1 with h2 | h2
    · exact hδ.ne h2
    · linarith
  have c0 : cross n n' = V3.zeros := by
    rw [k0] at N2
    have hx := congrArg V3.x N2
    have hy := congrArg V3.y N2
    have hz := congrArg V3.z N2
    simp only [smul_x, smul_y, smul_z, zero_mul, mul_eq_zero, hl.ne', false_or] at hx hy hz
    exact V3.ext' hx hy hz
  have e3 : V3.smul (rdot n n') n = n' := by
    have e : cross n (cross n n') = (V3.smul (rdot n n') n).sub (V3.smul (rdot n n) n') := by
      refine V3.ext' ?_ ?_ ?_ <;> simp [rdot] <;> ring
    rw [c0, u1] at e
    have hx := congrArg V3.x e
    have hy := congrArg V3.y e
    have hz := congrArg V3.z e
    simp only [cross_x, cross_y, cross_z, zeros_x, zeros_y, zeros_z, sub_x, sub_y, sub_z, smul_x, smul_y, smul_z] at hx hy hz
    exact V3.ext' (by simp; linarith) (by simp; linarith) (by simp; linarith)
  have e4 : rdot n n' * rdot n n' = 1 := by
    have : rdot (V3.smul (rdot n n') n) (V3.smul (rdot n n') n) = rdot n n' * rdot n n' * rdot n n := by
      simp only [rdot, smul_x, smul_y, smul_z]; ring
    rw [e3, u1, u2] at this; linarith
  rcases mul_self_eq_one_iff.mp e4 with h1 | h1
  · left; rw [← e3, h1]; refine V3.ext' ?_ ?_ ?_ <;> simp
  · right; rw [← e3, h1]; refine V3.ext' ?_ ?_ ?_ <;> simp

/-- what an edge adds to the slope of a face when its integral is off by `δ` times the edge vector and its gradient by `W` -/
def tubeTerm (f : Face ℝ) (s : V3 ℝ) (e : Edge ℝ) (δ : ℝ) (W a d : V3 ℝ) : ℝ :=
  rdot f.un (f.pa.sub s) * (rdot W d * rdot (cross f.un ((e.fin.sub e.start).sdiv (vlen (e.fin.sub e.start)))) a) -
    rdot f.un d * (δ * rdot (cross f.un (e.fin.sub e.start)) a)

/-- the tensor computed for a face when the values of its edges are off -/
theorem faceValue_wrong {h : Hull ℝ} (hh : h.IsHull) {inHull : V3 ℝ → Bool} {p : Poly ℝ} (hp : mkPoly h inHull = .ok p)
    {k : Nat} {f : Face ℝ} (hf : p.faces[k]? = some f) {s : V3 ℝ} (δ : Nat → ℝ) (W : Nat → V3 ℝ)
    (hreg : (rdot f.un (f.pa.sub s) = 0 ∧ OffTriangle f.pa f.pb f.pc s) ∨ repsilon < |rdot f.un (f.pa.sub s)|)
    (val : ∀ (j : Nat) (e : Edge ℝ), f.edges[j]? = some e → ∃ D, edgeValue p s true k e =
        .ok (V3.smul (lineJ (e.start.sub s) (e.fin.sub e.start) + δ j) (e.fin.sub e.start), D) ∧
      (rdot f.un (f.pa.sub s) ≠ 0 → D = some (gradRows ((edgeGrad (e.start.sub s) (e.fin.sub e.start)).add (W j)) ((e.fin.sub e.start).sdiv (vlen (e.fin.sub e.start))))))
    (ρ Gc : ℝ) {g : V3 ℝ × M3 ℝ} (hg : faceValue p s ρ Gc true k f = .ok g) {e0 e1 e2 : Edge ℝ} (hE : f.edges = [e0, e1, e2]) :
    g.2 = upper (fun a d => 1000000000 * Gc * ρ * (faceSlope f s a d +
      (tubeTerm f s e0 (δ 0) (W 0) a d + tubeTerm f s e1 (δ 1) (W 1) a d + tubeTerm f s e2 (δ 2) (W 2) a d))) := by
  obtain ⟨t, -, hpts, -, hn, -, -⟩ := face_facts hh hp hf
  have hht : f.height s = rdot f.un (f.pa.sub s) := rfl
  obtain ⟨-, -, a, b, c, e0', e1', e2', hE', -, hpts', hh0, hh1, hh2⟩ := edges_of_hull hh hp hf
  rw [hE] at hE'
  simp only [List.cons.injEq, and_true] at hE'
  obtain ⟨rfl, rfl, rfl⟩ := hE'
  have ea : f.pa = h.pt a := by unfold Face.pa; rw [hpts']; rfl
  have eb : f.pb = h.pt b := by unfold Face.pb; rw [hpts']; rfl
  have ec : f.pc = h.pt c := by unfold Face.pc; rw [hpts']; rfl
  rw [← ea, ← eb] at hh0
  rw [← eb, ← ec] at hh1
  rw [← ec, ← ea] at hh2
  obtain ⟨D0, v0, g0⟩ := val 0 e0 (by rw [hE]; rfl)
  obtain ⟨D1, v1, g1⟩ := val 1 e1 (by rw [hE]; rfl)
  obtain ⟨D2, v2, g2⟩ := val 2 e2 (by rw [hE]; rfl)
  unfold faceValue at hg
  rcases hreg with ⟨h0, ho⟩ | h1
  · have e : (eps <. Arith.abs (f.height s)) = false := by
      rw [Bool.eq_false_iff, ne_eq, r_lt, hht, h0]
      have : (0 : ℝ) < repsilon := by unfold repsilon; positivity
      simp only [r_abs, abs_zero, not_lt, r_eps]
      exact this.le
    unfold omegaValue at hg
    rw [e] at hg
    simp only [Bool.false_eq_true, if_false] at hg
    rw [hE] at hg
    simp only [edgesValue, v0, v1, v2, fieldOfEdges, Except.ok.injEq] at hg
    rw [← hg, hht, h0]
    simp only [sumPqr, hh0, hh1, hh2, tubeTerm]
    simp only [faceSlope_plane hn h0 ho, h0, loopJ]
    generalize sumDpqr _ (D0.getD M3.zeros) = D
    generalize lineJ (f.pa.sub s) (f.pb.sub f.pa) = j0
    generalize lineJ (f.pb.sub s) (f.pc.sub f.pb) = j1
    generalize lineJ (f.pc.sub s) (f.pa.sub f.pc) = j2
    unfold faceField upper
    simp only [if_true]
    refine M3.ext' (V3.ext' ?_ ?_ ?_) (V3.ext' ?_ ?_ ?_) (V3.ext' ?_ ?_ ?_) <;> simp [rdot] <;> ring
  · have h0 : rdot f.un (f.pa.sub s) ≠ 0 := by
      have heps : (0 : ℝ) < repsilon := by unfold repsilon; positivity
      exact abs_pos.mp (heps.trans h1)
    rw [omegaValue_solidAngle hpts hn h1] at hg
    simp only [if_true] at hg
    have g0 := g0 h0
    have g1 := g1 h0
    have g2 := g2 h0
    subst g0 g1 g2
    rw [hE] at hg
    simp only [edgesValue, v0, v1, v2, fieldOfEdges, Except.ok.injEq] at hg
    rw [← hg, hht]
    simp only [sumPqr, sumDpqr, hh0, hh1, hh2, Option.getD_some, tubeTerm]
    have hform := faceW_normal_form hn h0
    have hH := faceH_normal_form hn h0
    have hJ : ∀ e d, faceSlope f s e d = rdot f.un (f.pa.sub s) * (npSign (rdot f.un (f.pa.sub s)) * rdot (dOmega (f.pa.sub s) (f.pb.sub s) (f.pc.sub s)) d * rdot f.un e + rdot (cross f.un (loopG f.pa f.pb f.pc s d)) e) -
        rdot f.un d * (solidAngle f.un f.pa f.pb f.pc s * rdot f.un e + rdot (cross f.un (loopJ f.pa f.pb f.pc s)) e) := by
      intro e d
      unfold faceSlope loopJ
      rw [← hform, ← hH]; ring
    simp only [hJ, loopJ]
    generalize solidAngle f.un f.pa f.pb f.pc s = Ω
    generalize npSign (rdot f.un (f.pa.sub s)) = sg
    generalize rdot f.un (f.pa.sub s) = H
    generalize dOmega (f.pa.sub s) (f.pb.sub s) (f.pc.sub s) = dw
    unfold loopG
    generalize edgeGrad (f.pa.sub s) (f.pb.sub f.pa) = g0
    generalize edgeGrad (f.pb.sub s) (f.pc.sub f.pb) = g1
    generalize edgeGrad (f.pc.sub s) (f.pa.sub f.pc) = g2
    generalize (f.pb.sub f.pa).sdiv (vlen (f.pb.sub f.pa)) = u0
    generalize (f.pc.sub f.pb).sdiv (vlen (f.pc.sub f.pb)) = u1
    generalize (f.pa.sub f.pc).sdiv (vlen (f.pa.sub f.pc)) = u2
    generalize lineJ (f.pa.sub s) (f.pb.sub f.pa) = j0
    generalize lineJ (f.pb.sub s) (f.pc.sub f.pb) = j1
    generalize lineJ (f.pc.sub s) (f.pa.sub f.pc) = j2
    generalize (f.pb.sub f.pa) = L0
    generalize (f.pc.sub f.pb) = L1
    generalize (f.pa.sub f.pc) = L2
    unfold faceField upper gradRows
    simp only [if_true]
    refine M3.ext' (V3.ext' ?_ ?_ ?_) (V3.ext' ?_ ?_ ?_) (V3.ext' ?_ ?_ ?_) <;> simp [rdot, M3.add] <;> ring

/-- the tensor of the body from the tensors of its faces -/
theorem facesValue_tensor_at {p : Poly ℝ} {s : V3 ℝ} {ρ Gc : ℝ} {gr : Bool} {φ : M3 ℝ → ℝ} {ψ : Nat → ℝ}
    (hφ : ∀ a b, φ (a.add b) = φ a + φ b) (fs : List (Face ℝ)) :
    ∀ i G T v, (∀ (k : Nat) f g, fs[k]? = some f → faceValue p s ρ Gc gr (i + k) f = .ok g → φ g.2 = ψ (i + k)) →
      facesValue p s ρ Gc gr i fs G T = .ok v → φ v.2 = φ T + ∑ k ∈ Finset.range fs.length, ψ (i + k) := by
  induction fs with
  | nil => intro i G T v _ h; cases h; simp
  | cons f fs ih =>
    intro i G T v h hv
    simp only [facesValue] at hv
    split at hv
    · cases hv
    · next g t hgt =>
      have := ih (i + 1) (G.add g) (T.add t) v (fun k f g hk hg => by
        rw [show i + 1 + k = i + (k + 1) by omega] at hg ⊢
        exact h (k + 1) f g hk hg) hv
      have h0 := h 0 f (g, t) rfl (by rw [Nat.add_zero]; exact hgt)
      rw [this, hφ, h0, List.length_cons, Finset.sum_range_succ']
      have : ∀ k, i + 1 + k = i + (k + 1) := by intro k; omega
      simp only [this]
      ring

end
end Geec
