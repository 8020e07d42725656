import Verif.Lemmas.FaceInt
/-
The solid angle computed for a triangular face, and its computed gradient.
-/
namespace Geec
open Arith
noncomputable section

/-- gradient, with respect to the station, of the angle at `pj`, as `Face._get_dangle` computes it -/
def dAngle (pi pj pk : V3 ℝ) : V3 ℝ :=
  let V1 := (cross pi pj).neg
  let V2 := cross pj pk
  let dV1 := (crossDp pi).neg.add (crossDp pj)
  let dV2 := (crossDp pk).neg.add (crossDp pj)
  let A1 := V1.sdiv (vlen V1)
  let A2 := V2.sdiv (vlen V2)
  let DA1 := dUnit dV1 (vlen V1) V1 (matVec dV1 A1)
  let DA2 := dUnit dV2 (vlen V2) V2 (matVec dV2 A2)
  let DB := (matVec DA1 A2).add (matVec DA2 A1)
  let den := Real.sqrt (1 - cosAngle pi pj pk * cosAngle pi pj pk)
  if den = 0 then V3.zeros else DB.neg.sdiv den

theorem sdiv_neg (a : V3 ℝ) (k : ℝ) : a.neg.sdiv k = (a.sdiv k).neg := by
  refine V3.ext' ?_ ?_ ?_ <;> simp only [neg_x, neg_y, neg_z, sdiv_x, sdiv_y, sdiv_z, neg_div]

theorem v3_add_comm (a b : V3 ℝ) : a.add b = b.add a := by refine V3.ext' ?_ ?_ ?_ <;> simp <;> ring

section
variable {h : ℝ} {pi pj pk : V3 ℝ}

theorem cosAngle_units (pi pj pk : V3 ℝ) :
    rdot ((cross pi pj).sdiv (vlen (cross pi pj))).neg ((cross pj pk).sdiv (vlen (cross pj pk))) = cosAngle pi pj pk := by
  unfold cosAngle
  rw [neg_rdot, sdiv_rdot, rdot_sdiv, neg_div]
  congr 1
  rw [div_div, mul_comm]

theorem abs_cosAngle_le (pi pj pk : V3 ℝ) : |cosAngle pi pj pk| ≤ 1 := by
  rw [← cosAngle_units]
  exact abs_dot_le (unitOrZero_normalised _).neg (unitOrZero_normalised _)

theorem getAngle_pos {inout b perp : ℝ} (h : inout ≠ 0) (hb : |b| ≤ 1) (hp : 0 ≤ perp) : getAngle inout b perp = .ok (Real.arccos b) := by
  unfold getAngle
  rw [pyAcos_real hb]
  have e1 : (inout ==. (Arith.zero : ℝ)) = false := by rw [Bool.eq_false_iff, ne_eq, r_eq]; exact h
  have e2 : (perp <. (Arith.zero : ℝ)) = false := by rw [Bool.eq_false_iff, ne_eq, r_lt]; exact not_lt.mpr hp
  rw [e1, e2]
  rfl

/-- one iteration of the loop of `_get_omega`, for the three positions in a triangle -/
theorem omega_step (hs : 0 < h * det3 pi pj pk) {i : Nat} {points unitv cr : List (V3 ℝ)} 
    (h1 : at3 points i = pi) (h2 : at3 points ((i + 1) % 3) = pj) (h3 : at3 points ((i + 2) % 3) = pk)
    (c1 : at3 cr i = cross pi pj) (c2 : at3 cr ((i + 1) % 3) = cross pj pk)
    (u1 : at3 unitv i = (cross pi pj).sdiv (vlen (cross pi pj)))
    (u2 : at3 unitv ((i + 1) % 3) = (cross pj pk).sdiv (vlen (cross pj pk))) :
    getAngle h (dot (getA1A2 i h 3 unitv).1 (getA1A2 i h 3 unitv).2) (getPerp i h 3 points (getA1A2 i h 3 unitv).1) = .ok (sphAngle pi pj pk) ∧
    getDangle i h (dot (getA1A2 i h 3 unitv).1 (getA1A2 i h 3 unitv).2) (getPerp i h 3 points (getA1A2 i h 3 unitv).1)
      (getA1A2 i h 3 unitv).1 (getA1A2 i h 3 unitv).2 3 (fun k => crossDp (at3 points k)) cr (fun i => mnorm (at3 cr i)) unitv =
      .ok (dAngle pi pj pk) := by
  have hh : h ≠ 0 := by rintro rfl; simp at hs
  have hb := abs_cosAngle_le pi pj pk
  have hcp1 : 0 < vlen (cross pi pj) := by
    apply vlen_pos; intro h; rw [det3_eq, h] at hs; simp [rdot] at hs
  have hcp2 : 0 < vlen (cross pj pk) := by
    apply vlen_pos; intro h; unfold det3 at hs; rw [h] at hs; simp [rdot] at hs
  have hnn : (0 : ℝ) ≤ one -. cosAngle pi pj pk *. cosAngle pi pj pk := by
    simp only [r_one, r_sub, r_mul]
    have := abs_le.mp hb
    nlinarith
  rcases lt_or_gt_of_ne hh with hneg | hpos
  · have e1 : ((Arith.zero : ℝ) <. h) = false := by rw [Bool.eq_false_iff, ne_eq, r_lt]; exact not_lt.mpr hneg.le
    have e2 : (h ==. (Arith.zero : ℝ)) = false := by rw [Bool.eq_false_iff, ne_eq, r_eq]; exact hh
    have hA : getA1A2 i h 3 unitv = (((cross pi pj).sdiv (vlen (cross pi pj))).neg, (cross pj pk).sdiv (vlen (cross pj pk))) := by
      unfold getA1A2; rw [u1, u2, e1]; rfl
    rw [hA]
    have hB : (dot ((cross pi pj).sdiv (vlen (cross pi pj))).neg ((cross pj pk).sdiv (vlen (cross pj pk))) : ℝ) = cosAngle pi pj pk :=
      cosAngle_units pi pj pk
    rw [hB]
    have hP : getPerp i h 3 points ((cross pi pj).sdiv (vlen (cross pi pj))).neg = -(det3 pi pj pk / vlen (cross pi pj)) := by
      unfold getPerp
      rw [e1, e2, h3]
      show rdot _ _ = _
      rw [rdot_neg, rdot_sdiv, det3_eq, rdot_comm]
      rfl
    have hperp : 0 < -(det3 pi pj pk / vlen (cross pi pj)) := by
      have : det3 pi pj pk < 0 := by nlinarith
      rw [neg_pos]
      exact div_neg_of_neg_of_pos this hcp1
    rw [hP]
    refine ⟨getAngle_pos hh hb hperp.le, ?_⟩
    unfold getDangle
    have e3 : (-(det3 pi pj pk / vlen (cross pi pj)) <. (Arith.zero : ℝ)) = false := by
      rw [Bool.eq_false_iff, ne_eq, r_lt]; exact not_lt.mpr hperp.le
    rw [e1, e3, pySqrt_real hnn]
    simp only [bind, Except.bind, pure, Except.pure, Bool.false_eq_true, if_false, h1, h2, h3, c1, c2, u1, u2]
    unfold dAngle
    simp only [vlen_neg, r_eq, r_one, r_sub, r_mul, r_zero, r_mnorm]
    have hn : (cross pi pj).neg.sdiv (vlen (cross pi pj)) = ((cross pi pj).sdiv (vlen (cross pi pj))).neg := by
      exact sdiv_neg _ _
    rw [hn]
    split <;> rfl
  · have e1 : ((Arith.zero : ℝ) <. h) = true := by rw [r_lt]; exact hpos
    have e2 : (h ==. (Arith.zero : ℝ)) = false := by rw [Bool.eq_false_iff, ne_eq, r_eq]; exact hh
    have hA : getA1A2 i h 3 unitv = ((cross pj pk).sdiv (vlen (cross pj pk)), ((cross pi pj).sdiv (vlen (cross pi pj))).neg) := by
      unfold getA1A2; rw [u1, u2, e1]; rfl
    rw [hA]
    have hB : (dot ((cross pj pk).sdiv (vlen (cross pj pk))) ((cross pi pj).sdiv (vlen (cross pi pj))).neg : ℝ) = cosAngle pi pj pk :=
      (rdot_comm _ _).trans (cosAngle_units pi pj pk)
    rw [hB]
    have hP : getPerp i h 3 points ((cross pj pk).sdiv (vlen (cross pj pk))) = det3 pi pj pk / vlen (cross pj pk) := by
      unfold getPerp
      rw [e1, e2, h1]
      show rdot _ _ = _
      rw [rdot_sdiv]
      rfl
    have hperp : 0 < det3 pi pj pk / vlen (cross pj pk) := by
      have : 0 < det3 pi pj pk := by nlinarith
      exact div_pos this hcp2
    rw [hP]
    refine ⟨getAngle_pos hh hb hperp.le, ?_⟩
    unfold getDangle
    have e3 : (det3 pi pj pk / vlen (cross pj pk) <. (Arith.zero : ℝ)) = false := by
      rw [Bool.eq_false_iff, ne_eq, r_lt]; exact not_lt.mpr hperp.le
    rw [e1, e3, pySqrt_real hnn]
    simp only [bind, Except.bind, pure, Except.pure, Bool.false_eq_true, if_false, if_true, h1, h2, h3, c1, c2, u1, u2]
    unfold dAngle
    simp only [vlen_neg, r_eq, r_one, r_sub, r_mul, r_zero, r_mnorm]
    have hn : (cross pi pj).neg.sdiv (vlen (cross pi pj)) = ((cross pi pj).sdiv (vlen (cross pi pj))).neg := by
      exact sdiv_neg _ _
    rw [hn, v3_add_comm (matVec (dUnit _ _ (cross pi pj).neg _) _)]
    split <;> rfl

/-- the solid angle of a triangle, as computed -/
theorem omegaKernel_triangle {a b c un obs : V3 ℝ} (sg : ℝ) (gr : Bool) {h : ℝ}
    (ha : rdot un (a.sub obs) = h) (hb : rdot un (b.sub obs) = h) (hc : rdot un (c.sub obs) = h)
    (hs : 0 < h * det3 (a.sub obs) (b.sub obs) (c.sub obs)) :
    omegaKernel [a, b, c] un obs sg gr = .ok
      (-sg * (sphAngle (a.sub obs) (b.sub obs) (c.sub obs) + sphAngle (b.sub obs) (c.sub obs) (a.sub obs) +
        sphAngle (c.sub obs) (a.sub obs) (b.sub obs) - Real.pi),
       V3.smul (-sg) (if gr then ((dAngle (a.sub obs) (b.sub obs) (c.sub obs)).add (dAngle (b.sub obs) (c.sub obs) (a.sub obs))).add
         (dAngle (c.sub obs) (a.sub obs) (b.sub obs)) else V3.zeros)) := by
  unfold omegaKernel
  set p1 := a.sub obs
  set p2 := b.sub obs
  set p3 := c.sub obs
  have hl : [a, b, c].length = 3 := rfl
  have hpts : [a, b, c].map (fun p => p.sub obs) = [p1, p2, p3] := rfl
  have hr : List.range 3 = [0, 1, 2] := rfl
  rw [hl, hpts]
  simp only [hr]
  have hcr : [0, 1, 2].map (fun i => cross (at3 [p1, p2, p3] i) (at3 [p1, p2, p3] ((i + 1) % 3))) = [cross p1 p2, cross p2 p3, cross p3 p1] := rfl
  simp only [hcr]
  have hun : [0, 1, 2].map (fun i => (at3 [cross p1 p2, cross p2 p3, cross p3 p1] i).sdiv (mnorm (at3 [cross p1 p2, cross p2 p3, cross p3 p1] i))) =
    [(cross p1 p2).sdiv (vlen (cross p1 p2)), (cross p2 p3).sdiv (vlen (cross p2 p3)), (cross p3 p1).sdiv (vlen (cross p3 p1))] := rfl
  simp only [hun]
  have hs2 : 0 < h * det3 p2 p3 p1 := by rw [← det3_cyc]; exact hs
  have hs3 : 0 < h * det3 p3 p1 p2 := by rw [← det3_cyc]; exact hs2
  obtain ⟨a0, d0⟩ := omega_step hs (i := 0) (points := [p1, p2, p3]) (cr := [cross p1 p2, cross p2 p3, cross p3 p1])
    (unitv := [(cross p1 p2).sdiv (vlen (cross p1 p2)), (cross p2 p3).sdiv (vlen (cross p2 p3)), (cross p3 p1).sdiv (vlen (cross p3 p1))])
    rfl rfl rfl rfl rfl rfl rfl
  obtain ⟨a1, d1⟩ := omega_step hs2 (i := 1) (points := [p1, p2, p3]) (cr := [cross p1 p2, cross p2 p3, cross p3 p1])
    (unitv := [(cross p1 p2).sdiv (vlen (cross p1 p2)), (cross p2 p3).sdiv (vlen (cross p2 p3)), (cross p3 p1).sdiv (vlen (cross p3 p1))])
    rfl rfl rfl rfl rfl rfl rfl
  obtain ⟨a2, d2⟩ := omega_step hs3 (i := 2) (points := [p1, p2, p3]) (cr := [cross p1 p2, cross p2 p3, cross p3 p1])
    (unitv := [(cross p1 p2).sdiv (vlen (cross p1 p2)), (cross p2 p3).sdiv (vlen (cross p2 p3)), (cross p3 p1).sdiv (vlen (cross p3 p1))])
    rfl rfl rfl rfl rfl rfl rfl
  have m0 : (mdot un (at3 [p1, p2, p3] 0) : ℝ) = h := ha
  have m1 : (mdot un (at3 [p1, p2, p3] 1) : ℝ) = h := hb
  have m2 : (mdot un (at3 [p1, p2, p3] 2) : ℝ) = h := hc
  simp only [List.foldlM_cons, List.foldlM_nil, bind, Except.bind, pure, Except.pure, m0, m1, m2, a0, a1, a2, d0, d1, d2]
  cases gr
  · simp only [Bool.false_eq_true, if_false]
    congr 2
    simp
  · simp only [if_true]
    congr 2
    · simp
    · congr 1
      refine V3.ext' ?_ ?_ ?_ <;> simp

end
end
end Geec
