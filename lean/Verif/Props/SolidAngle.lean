import Verif.Lemmas.Omega
import Verif.Lemmas.Closed
/-
C15: the solid angle of a face.
-/
namespace Geec
open Arith MeasureTheory
noncomputable section

section
variable {n a b c : V3 ℝ}

theorem IsNormal.len (hn : IsNormal n a b c) : rdot n (cross (b.sub a) (c.sub a)) = vlen (cross (b.sub a) (c.sub a)) := by
  have h := congrArg (rdot n) (decomp (b.sub a) (c.sub a) n)
  rw [rdot_add, rdot_add, rdot_smul, rdot_smul, rdot_smul, rdot_smul, hn.ortho1, hn.ortho2, hn.unit] at h
  have h2 := vlen_sq (cross (b.sub a) (c.sub a))
  have h3 := vlen_nonneg (cross (b.sub a) (c.sub a))
  have h4 := hn.pos
  nlinarith

theorem IsNormal.area_pos (hn : IsNormal n a b c) : 0 < vlen (cross (b.sub a) (c.sub a)) := by rw [← hn.len]; exact hn.pos

theorem IsNormal.eq (hn : IsNormal n a b c) : cross (b.sub a) (c.sub a) = V3.smul (vlen (cross (b.sub a) (c.sub a))) n := by
  have h := decomp (b.sub a) (c.sub a) n
  have k1 : rdot (cross n (c.sub a)) (cross (b.sub a) (c.sub a)) = 0 := by rw [lagrange, hn.ortho1, hn.ortho2]; ring
  have k2 : rdot (cross (b.sub a) n) (cross (b.sub a) (c.sub a)) = 0 := by rw [lagrange, hn.ortho1, hn.ortho2]; ring
  rw [k1, k2, hn.len, ← vlen_sq (cross _ _)] at h
  have hp := hn.area_pos.ne'
  set N := cross (b.sub a) (c.sub a)
  have hx := congrArg V3.x h
  have hy := congrArg V3.y h
  have hz := congrArg V3.z h
  simp only [add_x, add_y, add_z, smul_x, smul_y, smul_z] at hx hy hz
  refine V3.ext' ?_ ?_ ?_
  · rw [smul_x]; apply mul_left_cancel₀ hp; linarith
  · rw [smul_y]; apply mul_left_cancel₀ hp; linarith
  · rw [smul_z]; apply mul_left_cancel₀ hp; linarith

theorem det_of_cross (a b c s : V3 ℝ) : det3 (a.sub s) (b.sub s) (c.sub s) = rdot (cross (b.sub a) (c.sub a)) (a.sub s) := by
  simp [det3, rdot]; ring

/-- height and determinant -/
theorem IsNormal.det (hn : IsNormal n a b c) (s : V3 ℝ) :
    det3 (a.sub s) (b.sub s) (c.sub s) = vlen (cross (b.sub a) (c.sub a)) * rdot n (a.sub s) := by
  rw [det_of_cross]
  conv_lhs => rw [hn.eq]
  rw [smul_rdot]

theorem IsNormal.height2 (hn : IsNormal n a b c) (s : V3 ℝ) : rdot n (b.sub s) = rdot n (a.sub s) := by
  have := hn.ortho1; rw [rdot_sub] at *; rw [rdot_sub] at *; linarith

theorem IsNormal.height3 (hn : IsNormal n a b c) (s : V3 ℝ) : rdot n (c.sub s) = rdot n (a.sub s) := by
  have := hn.ortho2; rw [rdot_sub] at *; rw [rdot_sub] at *; linarith

/-- the solid angle in polar form -/
theorem solidAngle_polar (hn : IsNormal n a b c) {s : V3 ℝ} (hh : rdot n (a.sub s) ≠ 0) :
    solidAngle n a b c s = det3 (a.sub s) (b.sub s) (c.sub s) * ∫ t in (0 : ℝ)..1, ∫ v in (0 : ℝ)..1,
      v / vlen (triPt (a.sub s) (b.sub s) (c.sub s) t v) ^ 3 := by
  have hy : ∀ w : ℝ × ℝ, rdot n (((a.add (V3.smul w.1 (b.sub a))).add (V3.smul w.2 (c.sub a))).sub s) = rdot n (a.sub s) := by
    intro w
    have e : ((a.add (V3.smul w.1 (b.sub a))).add (V3.smul w.2 (c.sub a))).sub s =
        ((a.sub s).add (V3.smul w.1 (b.sub a))).add (V3.smul w.2 (c.sub a)) := by
      refine V3.ext' ?_ ?_ ?_ <;> simp <;> ring
    rw [e, rdot_add, rdot_add, rdot_smul, rdot_smul, hn.ortho1, hn.ortho2]; ring
  have hne : ∀ w : ℝ × ℝ, ((a.add (V3.smul w.1 (b.sub a))).add (V3.smul w.2 (c.sub a))).sub s ≠ V3.zeros := by
    intro w h0
    apply hh
    rw [← hy w, h0, rdot_zeros]
  unfold solidAngle surfaceIntegral
  have hcont : Continuous (fun w : ℝ × ℝ => rdot n (((a.add (V3.smul w.1 (b.sub a))).add (V3.smul w.2 (c.sub a))).sub s) /
      vlen (((a.add (V3.smul w.1 (b.sub a))).add (V3.smul w.2 (c.sub a))).sub s) ^ 3) := by
    simp only [hy]
    apply continuous_const.div
    · apply Continuous.pow
      apply continuous_vlen <;> simp only [sub_x, sub_y, sub_z, add_x, add_y, add_z, smul_x, smul_y, smul_z] <;> fun_prop
    · intro w; exact pow_ne_zero 3 (vlen_pos (hne w)).ne'
  rw [integral_triParam hcont, hn.det, mul_assoc]
  congr 1
  rw [← intervalIntegral.integral_const_mul]
  congr 1
  funext t
  rw [← intervalIntegral.integral_const_mul]
  congr 1
  funext v
  rw [hy]
  have e : ((a.add (V3.smul (v * (1 - t)) (b.sub a))).add (V3.smul (v * t) (c.sub a))).sub s = triPt (a.sub s) (b.sub s) (c.sub s) t v := by
    refine V3.ext' ?_ ?_ ?_ <;> simp [triPt] <;> ring
  simp only [e]
  ring

end

theorem npSign_mul (h : ℝ) : npSign h * |h| = h := by
  unfold npSign
  rcases lt_trichotomy h 0 with h1 | h1 | h1
  · have e1 : (h <. (Arith.zero : ℝ)) = true := by rw [r_lt]; exact h1
    have e2 : ((Arith.zero : ℝ) <. h) = false := by rw [Bool.eq_false_iff, ne_eq, r_lt]; exact not_lt.mpr h1.le
    simp only [e1, e2]; simp [abs_of_neg h1]
  · subst h1; simp
  · have e2 : ((Arith.zero : ℝ) <. h) = true := by rw [r_lt]; exact h1
    have e1 : (h <. (Arith.zero : ℝ)) = false := by rw [Bool.eq_false_iff, ne_eq, r_lt]; exact not_lt.mpr h1.le
    simp only [e1, e2]; simp [abs_of_pos h1]

/-- gradient of the solid angle as computed -/
def dOmega (p1 p2 p3 : V3 ℝ) : V3 ℝ := ((dAngle p1 p2 p3).add (dAngle p2 p3 p1)).add (dAngle p3 p1 p2)

theorem omegaKernel_solidAngle {n a b c : V3 ℝ} (hn : IsNormal n a b c) {s : V3 ℝ} (hh : rdot n (a.sub s) ≠ 0) (gr : Bool) :
    omegaKernel [a, b, c] n s (npSign (rdot n (a.sub s))) gr = .ok (-solidAngle n a b c s,
      V3.smul (-npSign (rdot n (a.sub s))) (if gr then dOmega (a.sub s) (b.sub s) (c.sub s) else V3.zeros)) := by
  have hA := hn.area_pos
  have hD := hn.det s
  have hpos : 0 < rdot n (a.sub s) * det3 (a.sub s) (b.sub s) (c.sub s) := by
    rw [hD]
    have : 0 < rdot n (a.sub s) * rdot n (a.sub s) := mul_self_pos.mpr hh
    nlinarith
  rw [omegaKernel_triangle _ gr rfl (hn.height2 s) (hn.height3 s) hpos]
  have hD0 : det3 (a.sub s) (b.sub s) (c.sub s) ≠ 0 := by intro h; rw [h] at hpos; simp at hpos
  rw [girard hD0, solidAngle_polar hn hh]
  congr 2
  have e : npSign (rdot n (a.sub s)) * |det3 (a.sub s) (b.sub s) (c.sub s)| = det3 (a.sub s) (b.sub s) (c.sub s) := by
    rw [hD, abs_mul, abs_of_pos hA]
    have := npSign_mul (rdot n (a.sub s))
    calc _ = vlen (cross (b.sub a) (c.sub a)) * (npSign (rdot n (a.sub s)) * |rdot n (a.sub s)|) := by ring
      _ = _ := by rw [this]
  rw [neg_mul, ← mul_assoc, e]
  rfl

theorem omegaValue_solidAngle {f : Face ℝ} {a b c : V3 ℝ} (hf : f.points = [a, b, c]) (hn : IsNormal f.un a b c) {s : V3 ℝ}
    (hh : repsilon < |rdot f.un (a.sub s)|) (gr : Bool) :
    omegaValue f s gr = .ok (-solidAngle f.un a b c s,
      V3.smul (-npSign (rdot f.un (a.sub s))) (if gr then dOmega (a.sub s) (b.sub s) (c.sub s) else V3.zeros)) := by
  have h0 : (0 : ℝ) < repsilon := by unfold repsilon; positivity
  have hht : f.height s = rdot f.un (a.sub s) := by unfold Face.height; rw [hf]; rfl
  unfold omegaValue
  have e : ((Arith.eps : ℝ) <. Arith.abs (f.height s)) = true := by rw [r_lt, hht]; exact hh
  rw [e, hht, hf]
  exact omegaKernel_solidAngle hn (by intro h; rw [h] at hh; simp at hh; linarith) gr

/-- **C15.** After `_get_dot_point1`, `_get_sign` and `_get_omega` the attribute `_omega` of a triangular face is minus
the signed solid angle under which the face is seen from the station, i.e. minus the integral of `n·r / r³` over the
face. -/
theorem C15_solid_angle {f : Face ℝ} {a b c : V3 ℝ} (hf : f.points = [a, b, c]) (hn : IsNormal f.un a b c) {s : V3 ℝ}
    (hs : repsilon < |rdot f.un (a.sub s)|) (gr : Bool) (i : Nat) (m : Mem ℝ) :
    let r := (do getDotPoint1 i f s; getSign i; getOmega i f s gr : Act ℝ Unit) m
    r.1 = .ok () ∧ (r.2.face i).omega = some (-solidAngle f.un a b c s) := by
  intro r
  have h0 : (0 : ℝ) < repsilon := by unfold repsilon; positivity
  have hk := omegaKernel_solidAngle hn (s := s) (by intro h; rw [h] at hs; simp at hs; linarith) gr
  have hd : (dot f.un ((at3 f.points 0).sub s) : ℝ) = rdot f.un (a.sub s) := by rw [hf]; rfl
  have hr : r = (do getSign i; getOmega i f s gr : Act ℝ Unit) (m.setFace i { (m.face i) with dp1 := some (dot f.un ((at3 f.points 0).sub s)) }) := rfl
  rw [hd] at hr
  have hr2 : r = getOmega i f s gr ((m.setFace i { (m.face i) with dp1 := some (rdot f.un (a.sub s)) }).setFace i
      { ((m.setFace i { (m.face i) with dp1 := some (rdot f.un (a.sub s)) }).face i) with sign := some (npSign (rdot f.un (a.sub s))) }) := by
    rw [hr]
    show Act.bind (getSign i) _ _ = _
    unfold Act.bind getSign
    have e : ((m.setFace i { (m.face i) with dp1 := some (rdot f.un (a.sub s)) }).face i).dp1 = some (rdot f.un (a.sub s)) := by
      simp [Mem.setFace]
    rw [e]
  rw [hr2]
  unfold getOmega
  have e : ((Arith.eps : ℝ) <. Arith.abs (rdot f.un (a.sub s))) = true := by rw [r_lt]; exact hs
  simp only [Mem.setFace, if_true, e, hf, hk]
  exact ⟨trivial, trivial⟩

/-- a face and a station meeting the hypotheses of `C15_solid_angle` -/
example : ∃ (f : Face ℝ) (a b c s : V3 ℝ), f.points = [a, b, c] ∧ IsNormal f.un a b c ∧ repsilon < |rdot f.un (a.sub s)| := by
  refine ⟨⟨[⟨1, 0, 0⟩, ⟨0, 2, 0⟩, ⟨0, 0, 0⟩], [], ⟨0, 0, 1⟩, [], []⟩, _, _, _, ⟨5, 6, -7⟩, rfl, ⟨?_, ?_, ?_, ?_⟩, ?_⟩
  · simp [rdot]
  · simp [rdot]
  · simp [rdot]
  · simp [rdot]
  · simp [rdot]; unfold repsilon; norm_num

end
end Geec
