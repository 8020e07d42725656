import Verif.Lemmas.Closed
import Verif.Lemmas.RealV3
/-
Exceptions of the numeric kernels in exact arithmetic.
-/
namespace Geec
open Arith
noncomputable section

theorem numbaDiv_real (a b : ℝ) : numbaDiv a b = if b = 0 then .error .zeroDivisionError else .ok (a / b) := by
  unfold numbaDiv
  by_cases h : b = 0
  · have e : (b ==. (Arith.zero : ℝ)) = true := by rw [r_eq]; exact h
    rw [e, if_pos h]; rfl
  · have e : (b ==. (Arith.zero : ℝ)) = false := by rw [Bool.eq_false_iff, ne_eq, r_eq]; exact h
    rw [e, if_neg h]; rfl

theorem pyAcos_real {b : ℝ} (h : |b| ≤ 1) : pyAcos b = .ok (Real.arccos b) := by
  obtain ⟨h1, h2⟩ := abs_le.mp h
  unfold pyAcos
  have e1 : ((Arith.one : ℝ) <. b) = false := by rw [Bool.eq_false_iff, ne_eq, r_lt]; exact not_lt.mpr h2
  have e2 : (b <. (Arith.negOne : ℝ)) = false := by rw [Bool.eq_false_iff, ne_eq, r_lt]; exact not_lt.mpr h1
  rw [e1, e2]; rfl

theorem pySqrt_real {b : ℝ} (h : 0 ≤ b) : pySqrt b = .ok (Real.sqrt b) := by
  unfold pySqrt
  have e1 : (b <. (Arith.zero : ℝ)) = false := by rw [Bool.eq_false_iff, ne_eq, r_lt]; exact not_lt.mpr h
  rw [e1]; rfl

/-- Cauchy-Schwarz -/
theorem rdot_sq_le (a b : V3 ℝ) : rdot a b * rdot a b ≤ rdot a a * rdot b b := by
  have := rdot_self_nonneg (cross a b)
  rw [lagrange] at this
  rw [rdot_comm b a] at this
  linarith

/-- vectors of length one, or zero -/
def UnitOrZero (a : V3 ℝ) : Prop := rdot a a ≤ 1

theorem unitOrZero_normalised (a : V3 ℝ) : UnitOrZero (a.sdiv (Real.sqrt (rdot a a))) := by
  by_cases h : a = V3.zeros
  · subst h
    simp [UnitOrZero, rdot]
  · exact (unit_of_ne h).le

theorem UnitOrZero.neg {a : V3 ℝ} (h : UnitOrZero a) : UnitOrZero a.neg := by
  unfold UnitOrZero at *; rw [neg_rdot, rdot_neg, neg_neg]; exact h

theorem abs_dot_le {a b : V3 ℝ} (ha : UnitOrZero a) (hb : UnitOrZero b) : |rdot a b| ≤ 1 := by
  have h := rdot_sq_le a b
  have h1 : rdot a a * rdot b b ≤ 1 := mul_le_one₀ ha (rdot_self_nonneg b) hb
  rw [abs_le]
  constructor <;> nlinarith

theorem at3_mem_or {l : List (V3 ℝ)} (P : V3 ℝ → Prop) (h0 : P V3.zeros) (h : ∀ a ∈ l, P a) (i : Nat) : P (at3 l i) := by
  unfold at3
  rw [List.getD_eq_getElem?_getD]
  rcases hi : l[i]? with _ | a
  · exact h0
  · exact h a (List.mem_of_getElem? hi)

theorem foldlM_error {α β : Type} {f : β → α → Except PyErr β} {e : PyErr} :
    ∀ (l : List α) (b : β), l.foldlM f b = .error e → ∃ b a, f b a = .error e := by
  intro l
  induction l with
  | nil => intro b h; cases h
  | cons a l ih =>
    intro b h
    rw [List.foldlM_cons] at h
    simp only [bind, Except.bind] at h
    split at h
    · next h' => cases h; exact ⟨_, _, h'⟩
    · exact ih _ h

/-- the solid angle of a face never raises -/
theorem omegaKernel_ok (pts : List (V3 ℝ)) (un obs : V3 ℝ) (sign : ℝ) (gr : Bool) : ∃ w, omegaKernel pts un obs sign gr = .ok w := by
  unfold omegaKernel
  simp only [bind, Except.bind, pure, Except.pure]
  set points := pts.map (fun p => p.sub obs)
  set cr := (List.range pts.length).map (fun i => cross (at3 points i) (at3 points ((i + 1) % pts.length)))
  set unitv := (List.range pts.length).map (fun i => (at3 cr i).sdiv (mnorm (at3 cr i)))
  have hu : ∀ i, UnitOrZero (at3 unitv i) := by
    apply at3_mem_or
    · simp [UnitOrZero, rdot]
    · intro a ha
      obtain ⟨i, -, rfl⟩ := List.mem_map.mp ha
      rw [r_mnorm]
      exact unitOrZero_normalised _
  have hA : ∀ i (inout : ℝ), UnitOrZero (getA1A2 i inout pts.length unitv).1 ∧ UnitOrZero (getA1A2 i inout pts.length unitv).2 := by
    intro i inout
    unfold getA1A2
    simp only
    split
    · exact ⟨hu _, (hu _).neg⟩
    · exact ⟨(hu _).neg, hu _⟩
  have hang : ∀ (inout b perp : ℝ), |b| ≤ 1 → ∃ a, getAngle inout b perp = .ok a := by
    intro inout b perp hb
    unfold getAngle
    rw [pyAcos_real hb]
    simp only [bind, Except.bind, pure, Except.pure]
    split
    · exact ⟨_, rfl⟩
    · split <;> exact ⟨_, rfl⟩
  have hd : ∀ i (inout b perp : ℝ) A1 A2, |b| ≤ 1 → ∃ a, getDangle i inout b perp A1 A2 pts.length (fun k => crossDp (at3 points k)) cr
      (fun i => mnorm (at3 cr i)) unitv = .ok a := by
    intro i inout b perp A1 A2 hb
    unfold getDangle
    have : (0 : ℝ) ≤ one -. b *. b := by
      simp only [r_one, r_sub, r_mul]
      have := abs_le.mp hb
      nlinarith
    rw [pySqrt_real this]
    simp only [bind, Except.bind, pure, Except.pure]
    split
    · exact ⟨_, rfl⟩
    · split <;> exact ⟨_, rfl⟩
  split
  · next e h =>
    exfalso
    obtain ⟨b, i, h⟩ := foldlM_error _ _ h
    obtain ⟨h1, h2⟩ := hA i (mdot un (at3 points i))
    have hb := abs_dot_le h1 h2
    split at h
    · next h3 =>
      obtain ⟨a, ha⟩ := hang (mdot un (at3 points i)) _ (getPerp i (mdot un (at3 points i)) pts.length points
        (getA1A2 i (mdot un (at3 points i)) pts.length unitv).1) hb
      exact absurd (ha.symm.trans h3) (by simp)
    · split at h
      · split at h
        · next h3 =>
          obtain ⟨d, hd⟩ := hd i (mdot un (at3 points i)) _ (getPerp i (mdot un (at3 points i)) pts.length points
            (getA1A2 i (mdot un (at3 points i)) pts.length unitv).1) (getA1A2 i (mdot un (at3 points i)) pts.length unitv).1
            (getA1A2 i (mdot un (at3 points i)) pts.length unitv).2 hb
          exact absurd (hd.symm.trans h3) (by simp)
        · cases h
      · cases h
  · exact ⟨_, rfl⟩

theorem omegaValue_ok (f : Face ℝ) (obs : V3 ℝ) (gr : Bool) : ∃ w, omegaValue f obs gr = .ok w := by
  unfold omegaValue
  split
  · exact omegaKernel_ok _ _ _ _ _
  · exact ⟨_, rfl⟩

/-- the only exception of an edge integral is `ZeroDivisionError` -/
theorem edgeIntegral_error {e : Edge ℝ} {obs : V3 ℝ} {gr : Bool} {x : PyErr} (h : edgeIntegral e obs gr = .error x) :
    x = .zeroDivisionError := by
  have hn : ∀ {a b : ℝ} {x : PyErr}, numbaDiv a b = .error x → x = .zeroDivisionError := by
    intro a b x h; rw [numbaDiv_real] at h; split at h <;> cases h; rfl
  have hl : ∀ {cj : ℝ} {Lj : V3 ℝ} {lj : ℝ} {Rj : V3 ℝ} {rj b2 bj : ℝ} {x}, lineIntegralAlongEdge cj Lj lj Rj rj b2 bj gr = .error x → x = .zeroDivisionError := by
    intro cj Lj lj Rj rj b2 bj x h
    unfold lineIntegralAlongEdge at h
    simp only [bind, Except.bind, pure, Except.pure] at h
    split at h
    · split at h
      · next h' => cases h; exact hn h'
      · split at h <;> cases h
    · split at h
      · next h' => cases h; exact hn h'
      · split at h
        · split at h
          · next h' => cases h; exact hn h'
          · cases h
        · cases h
  unfold edgeIntegral at h
  simp only [bind, Except.bind, pure, Except.pure] at h
  split at h
  · next h' => cases h; exact hl h'
  · cases h

theorem lineIntegral_ok {cj : ℝ} {Lj : V3 ℝ} {lj : ℝ} {Rj : V3 ℝ} {rj b2 bj : ℝ} (hr : rj ≠ 0) :
    ∃ v, lineIntegralAlongEdge cj Lj lj Rj rj b2 bj false = .ok v := by
  unfold lineIntegralAlongEdge
  simp only [bind, Except.bind, pure, Except.pure, Bool.false_eq_true, if_false]
  split
  · next hc =>
    rw [numbaDiv_real, if_neg]
    · exact ⟨_, rfl⟩
    · intro h0
      rw [r_lt, h0] at hc
      simp only [r_eps, r_abs, abs_zero] at hc
      exact absurd hc (not_lt.mpr (by unfold repsilon; positivity))
  · rw [numbaDiv_real, if_neg hr]
    exact ⟨_, rfl⟩

/-- without gradient an edge integral raises only at the start of the edge -/
theorem edgeIntegral_ok {e : Edge ℝ} {obs : V3 ℝ} (hs : e.start ≠ obs) : ∃ v, edgeIntegral e obs false = .ok v := by
  have hR1 : e.start.sub obs ≠ V3.zeros := by
    intro h
    apply hs
    have hx := congrArg V3.x h
    have hy := congrArg V3.y h
    have hz := congrArg V3.z h
    simp only [sub_x, sub_y, sub_z, zeros_x, zeros_y, zeros_z] at hx hy hz
    exact V3.ext' (by linarith) (by linarith) (by linarith)
  have hr1 := norm_pos hR1
  unfold edgeIntegral
  simp only [bind, Except.bind, pure, Except.pure]
  set swap := (norm (e.fin.sub obs) <. norm (e.start.sub obs)) && ((dot (e.start.sub obs) (e.fin.sub obs) /. (norm (e.start.sub obs) *. norm (e.fin.sub obs))) ==. one) with hswap
  have hr : (if swap = true then norm (e.fin.sub obs) else norm (e.start.sub obs)) ≠ (0 : ℝ) := by
    split
    · next h =>
      rw [hswap, Bool.and_eq_true] at h
      have h2 := h.2
      rw [r_eq] at h2
      intro h0
      simp only [r_norm, r_dot, r_div, r_mul, r_one] at h0 h2
      rw [h0] at h2
      simp at h2
    · rw [r_norm]; exact hr1.ne'
  split
  · next h =>
    obtain ⟨v, hv⟩ := lineIntegral_ok (cj := _) (Lj := _) (lj := _) (Rj := _) (b2 := _) (bj := _) hr
    exact absurd (hv.symm.trans h) (by simp)
  · exact ⟨_, rfl⟩

/-- at the start of the edge it raises -/
theorem edgeIntegral_at_start {e : Edge ℝ} {obs : V3 ℝ} (hs : e.start = obs) (gr : Bool) :
    edgeIntegral e obs gr = .error .zeroDivisionError := by
  have hR1 : e.start.sub obs = V3.zeros := by rw [hs]; refine V3.ext' ?_ ?_ ?_ <;> simp
  have hr1 : (norm (V3.zeros : V3 ℝ) : ℝ) = 0 := by simp [rdot]
  have hd : ∀ v, (dot (V3.zeros : V3 ℝ) v : ℝ) = 0 := by intro v; simp [rdot]
  unfold edgeIntegral
  have hswap : (norm (e.fin.sub obs) <. (0 : ℝ)) = false := by
    rw [Bool.eq_false_iff, ne_eq, r_lt]; exact not_lt.mpr (Real.sqrt_nonneg _)
  simp only [hR1, hr1, hd, hswap, Bool.false_and, Bool.false_eq_true, if_false]
  have hflip : (Arith.abs ((0 : ℝ) +. (two *. (0 : ℝ)) /. e.length /. two) <. (eps : ℝ)) = true := by
    rw [r_lt]; simp [repsilon]
  simp only [hflip, if_true]
  unfold lineIntegralAlongEdge
  have hc : ((eps : ℝ) <. Arith.abs ((0 : ℝ) +. Arith.neg (two *. (0 : ℝ)) /. e.length /. two)) = false := by
    rw [Bool.eq_false_iff, ne_eq, r_lt]; simp [repsilon]
  simp only [hc, Bool.false_eq_true, if_false, numbaDiv_real, bind, Except.bind]
  rfl

end
end Geec
