import Verif.Lemmas.Precision
import Verif.Lemmas.LineInt
/-
The integral along an edge in the limit of increasing precision.
-/
namespace Geec
open Filter Topology
noncomputable section

/-- value of an edge: a convergent vector and, with gradient, a convergent tensor -/
def ContP (gr : Bool) (out : Setting → V3 ℝ × Option (M3 ℝ)) : Prop :=
  ContV (fun A => (out A).1) ∧ ∃ m : Setting → M3 ℝ, ContM m ∧ ∀ A, (out A).2 = if gr then some (m A) else none

theorem contE_pair {gr : Bool} {p : Setting → V3 ℝ} {m : Setting → M3 ℝ} {X : Setting → Except PyErr (V3 ℝ × Option (M3 ℝ))} (hp : ContV p) (hm : ContM m)
    (h : ∀ᶠ A in precise, X A = .ok (p A, if gr then some (m A) else none)) : ContE (ContP gr) X :=
  ⟨fun A => (p A, if gr then some (m A) else none), h, hp, m, hm, fun _ => rfl⟩

theorem lineIntegral_cont {c l r b2 b : Setting → ℝ} {L R : Setting → V3 ℝ} (hc : Cont c) (hl : Cont l) (hr : Cont r) (hb2 : Cont b2)
    (hb : Cont b) (hL : ContV L) (hR : ContV R) (c0 : repsilon < |c ideal|) (l0 : l ideal ≠ 0) (r0 : r ideal ≠ 0)
    (s0 : 0 < l ideal * l ideal + b ideal + r ideal * r ideal)
    (t0 : 0 < (Real.sqrt (l ideal * l ideal + b ideal + r ideal * r ideal) + l ideal + b2 ideal) / c ideal)
    (gr : Bool) : ContE (ContP gr) (fun A => @lineIntegralAlongEdge ℝ A (c A) (L A) (l A) (R A) (r A) (b2 A) (b A) gr) := by
  have e0 : (0 : ℝ) < repsilon := by unfold repsilon; positivity
  have cne : c ideal ≠ 0 := abs_pos.mp (e0.trans c0)
  have h1 := lt_true cont_eps (cont_abs hc) c0
  have h2 := eq_false hc cont_zero cne
  have hs : Cont (fun A => A.add (A.add (A.mul (l A) (l A)) (b A)) (A.mul (r A) (r A))) := cont_add (cont_add (cont_mul hl hl) hb) (cont_mul hr hr)
  have hsq := cont_sqrt hs s0
  have sq0 : Real.sqrt (l ideal * l ideal + b ideal + r ideal * r ideal) ≠ 0 := (Real.sqrt_pos.mpr s0).ne'
  have ht := cont_div (cont_add (cont_add hsq hl) hb2) hc cne
  have hLl := contV_sdiv hL hl l0
  have hRr := contV_sdiv hR hr r0
  have hlog := cont_log ht t0
  have hp := contV_smul hlog hLl
  cases gr
  · apply contE_pair hp contM_zeros
    filter_upwards [h1, h2] with A k1 k2
    simp only [lineIntegralAlongEdge, numbaDiv, k1, k2, if_true, Bind.bind, Except.bind, Pure.pure, Except.pure, Bool.false_eq_true, if_false]
  · have hDU := contV_neg (contV_add (contV_sdiv (contV_add hL hR) hsq sq0) hLl)
    have hDV := contV_neg (contV_add hRr hLl)
    have hDT := contV_sdiv (contV_sub (contV_smul hc hDU) (contV_smul (cont_mul ht hc) hDV)) (cont_mul hc hc) (mul_ne_zero cne cne)
    have hw := contV_sdiv hDT ht t0.ne'
    have hM : ContM (fun A => ⟨_, _, _⟩) := ⟨contV_smul hw.1 hLl, contV_smul hw.2.1 hLl, contV_smul hw.2.2 hLl⟩
    apply contE_pair hp hM
    filter_upwards [h1, h2] with A k1 k2
    simp only [lineIntegralAlongEdge, numbaDiv, k1, k2, if_true, Bind.bind, Except.bind, Pure.pure, Except.pure, Bool.false_eq_true, if_false]
    rfl

/-- An edge between two points that are moved. -/
def edgeAt (A : Setting) (e : Edge ℝ) : Edge ℝ :=
  { e with
    start := A.move e.start
    fin := A.move e.fin
    vector := @V3.sub ℝ A (A.move e.fin) (A.move e.start)
    length := A.norm (@V3.sub ℝ A (A.move e.fin) (A.move e.start)) }

theorem edgeIntegral_cont (e : Edge ℝ) {obs : V3 ℝ} (hx : cross (e.start.sub obs) (e.fin.sub e.start) ≠ V3.zeros)
    (hc : repsilon < vlen (e.start.sub obs) + rdot (e.start.sub obs) (e.fin.sub e.start) / vlen (e.fin.sub e.start)) (gr : Bool) :
    ContE (ContP gr) (fun A => @edgeIntegral ℝ A (edgeAt A e) (A.place obs) gr) := by
  have e0 : (0 : ℝ) < repsilon := by unfold repsilon; positivity
  have hL0 : e.fin.sub e.start ≠ V3.zeros := by
    intro h; apply hx; rw [h]; refine V3.ext' ?_ ?_ ?_ <;> simp
  have hR0 : e.start.sub obs ≠ V3.zeros := by
    intro h; apply hx; rw [h]; refine V3.ext' ?_ ?_ ?_ <;> simp
  have hfin : e.fin.sub obs = (e.start.sub obs).add (e.fin.sub e.start) := by
    refine V3.ext' ?_ ?_ ?_ <;> simp
  have hx' : cross (e.start.sub obs) (e.fin.sub obs) ≠ V3.zeros := by
    have : cross (e.start.sub obs) (e.fin.sub obs) = cross (e.start.sub obs) (e.fin.sub e.start) := by
      rw [hfin]; refine V3.ext' ?_ ?_ ?_ <;> simp <;> ring
    rw [this]; exact hx
  have hx2 : cross (e.fin.sub obs) (e.fin.sub e.start) ≠ V3.zeros := by
    have : cross (e.fin.sub obs) (e.fin.sub e.start) = cross (e.start.sub obs) (e.fin.sub e.start) := by
      rw [hfin]; refine V3.ext' ?_ ?_ ?_ <;> simp <;> ring
    rw [this]; exact hx
  have hF0 : e.fin.sub obs ≠ V3.zeros := by
    intro h; apply hx'; rw [h]; refine V3.ext' ?_ ?_ ?_ <;> simp
  have hl := vlen_pos hL0
  have hr := vlen_pos hR0
  have hf := vlen_pos hF0
  have cR1 : ContV (fun A => @V3.sub ℝ A (A.move e.start) (A.place obs)) := contV_sub (contV_move _) (contV_place _)
  have cR2 : ContV (fun A => @V3.sub ℝ A (A.move e.fin) (A.place obs)) := contV_sub (contV_move _) (contV_place _)
  have cL : ContV (fun A => @V3.sub ℝ A (A.move e.fin) (A.move e.start)) := contV_sub (contV_move _) (contV_move _)
  have cr1 := cont_norm cR1
  have cr2 := cont_norm cR2
  have cl := cont_norm cL
  have hd := (abs_lt.mp (cs_strict hx')).2
  have hne : rdot (e.start.sub obs) (e.fin.sub obs) / (vlen (e.start.sub obs) * vlen (e.fin.sub obs)) ≠ 1 := by
    intro h
    rw [div_eq_one_iff_eq (mul_pos hr hf).ne'] at h
    linarith
  have k1 := eq_false (cont_div (cont_dot cR1 cR2) (cont_mul cr1 cr2) (mul_pos hr hf).ne') cont_one hne
  have cb := cont_mul cont_two (cont_dot cR1 cL)
  have cb2 := cont_div (cont_div cb cl hl.ne') cont_two (two_ne_zero' ℝ)
  have hb2 : 2 * rdot (e.start.sub obs) (e.fin.sub e.start) / vlen (e.fin.sub e.start) / 2 =
      rdot (e.start.sub obs) (e.fin.sub e.start) / vlen (e.fin.sub e.start) := by ring
  have cc := cont_add cr1 cb2
  have hcc : repsilon < vlen (e.start.sub obs) + 2 * rdot (e.start.sub obs) (e.fin.sub e.start) / vlen (e.fin.sub e.start) / 2 := by
    rw [hb2]; exact hc
  have k2 := lt_false (cont_abs cc) cont_eps (hcc.trans_le (le_abs_self _))
  have hsq : vlen (e.fin.sub e.start) * vlen (e.fin.sub e.start) + 2 * rdot (e.start.sub obs) (e.fin.sub e.start) +
      vlen (e.start.sub obs) * vlen (e.start.sub obs) = rdot (e.fin.sub obs) (e.fin.sub obs) := by
    rw [vlen_sq, vlen_sq, hfin]; simp [rdot]; ring
  have hpos : 0 < rdot (e.fin.sub obs) (e.fin.sub obs) := by rw [← vlen_sq]; exact mul_pos hf hf
  have hu : 0 < vlen (e.fin.sub obs) + vlen (e.fin.sub e.start) + 2 * rdot (e.start.sub obs) (e.fin.sub e.start) / vlen (e.fin.sub e.start) / 2 := by
    rw [hb2]
    have h2 := (abs_lt.mp (cs_strict hx2)).1
    have h3 : rdot (e.fin.sub obs) (e.fin.sub e.start) = rdot (e.start.sub obs) (e.fin.sub e.start) + vlen (e.fin.sub e.start) * vlen (e.fin.sub e.start) := by
      rw [hfin, vlen_sq]; simp [rdot]; ring
    rw [h3] at h2
    have : vlen (e.fin.sub obs) + vlen (e.fin.sub e.start) + rdot (e.start.sub obs) (e.fin.sub e.start) / vlen (e.fin.sub e.start) =
        (vlen (e.fin.sub obs) * vlen (e.fin.sub e.start) + vlen (e.fin.sub e.start) * vlen (e.fin.sub e.start) + rdot (e.start.sub obs) (e.fin.sub e.start)) / vlen (e.fin.sub e.start) := by
      field_simp
    rw [this]
    apply div_pos _ hl
    linarith
  have main := lineIntegral_cont cc cl cr1 cb2 cb cL cR1 (hcc.trans_le (le_abs_self _)) hl.ne' hr.ne'
    (show 0 < vlen (e.fin.sub e.start) * vlen (e.fin.sub e.start) + 2 * rdot (e.start.sub obs) (e.fin.sub e.start) +
      vlen (e.start.sub obs) * vlen (e.start.sub obs) by rw [hsq]; exact hpos)
    (show 0 < (Real.sqrt (vlen (e.fin.sub e.start) * vlen (e.fin.sub e.start) + 2 * rdot (e.start.sub obs) (e.fin.sub e.start) +
      vlen (e.start.sub obs) * vlen (e.start.sub obs)) + vlen (e.fin.sub e.start) + 2 * rdot (e.start.sub obs) (e.fin.sub e.start) / vlen (e.fin.sub e.start) / 2) /
      (vlen (e.start.sub obs) + 2 * rdot (e.start.sub obs) (e.fin.sub e.start) / vlen (e.fin.sub e.start) / 2) by
        rw [hsq]; exact div_pos hu (e0.trans hcc)) gr
  obtain ⟨out, h1, h2, m, h3, h4⟩ := main
  refine ⟨fun A => (@V3.smul ℝ A A.one (out A).1, (out A).2), ?_, contV_smul cont_one h2, m, h3, h4⟩
  filter_upwards [k1, k2, h1] with A a1 a2 a3
  simp only [edgeIntegral, edgeAt, a1, a2, Bool.and_false, Bool.false_eq_true, if_false, Bind.bind, Except.bind, a3, Pure.pure, Except.pure]

end
end Geec
