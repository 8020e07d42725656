import Verif.Lemmas.PreciseSum
import Verif.Props.Newton
import Mathlib.Order.Filter.Ultrafilter.Defs
/-
The limit of increasing precision at stations on the line of an edge, where rounding errors decide which formula is used.
-/
namespace Geec
open Filter Topology Arith
noncomputable section

/-- the second half of `edgeIntegral`: everything after the exchange of the ends -/
def edgeTail {S : Type} [Arith S] (R L : V3 S) (l : S) (sgn : S) (gr : Bool) : Except PyErr (V3 S × Option (M3 S)) :=
  if abs (norm R +. two *. dot R L /. l /. two) <. eps then
    (lineIntegralAlongEdge (norm R +. Arith.neg (two *. dot R L) /. l /. two) L.neg l R (norm R) (Arith.neg (two *. dot R L) /. l /. two)
      (Arith.neg (two *. dot R L)) gr).map fun v => (v.1.smul sgn, v.2)
  else
    (lineIntegralAlongEdge (norm R +. two *. dot R L /. l /. two) L l R (norm R) (two *. dot R L /. l /. two) (two *. dot R L) gr).map
      fun v => (v.1.smul sgn, v.2)

theorem edgeIntegral_tail {S : Type} [Arith S] (e : Edge S) (obs : V3 S) (gr : Bool) :
    edgeIntegral e obs gr = if (norm (e.fin.sub obs) <. norm (e.start.sub obs)) &&
      ((dot (e.start.sub obs) (e.fin.sub obs) /. (norm (e.start.sub obs) *. norm (e.fin.sub obs))) ==. one)
      then edgeTail (e.fin.sub obs) e.vector e.length negOne gr else edgeTail (e.start.sub obs) e.vector e.length one gr := by
  unfold edgeIntegral edgeTail
  rcases hb : ((norm (e.fin.sub obs) <. norm (e.start.sub obs)) &&
      ((dot (e.start.sub obs) (e.fin.sub obs) /. (norm (e.start.sub obs) *. norm (e.fin.sub obs))) ==. one)) with _ | _
  · rcases hc : (abs (norm (e.start.sub obs) +. two *. dot (e.start.sub obs) e.vector /. e.length /. two) <. eps) with _ | _
    all_goals simp only [hb, hc, Bool.false_eq_true, if_false, if_true, Bind.bind, Except.bind, Pure.pure, Except.pure]
    all_goals rfl
  · rcases hc : (abs (norm (e.fin.sub obs) +. two *. dot (e.fin.sub obs) e.vector /. e.length /. two) <. eps) with _ | _
    all_goals simp only [hb, hc, Bool.false_eq_true, if_false, if_true, Bind.bind, Except.bind, Pure.pure, Except.pure]
    all_goals rfl

theorem contE_sgn {gr : Bool} {X : Setting → Except PyErr (V3 ℝ × Option (M3 ℝ))} (hX : ContE (ContP gr) X) {g : Setting → ℝ} (hg : Cont g) :
    ContE (ContP gr) (fun A => (X A).map fun v => (@V3.smul ℝ A (g A) v.1, v.2)) := by
  obtain ⟨out, h1, h2, m, h3, h4⟩ := hX
  refine ⟨fun A => (@V3.smul ℝ A (g A) (out A).1, (out A).2), ?_, contV_smul hg h2, m, h3, h4⟩
  filter_upwards [h1] with A a1
  rw [a1]; rfl

/-- after the exchange, everything is decided by strict inequalities -/
theorem edgeTail_cont {R L : Setting → V3 ℝ} (cR : ContV R) (cL : ContV L) {g : Setting → ℝ} (cg : Cont g) {R0 L0 : V3 ℝ} (eR : R ideal = R0)
    (eL : L ideal = L0) (hL : L0 ≠ V3.zeros) (hr : repsilon < vlen R0) (hne : vlen R0 + rdot R0 L0 / vlen L0 ≠ repsilon)
    (gr : Bool) : ContE (ContP gr) (fun A => @edgeTail ℝ A (R A) (L A) (A.norm (L A)) (g A) gr) := by
  have e0 : (0 : ℝ) < repsilon := by unfold repsilon; positivity
  have hl := vlen_pos hL
  have hcs := abs_le.mp (abs_rdot_le R0 L0)
  have cr := cont_norm cR
  have cl := cont_norm cL
  have rr : realArith.norm (R ideal) = vlen R0 := by rw [eR]; rfl
  have rl : realArith.norm (L ideal) = vlen L0 := by rw [eL]; rfl
  have l0 : realArith.norm (L ideal) ≠ 0 := by rw [rl]; exact hl.ne'
  have cb := cont_mul cont_two (cont_dot cR cL)
  have rb : realArith.mul realArith.two (realArith.dot (R ideal) (L ideal)) = 2 * rdot R0 L0 := by rw [eR, eL]; rfl
  have cb2 := cont_div (cont_div cb cl l0) cont_two (two_ne_zero' ℝ)
  have rb2 : realArith.div (realArith.div (realArith.mul realArith.two (realArith.dot (R ideal) (L ideal))) (realArith.norm (L ideal))) realArith.two =
      rdot R0 L0 / vlen L0 := by rw [rb, rl]; show 2 * rdot R0 L0 / vlen L0 / 2 = _; ring
  have cs : Cont (fun A => A.add (A.norm (R A)) (A.div (A.div (A.mul A.two (A.dot (R A) (L A))) (A.norm (L A))) A.two)) := cont_add cr cb2
  have rs : realArith.add (realArith.norm (R ideal)) (realArith.div (realArith.div (realArith.mul realArith.two (realArith.dot (R ideal) (L ideal))) (realArith.norm (L ideal))) realArith.two) =
      vlen R0 + rdot R0 L0 / vlen L0 := by rw [rb2, rr]; rfl
  have hnn : 0 ≤ vlen R0 + rdot R0 L0 / vlen L0 := by
    have : -vlen R0 ≤ rdot R0 L0 / vlen L0 := by rw [le_div_iff₀ hl]; linarith [hcs.1]
    linarith
  rcases lt_or_gt_of_ne hne with hlt | hgt
  · -- the edge is turned
    have k := lt_true (cont_abs cs) cont_eps (by
      show |realArith.add _ _| < repsilon
      rw [rs, abs_of_nonneg hnn]; exact hlt)
    have cb' := cont_neg cb
    have rb' : realArith.neg (realArith.mul realArith.two (realArith.dot (R ideal) (L ideal))) = -(2 * rdot R0 L0) := by rw [rb]; rfl
    have cb2' := cont_div (cont_div cb' cl l0) cont_two (two_ne_zero' ℝ)
    have rb2' : realArith.div (realArith.div (realArith.neg (realArith.mul realArith.two (realArith.dot (R ideal) (L ideal)))) (realArith.norm (L ideal))) realArith.two =
        -(rdot R0 L0 / vlen L0) := by rw [rb', rl]; show -(2 * rdot R0 L0) / vlen L0 / 2 = _; ring
    have cc := cont_add cr cb2'
    have rc : realArith.add (realArith.norm (R ideal)) (realArith.div (realArith.div (realArith.neg (realArith.mul realArith.two (realArith.dot (R ideal) (L ideal)))) (realArith.norm (L ideal))) realArith.two) =
        vlen R0 - rdot R0 L0 / vlen L0 := by rw [rb2', rr]; show vlen R0 + -_ = _; ring
    have c0 : repsilon < vlen R0 - rdot R0 L0 / vlen L0 := by linarith
    have hs : vlen L0 * vlen L0 + -(2 * rdot R0 L0) + vlen R0 * vlen R0 = rdot (R0.sub L0) (R0.sub L0) := by
      rw [vlen_sq, vlen_sq]; simp [rdot]; ring
    have hRL : R0.sub L0 ≠ V3.zeros := by
      intro h
      have : R0 = L0 := by
        have hx := congrArg V3.x h
        have hy := congrArg V3.y h
        have hz := congrArg V3.z h
        simp at hx hy hz
        refine V3.ext' ?_ ?_ ?_ <;> linarith
      rw [this, ← vlen_sq, mul_div_assoc, div_self hl.ne', mul_one] at hlt
      rw [this] at hr
      linarith
    have hpos : 0 < rdot (R0.sub L0) (R0.sub L0) := by
      rw [← vlen_sq]; exact mul_pos (vlen_pos hRL) (vlen_pos hRL)
    have main := contE_sgn (lineIntegral_cont cc cl cr cb2' cb' (contV_neg cL) cR (by
        show repsilon < |realArith.add _ _|
        rw [rc]; exact c0.trans_le (le_abs_self _)) l0 (by rw [rr]; exact (e0.trans hr).ne') (by
        rw [rl, rb', rr, hs]; exact hpos) (by
        rw [rc, rb2', rb', rl, rr, hs]
        apply div_pos _ (e0.trans c0)
        have := Real.sqrt_nonneg (rdot (R0.sub L0) (R0.sub L0))
        linarith) gr) cg
    refine contE_congr ?_ main
    filter_upwards [k] with A a1
    simp only [edgeTail, a1, if_true]
  · have k := lt_false (cont_abs cs) cont_eps (by
      show repsilon < |realArith.add _ _|
      rw [rs, abs_of_nonneg hnn]; exact hgt)
    have hs : vlen L0 * vlen L0 + 2 * rdot R0 L0 + vlen R0 * vlen R0 = rdot (R0.add L0) (R0.add L0) := by
      rw [vlen_sq, vlen_sq]; simp [rdot]; ring
    have hF : R0.add L0 ≠ V3.zeros := by
      intro h
      have hx := congrArg V3.x h
      have hy := congrArg V3.y h
      have hz := congrArg V3.z h
      simp at hx hy hz
      have hn : R0 = L0.neg := by refine V3.ext' ?_ ?_ ?_ <;> simp <;> linarith
      have h1 : rdot R0 L0 = -(vlen L0 * vlen L0) := by rw [hn, vlen_sq]; simp [rdot]; ring
      have h2 : vlen R0 = vlen L0 := by
        rw [hn]; unfold vlen; congr 1; simp [rdot]
      rw [h1, h2, neg_div, mul_div_assoc, div_self hl.ne'] at hgt
      linarith
    have hpos : 0 < rdot (R0.add L0) (R0.add L0) := by
      rw [← vlen_sq]; exact mul_pos (vlen_pos hF) (vlen_pos hF)
    have main := contE_sgn (lineIntegral_cont cs cl cr cb2 cb cL cR (by
        show repsilon < |realArith.add _ _|
        rw [rs]; exact hgt.trans_le (le_abs_self _)) l0 (by rw [rr]; exact (e0.trans hr).ne') (by
        rw [rl, rb, rr, hs]; exact hpos) (by
        rw [rs, rb2, rb, rl, rr, hs]
        apply div_pos _ (e0.trans hgt)
        have h1 : Real.sqrt (rdot (R0.add L0) (R0.add L0)) = vlen (R0.add L0) := rfl
        have h2 := abs_le.mp (abs_rdot_le (R0.add L0) L0)
        have h3 : rdot (R0.add L0) L0 = rdot R0 L0 + vlen L0 * vlen L0 := by rw [vlen_sq]; simp [rdot]; ring
        -- |R| ≤ |R + L| + |L|
        have h4 : vlen R0 ≤ vlen (R0.add L0) + vlen L0 := by
          have e : vlen R0 * vlen R0 = vlen (R0.add L0) * vlen (R0.add L0) - 2 * rdot (R0.add L0) L0 + vlen L0 * vlen L0 := by
            rw [vlen_sq, vlen_sq, vlen_sq]; simp [rdot]; ring
          have n1 := vlen_nonneg (R0.add L0)
          have n2 := vlen_nonneg R0
          nlinarith
        rw [h1]
        linarith) gr) cg
    refine contE_congr ?_ main
    filter_upwards [k] with A a1
    simp only [edgeTail, a1, Bool.false_eq_true, if_false]

theorem collinear {R L : V3 ℝ} (hL : L ≠ V3.zeros) (h : cross R L = V3.zeros) : R = V3.smul (rdot R L / rdot L L) L := by
  have hp : rdot L L ≠ 0 := by rw [← vlen_sq]; exact (mul_pos (vlen_pos hL) (vlen_pos hL)).ne'
  have hx := congrArg V3.x h
  have hy := congrArg V3.y h
  have hz := congrArg V3.z h
  simp at hx hy hz
  refine V3.ext' ?_ ?_ ?_ <;> simp only [smul_x, smul_y, smul_z, div_mul_eq_mul_div] <;> rw [eq_div_iff hp] <;> simp only [rdot]
  · linear_combination L.y * hz - L.z * hy
  · linear_combination L.z * hx - L.x * hz
  · linear_combination L.x * hy - L.y * hx

/-- the integral along an edge whose ends are farther than `eps` from the station: one of at most two convergent values, and only one if the station is not
on the line of the edge -/
theorem edgeIntegral_two (e : Edge ℝ) {obs : V3 ℝ} (hne : e.start ≠ e.fin) (h1 : repsilon < vlen (e.start.sub obs)) (h2 : repsilon < vlen (e.fin.sub obs))
    (hs : vlen (e.start.sub obs) + rdot (e.start.sub obs) (e.fin.sub e.start) / vlen (e.fin.sub e.start) ≠ repsilon) (gr : Bool) :
    ∃ o1 o2, ContP gr o1 ∧ ContP gr o2 ∧ (∀ᶠ A : Setting in precise, @edgeIntegral ℝ A (edgeAt A e) (A.place obs) gr = .ok (o1 A) ∨ @edgeIntegral ℝ A (edgeAt A e) (A.place obs) gr = .ok (o2 A)) ∧
      (cross (e.start.sub obs) (e.fin.sub e.start) ≠ V3.zeros → o1 = o2) := by
  have e0 : (0 : ℝ) < repsilon := by unfold repsilon; positivity
  have hL : e.fin.sub e.start ≠ V3.zeros := by
    intro h
    apply hne
    have hx := congrArg V3.x h
    have hy := congrArg V3.y h
    have hz := congrArg V3.z h
    simp at hx hy hz
    refine V3.ext' ?_ ?_ ?_ <;> linarith
  have hl := vlen_pos hL
  have hfin : e.fin.sub obs = (e.start.sub obs).add (e.fin.sub e.start) := by
    refine V3.ext' ?_ ?_ ?_ <;> simp
  have ne0 : ∀ {v : V3 ℝ}, repsilon < vlen v → v ≠ V3.zeros := by
    rintro v hv rfl; rw [vlen_zeros] at hv; linarith
  have cR1 : ContV (fun A => @V3.sub ℝ A (A.move e.start) (A.place obs)) := contV_sub (contV_move _) (contV_place _)
  have cR2 : ContV (fun A => @V3.sub ℝ A (A.move e.fin) (A.place obs)) := contV_sub (contV_move _) (contV_place _)
  have cL : ContV (fun A => @V3.sub ℝ A (A.move e.fin) (A.move e.start)) := contV_sub (contV_move _) (contV_move _)
  have T1 := edgeTail_cont cR1 cL cont_one rfl rfl hL h1 hs gr
  obtain ⟨o1, k1, k2⟩ := T1
  -- stations where the test fails
  have single : (∀ᶠ A : Setting in precise, (A.lt (A.norm (@V3.sub ℝ A (A.move e.fin) (A.place obs))) (A.norm (@V3.sub ℝ A (A.move e.start) (A.place obs))) && A.eq (A.div (A.dot (@V3.sub ℝ A (A.move e.start) (A.place obs)) (@V3.sub ℝ A (A.move e.fin) (A.place obs)))
      (A.mul (A.norm (@V3.sub ℝ A (A.move e.start) (A.place obs))) (A.norm (@V3.sub ℝ A (A.move e.fin) (A.place obs))))) A.one) = false) →
      ∃ o1 o2, ContP gr o1 ∧ ContP gr o2 ∧ (∀ᶠ A : Setting in precise, @edgeIntegral ℝ A (edgeAt A e) (A.place obs) gr = .ok (o1 A) ∨ @edgeIntegral ℝ A (edgeAt A e) (A.place obs) gr = .ok (o2 A)) ∧
      (cross (e.start.sub obs) (e.fin.sub e.start) ≠ V3.zeros → o1 = o2) := by
    intro hk
    refine ⟨o1, o1, k2, k2, ?_, fun _ => rfl⟩
    filter_upwards [hk, k1] with A a1 a2
    left
    rw [@edgeIntegral_tail ℝ A]
    have : ((edgeAt A e).fin = A.move e.fin) ∧ (edgeAt A e).start = A.move e.start ∧ (edgeAt A e).vector = @V3.sub ℝ A (A.move e.fin) (A.move e.start) ∧
      (edgeAt A e).length = A.norm (@V3.sub ℝ A (A.move e.fin) (A.move e.start)) := ⟨rfl, rfl, rfl, rfl⟩
    rw [this.1, this.2.1, this.2.2.1, this.2.2.2, a1]
    simpa using a2
  have cratio := cont_div (cont_dot cR1 cR2) (cont_mul (cont_norm cR1) (cont_norm cR2)) (mul_pos (e0.trans h1) (e0.trans h2)).ne'
  have noeq : rdot (e.start.sub obs) (e.fin.sub obs) ≠ vlen (e.start.sub obs) * vlen (e.fin.sub obs) →
      ∀ᶠ A : Setting in precise, (A.lt (A.norm (@V3.sub ℝ A (A.move e.fin) (A.place obs))) (A.norm (@V3.sub ℝ A (A.move e.start) (A.place obs))) && A.eq (A.div (A.dot (@V3.sub ℝ A (A.move e.start) (A.place obs)) (@V3.sub ℝ A (A.move e.fin) (A.place obs)))
      (A.mul (A.norm (@V3.sub ℝ A (A.move e.start) (A.place obs))) (A.norm (@V3.sub ℝ A (A.move e.fin) (A.place obs))))) A.one) = false := by
    intro h
    have k := eq_false cratio cont_one (by
      show rdot (e.start.sub obs) (e.fin.sub obs) / (vlen (e.start.sub obs) * vlen (e.fin.sub obs)) ≠ 1
      rw [ne_eq, div_eq_one_iff_eq (mul_pos (e0.trans h1) (e0.trans h2)).ne']; exact h)
    filter_upwards [k] with A a1
    rw [a1, Bool.and_false]
  by_cases hx : cross (e.start.sub obs) (e.fin.sub e.start) = V3.zeros
  · -- on the line
    have hcol := collinear hL hx
    set c := rdot (e.start.sub obs) (e.fin.sub e.start) / rdot (e.fin.sub e.start) (e.fin.sub e.start) with hc
    have hfc : e.fin.sub obs = V3.smul (1 + c) (e.fin.sub e.start) := by
      rw [hfin, hcol]; refine V3.ext' ?_ ?_ ?_ <;> simp <;> ring
    have len : ∀ (x : ℝ) (v : V3 ℝ), vlen (V3.smul x v) = |x| * vlen v := fun x v => vlen_smul x v
    have l1 : vlen (e.start.sub obs) = |c| * vlen (e.fin.sub e.start) := by rw [hcol, len]
    have l2 : vlen (e.fin.sub obs) = |1 + c| * vlen (e.fin.sub e.start) := by rw [hfc, len]
    by_cases hpast : c < -1
    · -- beyond the end: either
      have hs2 : vlen (e.fin.sub obs) + rdot (e.fin.sub obs) (e.fin.sub e.start) / vlen (e.fin.sub e.start) ≠ repsilon := by
        have : rdot (e.fin.sub obs) (e.fin.sub e.start) = (1 + c) * (vlen (e.fin.sub e.start) * vlen (e.fin.sub e.start)) := by
          rw [hfc, vlen_sq]; simp [rdot]; ring
        rw [l2, this, abs_of_neg (by linarith), mul_div_assoc, mul_div_assoc, div_self hl.ne']
        have : -(1 + c) * vlen (e.fin.sub e.start) + (1 + c) * (vlen (e.fin.sub e.start) * 1) = 0 := by ring
        rw [this]; exact e0.ne
      obtain ⟨o2, k3, k4⟩ := edgeTail_cont cR2 cL cont_negOne rfl rfl hL h2 hs2 gr
      refine ⟨o1, o2, k2, k4, ?_, fun h => absurd hx h⟩
      filter_upwards [k1, k3] with A a1 a3
      have : ((edgeAt A e).fin = A.move e.fin) ∧ (edgeAt A e).start = A.move e.start ∧ (edgeAt A e).vector = @V3.sub ℝ A (A.move e.fin) (A.move e.start) ∧
        (edgeAt A e).length = A.norm (@V3.sub ℝ A (A.move e.fin) (A.move e.start)) := ⟨rfl, rfl, rfl, rfl⟩
      rw [@edgeIntegral_tail ℝ A, this.1, this.2.1, this.2.2.1, this.2.2.2]
      split
      · exact .inr a3
      · exact .inl a1
    · -- not beyond the end
      apply single
      have c1 : c ≠ -1 := by
        intro h
        rw [l2, h] at h2; simp at h2; linarith
      rcases lt_or_ge c 0 with hneg | hpos
      · -- inside
        apply noeq
        have hd : rdot (e.start.sub obs) (e.fin.sub obs) = c * (1 + c) * (vlen (e.fin.sub e.start) * vlen (e.fin.sub e.start)) := by
          rw [hfc, vlen_sq]
          nth_rewrite 1 [hcol]
          simp [rdot]; ring
        have h3 : 0 < 1 + c := by
          rcases lt_or_gt_of_ne c1 with h | h
          · exact absurd h hpast
          · linarith
        have h4 := mul_pos (e0.trans h1) (e0.trans h2)
        rw [hd]
        have := mul_pos hl hl
        nlinarith [mul_pos (mul_pos (neg_pos.mpr hneg) h3) this]
      · have k := lt_false (cont_norm cR2) (cont_norm cR1) (by
          show vlen (e.start.sub obs) < vlen (e.fin.sub obs)
          rw [l1, l2, abs_of_nonneg hpos, abs_of_nonneg (by linarith)]
          nlinarith)
        filter_upwards [k] with A a1
        rw [a1, Bool.false_and]
  · apply single
    apply noeq
    have hx' : cross (e.start.sub obs) (e.fin.sub obs) ≠ V3.zeros := by
      have : cross (e.start.sub obs) (e.fin.sub obs) = cross (e.start.sub obs) (e.fin.sub e.start) := by
        rw [hfin]; refine V3.ext' ?_ ?_ ?_ <;> simp <;> ring
      rw [this]; exact hx
    exact (abs_lt.mp (cs_strict hx')).2.ne

section
variable {h : Hull ℝ} {inHull : V3 ℝ → Bool} {p : Poly ℝ} {F : Filter Setting}

/-- a face, if the values of its edges converge along a family of arithmetics -- to whatever values -/
theorem face_along_of (hF : F ≤ precise) (hh : h.IsHull) (hp : mkPoly h inHull = .ok p) {k : Nat} {f : Face ℝ} (hf : p.faces[k]? = some f) {s : V3 ℝ}
    (hs : |rdot f.un (f.pa.sub s)| ≠ repsilon) (ρ Gc : ℝ) {gr : Bool} {e0 e1 e2 : Edge ℝ} (hE : f.edges = [e0, e1, e2]) {x0 x1 x2 : Setting → V3 ℝ × Option (M3 ℝ)}
    (c0 : ContP gr x0) (c1 : ContP gr x1) (c2 : ContP gr x2)
    (h0 : ∀ᶠ A : Setting in F, @edgeValue ℝ A (polyAt A h p) (A.place s) gr k (edgeAt A e0) = .ok (x0 A))
    (h1 : ∀ᶠ A : Setting in F, @edgeValue ℝ A (polyAt A h p) (A.place s) gr k (edgeAt A e1) = .ok (x1 A))
    (h2 : ∀ᶠ A : Setting in F, @edgeValue ℝ A (polyAt A h p) (A.place s) gr k (edgeAt A e2) = .ok (x2 A)) :
    ∃ out w, ContG out ∧ omegaValue f s gr = .ok w ∧ (∀ᶠ A : Setting in F, @faceValue ℝ A (polyAt A h p) (A.place s) (A.weigh ρ) (A.scale Gc) gr k (faceAt A h k f) = .ok (out A)) ∧
      out ideal = faceField f.un (f.height s) w.1 w.2 (((x0 ideal).1.add (x1 ideal).1).add (x2 ideal).1)
        ((((x0 ideal).2.getD M3.zeros).add ((x1 ideal).2.getD M3.zeros)).add ((x2 ideal).2.getD M3.zeros)) ρ Gc gr := by
  obtain ⟨w, w1, w2⟩ := omegaValue_cont_of hh hp hf hs gr
  have hr := at_real w1
  beta_reduce at hr
  rw [faceAt_real hh hp hf] at hr
  refine ⟨_, w ideal, faceField_cont (un_cont hh hp hf) (height_cont hh hp hf s) w2.1 w2.2 (contV_add (contV_add c0.1 c1.1) c2.1)
    (contM_add (contM_add (getD_cont c0) (getD_cont c1)) (getD_cont c2)) ρ Gc gr, hr, ?_, ?_⟩
  · filter_upwards [w1.filter_mono hF, h0, h1, h2] with A a1 a2 a3 a4
    have : (faceAt A h k f).edges = [edgeAt A e0, edgeAt A e1, edgeAt A e2] := by
      show f.edges.map (edgeAt A) = _
      rw [hE]; rfl
    simp only [faceValue, a1, this, edgesValue, a2, a3, a4, fieldOfEdges, sumPqr, sumDpqr]
  · simp only [faceAt_real hh hp hf]
    rfl

/-- No strict comparison of the code is a tie in exact arithmetic: the station is farther than `eps` from the corners, not exactly at the distance `eps` from the
plane of a face, and on none of the surfaces `|a-s| + (a-s)·u = eps` of the edges.  (Stations on the line of an edge, where the code compares numbers for
equality, are allowed.) -/
structure Hull.Decided (h : Hull ℝ) (s : V3 ℝ) : Prop where
  corners : ∀ t ∈ h.simplices, ∀ i, Corner t i → repsilon < vlen ((h.pt i).sub s)
  planes : ∀ t ∈ h.simplices, |rdot (cross ((h.pt t.2.1).sub (h.pt t.1)) ((h.pt t.2.2).sub (h.pt t.1))) ((h.pt t.1).sub s)| ≠
    repsilon * vlen (cross ((h.pt t.2.1).sub (h.pt t.1)) ((h.pt t.2.2).sub (h.pt t.1)))
  edges : ∀ t ∈ h.simplices, ∀ i j, Corner t i → Corner t j → i ≠ j →
    vlen ((h.pt i).sub s) + rdot ((h.pt i).sub s) ((h.pt j).sub (h.pt i)) / vlen ((h.pt j).sub (h.pt i)) ≠ repsilon

/-- the station is on the line of no edge -/
def Hull.OffLines (h : Hull ℝ) (s : V3 ℝ) : Prop :=
  ∀ t ∈ h.simplices, ∀ i j, Corner t i → Corner t j → i ≠ j → cross ((h.pt i).sub s) ((h.pt j).sub (h.pt i)) ≠ V3.zeros

/-- distance of the station from the plane of a face, from the corners of the triangle -/
theorem plane_key (hh : h.IsHull) (hp : mkPoly h inHull = .ok p) {k : Nat} {f : Face ℝ} (hf : p.faces[k]? = some f) (s : V3 ℝ) :
    ∃ t ∈ h.simplices, |rdot (cross ((h.pt t.2.1).sub (h.pt t.1)) ((h.pt t.2.2).sub (h.pt t.1))) ((h.pt t.1).sub s)| =
      vlen (cross ((h.pt t.2.1).sub (h.pt t.1)) ((h.pt t.2.2).sub (h.pt t.1))) * |rdot f.un (f.pa.sub s)| ∧
      0 < vlen (cross ((h.pt t.2.1).sub (h.pt t.1)) ((h.pt t.2.2).sub (h.pt t.1))) := by
  obtain ⟨t, ht, hpts, hperm, hn, -, -⟩ := face_facts hh hp hf
  refine ⟨t, List.mem_of_getElem? ht, ?_⟩
  have hd := hn.det s
  have ha := hn.area_pos
  have e1 : |det3 (f.pa.sub s) (f.pb.sub s) (f.pc.sub s)| = vlen (cross (f.pb.sub f.pa) (f.pc.sub f.pa)) * |rdot f.un (f.pa.sub s)| := by
    rw [hd, abs_mul, abs_of_pos ha]
  have hv : ∀ x y : V3 ℝ, (rdot x x = rdot y y) → vlen x = vlen y := by intro x y h; unfold vlen; rw [h]
  have gen : ∀ a b c : V3 ℝ, |rdot (cross (b.sub a) (c.sub a)) (a.sub s)| = |det3 (a.sub s) (b.sub s) (c.sub s)| := by
    intro a b c; rw [det_of_cross]
  rw [gen]
  rcases perm3 hperm with ⟨h1, h2, h3⟩ | ⟨h1, h2, h3⟩ | ⟨h1, h2, h3⟩ | ⟨h1, h2, h3⟩ | ⟨h1, h2, h3⟩ | ⟨h1, h2, h3⟩ <;>
    rw [← h1, ← h2, ← h3]
  · exact ⟨e1, ha⟩
  all_goals
    have hvl := hv (cross (f.pb.sub f.pa) (f.pc.sub f.pa))
    constructor
    · first
        | (rw [← hvl _ (by simp [rdot]; ring), ← e1, ← abs_neg]; congr 1; simp [det3, rdot]; ring1)
        | (rw [← hvl _ (by simp [rdot]; ring), ← e1]; congr 1; simp [det3, rdot]; ring1)
    · rw [← hvl _ (by simp [rdot]; ring)]; exact ha

theorem Hull.Decided.face (hh : h.IsHull) (hp : mkPoly h inHull = .ok p) {k : Nat} {f : Face ℝ} (hf : p.faces[k]? = some f) {s : V3 ℝ} (hs : h.Decided s) :
    |rdot f.un (f.pa.sub s)| ≠ repsilon := by
  obtain ⟨t, ht, h1, h2⟩ := plane_key hh hp hf s
  intro h0
  apply hs.planes t ht
  rw [h1, h0, mul_comm]

/-- one edge along an ultrafilter -/
theorem edge_ultra (hh : h.IsHull) (hp : mkPoly h inHull = .ok p) {s : V3 ℝ} (hs : h.Decided s) {U : Ultrafilter Setting} (hU : ↑U ≤ precise) {i j : Nat}
    {e : Edge ℝ} (he : p.edgeAt i j = some e) (gr : Bool) :
    ∃ x, ContP gr x ∧ (∀ᶠ A : Setting in (U : Filter Setting), @edgeIntegral ℝ A (edgeAt A e) (A.place s) gr = .ok (x A)) ∧
      (cross (e.start.sub s) (e.fin.sub e.start) ≠ V3.zeros → edgeIntegral e s gr = .ok (x ideal)) := by
  obtain ⟨t, ht, ⟨a, ha, ea⟩, b, hb, eb⟩ := edge_start_corner hh hp he
  have hm := List.mem_of_getElem? ht
  have hne := (edge_proper hh hp he).ne
  have hab : a ≠ b := by rintro rfl; exact hne (ea.trans eb.symm)
  obtain ⟨o1, o2, c1, c2, h1, h2⟩ := edgeIntegral_two e hne (by rw [ea]; exact hs.corners t hm a ha) (by rw [eb]; exact hs.corners t hm b hb)
    (by rw [ea, eb]; exact hs.edges t hm a b ha hb hab) gr
  have hr : edgeAt ideal e = e := by
    have h1 := polyAt_edgeAt (h := h) ideal p i j
    rw [polyAt_real hh hp, he, Option.map_some] at h1
    exact (Option.some.inj h1).symm
  have real : cross (e.start.sub s) (e.fin.sub e.start) ≠ V3.zeros → edgeIntegral e s gr = .ok (o1 ideal) ∧ o1 = o2 := by
    intro hx
    have := at_real h1
    rw [hr, ← h2 hx, or_self] at this
    exact ⟨this, h2 hx⟩
  rcases Ultrafilter.eventually_or.mp (h1.filter_mono hU) with k | k
  · exact ⟨o1, c1, k, fun hx => (real hx).1⟩
  · exact ⟨o2, c2, k, fun hx => (real hx).2 ▸ (real hx).1⟩

theorem edgeValue_ultra (hh : h.IsHull) (hp : mkPoly h inHull = .ok p) {s : V3 ℝ} (hs : h.Decided s) {U : Ultrafilter Setting} (hU : ↑U ≤ precise) {i j : Nat}
    {e : Edge ℝ} (he : p.edgeAt i j = some e) (gr : Bool) :
    ∃ x, ContP gr x ∧ (∀ᶠ A : Setting in (U : Filter Setting), @edgeValue ℝ A (polyAt A h p) (A.place s) gr i (edgeAt A e) = .ok (x A)) ∧
      (cross (e.start.sub s) (e.fin.sub e.start) ≠ V3.zeros → edgeValue p s gr i e = .ok (x ideal)) := by
  obtain ⟨f, hf, hfe⟩ := Option.bind_eq_some_iff.mp he
  obtain ⟨i', j', f', e', t1, t2, t3, -, -, -, -, t4, t5, -, -⟩ := C25_twins hh hp hf hfe
  have he' : p.edgeAt i' j' = some e' := by unfold Poly.edgeAt; rw [t2]; exact t3
  have u1 : ∀ A : Setting, (edgeAt A e).twin = some (i', j') := fun _ => t1
  have u2 : ∀ A : Setting, (polyAt A h p).edgeAt i' j' = some (edgeAt A e') := fun A => by rw [polyAt_edgeAt, he']; rfl
  simp only [edgeValue, u1, u2, t1, he']
  by_cases hlt : i' < i
  · simp only [if_pos hlt]
    obtain ⟨x, x1, x2, x3⟩ := edge_ultra hh hp hs hU he' gr
    refine ⟨fun A => @pairNeg ℝ A (x A), contP_neg x1, ?_, ?_⟩
    · filter_upwards [x2] with A a1
      rw [a1]; rfl
    · intro hx
      rw [x3 (by
        rw [t4, t5]
        intro h0
        apply hx
        have q : cross (e.start.sub s) (e.fin.sub e.start) = (cross (e.fin.sub s) (e.start.sub e.fin)).neg := by
          refine V3.ext' ?_ ?_ ?_ <;> simp <;> ring
        rw [q, h0]; refine V3.ext' ?_ ?_ ?_ <;> simp)]
      rfl
  · simp only [if_neg hlt]
    exact edge_ultra hh hp hs hU he gr

/-- if the station is on the line of an edge, it is in the plane of the face -/
theorem height_of_line {k : Nat} (hh : h.IsHull) (hp : mkPoly h inHull = .ok p) {f : Face ℝ} (hf : p.faces[k]? = some f) {s : V3 ℝ} {a b : V3 ℝ}
    (ha : a ∈ [f.pa, f.pb, f.pc]) (hb : b ∈ [f.pa, f.pb, f.pc]) (hne : a ≠ b) (hx : cross (a.sub s) (b.sub a) = V3.zeros) : f.height s = 0 := by
  obtain ⟨t, ht, hpts, hperm, hn, -, -⟩ := face_facts hh hp hf
  have hL : b.sub a ≠ V3.zeros := by
    intro h
    apply hne
    have hx := congrArg V3.x h
    have hy := congrArg V3.y h
    have hz := congrArg V3.z h
    simp at hx hy hz
    refine V3.ext' ?_ ?_ ?_ <;> linarith
  have o : ∀ v ∈ [f.pa, f.pb, f.pc], rdot f.un v = rdot f.un f.pa := by
    intro v hv
    have h1 := hn.ortho1
    have h2 := hn.ortho2
    rw [rdot_sub] at h1 h2
    simp only [List.mem_cons, List.not_mem_nil, or_false] at hv
    rcases hv with rfl | rfl | rfl <;> linarith
  have hc := collinear hL hx
  show rdot f.un (f.pa.sub s) = 0
  have e : rdot f.un (f.pa.sub s) = rdot f.un (a.sub s) := by rw [rdot_sub, rdot_sub, o a ha]
  have q : rdot f.un (b.sub a) = 0 := by rw [rdot_sub, o a ha, o b hb, sub_self]
  rw [e, hc, rdot_smul, q, mul_zero]

theorem field_zero (un : V3 ℝ) (ω : ℝ) (dω J : V3 ℝ) (dJ : M3 ℝ) (ρ Gc : ℝ) (gr : Bool) : (faceField un 0 ω dω J dJ ρ Gc gr).1 = V3.zeros := by
  cases gr <;> (unfold faceField; refine V3.ext' ?_ ?_ ?_ <;> simp)

/-- one face along an ultrafilter: its field converges to the exact one; its tensor too, if the station is on the line of no edge -/
theorem face_ultra (hh : h.IsHull) (hp : mkPoly h inHull = .ok p) {s : V3 ℝ} (hs : h.Decided s) {U : Ultrafilter Setting} (hU : ↑U ≤ precise) {k : Nat}
    {f : Face ℝ} (hf : p.faces[k]? = some f) (ρ Gc : ℝ) (gr : Bool) {g : V3 ℝ × M3 ℝ} (hg : faceValue p s ρ Gc gr k f = .ok g) :
    ∃ out, ContG out ∧ (∀ᶠ A : Setting in (U : Filter Setting), @faceValue ℝ A (polyAt A h p) (A.place s) (A.weigh ρ) (A.scale Gc) gr k (faceAt A h k f) = .ok (out A)) ∧
      (out ideal).1 = g.1 ∧ (h.OffLines s → out ideal = g) := by
  obtain ⟨t, ht, a, b, c, e0, e1, e2, hE, hperm, hpts, hh0, hh1, hh2⟩ := edges_of_hull hh hp hf
  have hm := List.mem_of_getElem? ht
  have hedge : ∀ (j : Nat) (e : Edge ℝ), [e0, e1, e2][j]? = some e → p.edgeAt k j = some e := by
    intro j e hj
    unfold Poly.edgeAt
    rw [hf, Option.bind_some, hE]
    exact hj
  obtain ⟨x0, c0, v0, r0⟩ := edgeValue_ultra hh hp hs hU (hedge 0 e0 rfl) gr
  obtain ⟨x1, c1, v1, r1⟩ := edgeValue_ultra hh hp hs hU (hedge 1 e1 rfl) gr
  obtain ⟨x2, c2, v2, r2⟩ := edgeValue_ultra hh hp hs hU (hedge 2 e2 rfl) gr
  obtain ⟨out, w, o1, o2, o3, o4⟩ := face_along_of hU hh hp hf (hs.face hh hp hf) ρ Gc hE c0 c1 c2 v0 v1 v2
  have all : cross (e0.start.sub s) (e0.fin.sub e0.start) ≠ V3.zeros → cross (e1.start.sub s) (e1.fin.sub e1.start) ≠ V3.zeros →
      cross (e2.start.sub s) (e2.fin.sub e2.start) ≠ V3.zeros → out ideal = g := by
    intro n0 n1 n2
    have : faceValue p s ρ Gc gr k f = .ok (out ideal) := by
      rw [o4]
      simp only [faceValue, o2, hE, edgesValue, r0 n0, r1 n1, r2 n2, fieldOfEdges, sumPqr, sumDpqr]
    exact Except.ok.inj (this.symm.trans hg)
  refine ⟨out, o1, o3, ?_, ?_⟩
  · by_cases hz : f.height s = 0
    · rw [o4, hz, field_zero]
      unfold faceValue at hg
      rcases h2 : edgesValue p s gr k f.edges with x | vs
      · simp only [o2, h2] at hg; cases hg
      simp only [o2, h2, fieldOfEdges] at hg
      rcases vs with _ | ⟨v, vs⟩
      · cases hg
      · rw [← Except.ok.inj hg, hz, field_zero]
    · have hp3 : [f.pa, f.pb, f.pc] = [h.pt a, h.pt b, h.pt c] := by
        unfold Face.pa Face.pb Face.pc; rw [hpts]; rfl
      have off : ∀ (j : Nat) (e : Edge ℝ), [e0, e1, e2][j]? = some e → e.start ∈ [f.pa, f.pb, f.pc] → e.fin ∈ [f.pa, f.pb, f.pc] →
          cross (e.start.sub s) (e.fin.sub e.start) ≠ V3.zeros := fun j e hj h1 h2 hx =>
        hz (height_of_line hh hp hf h1 h2 (edge_proper hh hp (hedge j e hj)).ne hx)
      rw [all (off 0 e0 rfl (by rw [hp3, hh0.1]; simp) (by rw [hp3, hh0.2]; simp)) (off 1 e1 rfl (by rw [hp3, hh1.1]; simp) (by rw [hp3, hh1.2]; simp))
        (off 2 e2 rfl (by rw [hp3, hh2.1]; simp) (by rw [hp3, hh2.2]; simp))]
  · intro ho
    have hco : ∀ i ∈ [a, b, c], Corner t i := by
      intro i hi
      have := hperm.subset hi
      simp only [List.mem_cons, List.not_mem_nil, or_false] at this
      exact this
    have off : ∀ (j : Nat) (e : Edge ℝ) (x y : Nat), [e0, e1, e2][j]? = some e → e.start = h.pt x → e.fin = h.pt y → x ∈ [a, b, c] → y ∈ [a, b, c] →
        cross (e.start.sub s) (e.fin.sub e.start) ≠ V3.zeros := by
      intro j e x y hj h1 h2 hx hy
      have hne := (edge_proper hh hp (hedge j e hj)).ne
      have hxy : x ≠ y := by rintro rfl; exact hne (h1.trans h2.symm)
      rw [h1, h2]
      exact ho t hm x y (hco x hx) (hco y hy) hxy
    exact all (off 0 e0 a b rfl hh0.1 hh0.2 (by simp) (by simp)) (off 1 e1 b c rfl hh1.1 hh1.2 (by simp) (by simp))
      (off 2 e2 c a rfl hh2.1 hh2.2 (by simp) (by simp))

theorem faces_ultra (hh : h.IsHull) (hp : mkPoly h inHull = .ok p) {s : V3 ℝ} (hs : h.Decided s) {U : Ultrafilter Setting} (hU : ↑U ≤ precise) (ρ Gc : ℝ)
    (gr : Bool) (fs : List (Face ℝ)) : ∀ (i : Nat), (∀ j f, fs[j]? = some f → p.faces[i + j]? = some f) →
    ∀ {G : Setting → V3 ℝ} {T : Setting → M3 ℝ} {T0 : M3 ℝ} {r : V3 ℝ × M3 ℝ}, ContV G → ContM T → (h.OffLines s → T ideal = T0) →
    facesValue p s ρ Gc gr i fs (G ideal) T0 = .ok r → ∃ out, ContG out ∧
    (∀ᶠ A : Setting in (U : Filter Setting), @facesValue ℝ A (polyAt A h p) (A.place s) (A.weigh ρ) (A.scale Gc) gr i (fs.mapIdx (fun j f => faceAt A h (i + j) f)) (G A) (T A) = .ok (out A)) ∧
      (out ideal).1 = r.1 ∧ (h.OffLines s → (out ideal).2 = r.2) := by
  induction fs with
  | nil =>
    intro i _ G T T0 r hG hT h0 hr
    refine ⟨fun A => (G A, T A), ⟨hG, hT⟩, Eventually.of_forall fun _ => rfl, ?_, ?_⟩
    · rw [← Except.ok.inj hr]
    · intro ho
      rw [← Except.ok.inj hr]
      exact h0 ho
  | cons f fs ih =>
    intro i hf G T T0 r hG hT h0 hr
    unfold facesValue at hr
    rcases hg : faceValue p s ρ Gc gr i f with x | g
    · rw [hg] at hr; cases hr
    rw [hg] at hr
    obtain ⟨out, o1, o2, o3, o4⟩ := face_ultra hh hp hs hU (hf 0 f rfl) ρ Gc gr hg
    obtain ⟨o, q1, q2, q3, q4⟩ := ih (i + 1) (fun j f' hj => by rw [show i + 1 + j = i + (j + 1) by omega]; exact hf (j + 1) f' hj)
      (G := fun A => @V3.add ℝ A (G A) (out A).1) (T := fun A => @M3.add ℝ A (T A) (out A).2) (T0 := T0.add g.2) (r := r) (contV_add hG o1.1) (contM_add hT o1.2)
      (fun ho => by rw [h0 ho, o4 ho]) (by rw [o3]; exact hr)
    refine ⟨o, q1, ?_, q3, q4⟩
    filter_upwards [o2, q2] with A a1 a2
    have : (f :: fs).mapIdx (fun j f => faceAt A h (i + j) f) = faceAt A h i f :: fs.mapIdx (fun j f => faceAt A h (i + 1 + j) f) := by
      rw [List.mapIdx_cons, Nat.add_zero]
      congr 1
      congr 1
      funext j g
      rw [show i + (j + 1) = i + 1 + j by omega]
    rw [this]
    unfold facesValue
    rw [Nat.add_zero] at a1
    rw [a1]
    exact a2

theorem onNew_ultra (hh : h.IsHull) (hp : mkPoly h inHull = .ok p) {s : V3 ℝ} (hs : h.Decided s) {U : Ultrafilter Setting} (hU : ↑U ≤ precise) {ρ Gc : ℝ}
    {gr : Bool} {G : V3 ℝ} {T : M3 ℝ} (hv : Call.onNew p ⟨s, ρ, Gc, gr⟩ = .ok (G, T)) :
    ∃ out, ContG out ∧ (∀ᶠ A : Setting in (U : Filter Setting), @Call.onNew ℝ A (polyAt A h p) ⟨A.place s, A.weigh ρ, A.scale Gc, gr⟩ = .ok (out A)) ∧
      (out ideal).1 = G ∧ (h.OffLines s → (out ideal).2 = T) := by
  rw [onNew_closed (wellTwinned_of_hull hh hp)] at hv
  obtain ⟨out, o1, o2, o3, o4⟩ := faces_ultra hh hp hs hU ρ Gc gr p.faces 0 (fun j f hj => by rw [Nat.zero_add]; exact hj) contV_zeros contM_zeros
    (fun _ => rfl) hv
  refine ⟨out, o1, ?_, o3, o4⟩
  filter_upwards [o2] with A a1
  rw [@onNew_closed ℝ A _ (wellTwinned_at A (wellTwinned_of_hull hh hp))]
  simp only [Nat.zero_add] at a1
  exact a1

end

end
end Geec
