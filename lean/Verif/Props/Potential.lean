import Verif.Lemmas.Potential
import Verif.Props.Accuracy
import Verif.Spec.Examples
/-
C84: the field is conservative, it is the gradient of Newton's potential.  C85: it is bounded and has no jumps, not even at the surface.
-/
namespace Geec
open Arith MeasureTheory Metric Set Filter Topology
noncomputable section
variable {h : Hull ℝ} {inHull : V3 ℝ → Bool} {p : Poly ℝ}

/-- **C84** The returned field is the gradient of `1e5 Gc ρ` times Newton's potential `∫_B dq / |q - s|`, at every regular station: outside, inside, on the surface. -/
theorem C84_gradient (hh : h.IsHull) (hp : mkPoly h inHull = .ok p) {s : V3 ℝ} (hs : h.Regular s) {ρ Gc : ℝ} {gr : Bool} {G : V3 ℝ} {T : M3 ℝ}
    (hv : Call.onNew p ⟨s, ρ, Gc, gr⟩ = .ok (G, T)) (d : V3 ℝ) :
    IntegrableOn (fun q => 1 / dist3 q s) h.body ∧
    HasDerivAt (fun x : ℝ => 100000 * Gc * ρ * ∫ q in h.body, 1 / dist3 q (s.add (V3.smul x d))) (rdot G d) 0 := by
  refine ⟨inv_integrable h.body_decent.meas h.body_decent.bdd s.toP, ?_⟩
  rw [(C16_newton hh hp hs hv).1]
  have := (potential_gradient h.body_decent s d).const_mul (100000 * Gc * ρ)
  refine this.congr_deriv ?_
  simp only [rdot, smul_x, smul_y, smul_z]; ring

/-- **C84** The work of the returned field along a segment of regular stations is the difference of the potentials of its ends. -/
theorem C84_work (hh : h.IsHull) (hp : mkPoly h inHull = .ok p) {ρ Gc : ℝ} (a b : V3 ℝ) {g : ℝ → V3 ℝ}
    (hg : ∀ t ∈ Icc (0 : ℝ) 1, h.Regular (a.add (V3.smul t (b.sub a))) ∧ ∃ gr T, Call.onNew p ⟨a.add (V3.smul t (b.sub a)), ρ, Gc, gr⟩ = .ok (g t, T)) :
    IntervalIntegrable (fun t => rdot (g t) (b.sub a)) volume 0 1 ∧
    ∫ t in (0 : ℝ)..1, rdot (g t) (b.sub a) = 100000 * Gc * ρ * ((∫ q in h.body, 1 / dist3 q b) - ∫ q in h.body, 1 / dist3 q a) := by
  have e : ∀ t ∈ Icc (0 : ℝ) 1, rdot (g t) (b.sub a) = 100000 * Gc * ρ * rdot (attraction h.body (a.add (V3.smul t (b.sub a)))) (b.sub a) := by
    intro t ht
    obtain ⟨h1, gr, T, h2⟩ := hg t ht
    rw [(C16_newton hh hp h1 h2).1]
    simp only [rdot, smul_x, smul_y, smul_z]; ring
  have hu : uIcc (0 : ℝ) 1 = Icc 0 1 := uIcc_of_le zero_le_one
  have hc : Continuous fun t : ℝ => (100000 * Gc * ρ) • rdot (attraction h.body (a.add (V3.smul t (b.sub a)))) (b.sub a) :=
    (attraction_continuous h.body_decent a (b.sub a) (b.sub a)).const_smul (100000 * Gc * ρ)
  constructor
  · refine (hc.intervalIntegrable 0 1).congr (fun t ht => ?_)
    have ht' : t ∈ Icc (0 : ℝ) 1 := by rw [uIoc_of_le zero_le_one] at ht; exact Ioc_subset_Icc_self ht
    rw [e t ht', smul_eq_mul]
  · rw [intervalIntegral.integral_congr (g := fun t => 100000 * Gc * ρ * rdot (attraction h.body (a.add (V3.smul t (b.sub a)))) (b.sub a)) (fun t ht => e t (hu ▸ ht)),
      intervalIntegral.integral_const_mul, attraction_work h.body_decent]
    have e1 : a.add (V3.smul 1 (b.sub a)) = b := by
      refine V3.ext' ?_ ?_ ?_ <;> simp
    have e0 : a.add (V3.smul 0 (b.sub a)) = a := by
      refine V3.ext' ?_ ?_ ?_ <;> simp
    rw [e1, e0]; rfl

/-- **C84** No work is done around a closed polygon of regular stations. -/
theorem C84_closed (hh : h.IsHull) (hp : mkPoly h inHull = .ok p) {ρ Gc : ℝ} (n : ℕ) (P : ℕ → V3 ℝ) (hclosed : P n = P 0) {g : ℕ → ℝ → V3 ℝ}
    (hg : ∀ k < n, ∀ t ∈ Icc (0 : ℝ) 1, h.Regular ((P k).add (V3.smul t ((P (k + 1)).sub (P k)))) ∧
      ∃ gr T, Call.onNew p ⟨(P k).add (V3.smul t ((P (k + 1)).sub (P k))), ρ, Gc, gr⟩ = .ok (g k t, T)) :
    ∑ k ∈ Finset.range n, ∫ t in (0 : ℝ)..1, rdot (g k t) ((P (k + 1)).sub (P k)) = 0 := by
  have : ∀ k ∈ Finset.range n, ∫ t in (0 : ℝ)..1, rdot (g k t) ((P (k + 1)).sub (P k)) =
      100000 * Gc * ρ * (∫ q in h.body, 1 / dist3 q (P (k + 1))) - 100000 * Gc * ρ * ∫ q in h.body, 1 / dist3 q (P k) := by
    intro k hk
    rw [(C84_work hh hp (P k) (P (k + 1)) (hg k (Finset.mem_range.mp hk))).2]; ring
  rw [Finset.sum_congr rfl this, Finset.sum_range_sub (fun k => 100000 * Gc * ρ * ∫ q in h.body, 1 / dist3 q (P k)), hclosed, sub_self]

/-- Riemann sums of a continuous function converge -/
theorem riemann_le {f : ℝ → ℝ} (hf : Continuous f) {ε : ℝ} (hε : 0 < ε) :
    ∃ N : ℕ, ∀ n : ℕ, N ≤ n → 0 < n → |1 / (n : ℝ) * (∑ k ∈ Finset.range n, f (k / n)) - ∫ t in (0 : ℝ)..1, f t| ≤ ε := by
  have huc := isCompact_Icc.uniformContinuousOn_of_continuous (s := Icc (0 : ℝ) 1) hf.continuousOn
  obtain ⟨δ, hδ, k⟩ := Metric.uniformContinuousOn_iff.mp huc ε hε
  obtain ⟨N, hN⟩ := exists_nat_gt (1 / δ)
  refine ⟨N, fun n hn hn0 => ?_⟩
  have hn0' : (0 : ℝ) < n := by exact_mod_cast hn0
  have hnδ : 1 / (n : ℝ) < δ := by
    have : 1 / δ < n := hN.trans_le (by exact_mod_cast hn)
    rw [div_lt_iff₀ hδ] at this
    rw [div_lt_iff₀ hn0']; linarith
  have hsum := intervalIntegral.sum_integral_adjacent_intervals (f := f) (μ := volume) (a := fun k : ℕ => (k : ℝ) / n) (n := n)
    (fun k _ => hf.intervalIntegrable _ _)
  have e1 : ((n : ℕ) : ℝ) / n = 1 := div_self hn0'.ne'
  simp only [Nat.cast_zero, zero_div, e1] at hsum
  rw [← hsum, Finset.mul_sum, ← Finset.sum_sub_distrib]
  calc _ ≤ ∑ k ∈ Finset.range n, |1 / (n : ℝ) * f (k / n) - ∫ t in ((k : ℕ) : ℝ) / n..((k + 1 : ℕ) : ℝ) / n, f t| := Finset.abs_sum_le_sum_abs _ _
    _ ≤ ∑ _k ∈ Finset.range n, ε * (1 / n) := by
      refine Finset.sum_le_sum fun j hj => ?_
      have hj' : (j : ℝ) + 1 ≤ n := by exact_mod_cast Finset.mem_range.mp hj
      have hstep : ((j + 1 : ℕ) : ℝ) / n - (j : ℝ) / n = 1 / n := by push_cast; ring
      have hle : (j : ℝ) / n ≤ ((j + 1 : ℕ) : ℝ) / n := by rw [← sub_nonneg, hstep]; positivity
      have hc : 1 / (n : ℝ) * f (j / n) = ∫ _t in (j : ℝ) / n..((j + 1 : ℕ) : ℝ) / n, f (j / n) := by
        rw [intervalIntegral.integral_const, hstep, smul_eq_mul]
      rw [hc, ← intervalIntegral.integral_sub (by simp) (hf.intervalIntegrable _ _), ← Real.norm_eq_abs]
      have := intervalIntegral.norm_integral_le_of_norm_le_const (a := (j : ℝ) / n) (b := ((j + 1 : ℕ) : ℝ) / n) (f := fun t => f (j / n) - f t) (C := ε) ?_
      · rwa [hstep, abs_of_pos (by positivity)] at this
      intro t ht
      rw [uIoc_of_le hle] at ht
      have hup : ((j + 1 : ℕ) : ℝ) / n ≤ 1 := by rw [div_le_one hn0']; push_cast; exact hj'
      have hlo : 0 ≤ (j : ℝ) / n := by positivity
      have := k ((j : ℝ) / n) ⟨hlo, hle.trans hup⟩ t ⟨hlo.trans ht.1.le, ht.2.trans hup⟩ (by
        rw [Real.dist_eq, abs_lt]
        constructor
        · linarith [ht.2]
        · linarith [ht.1])
      rw [Real.dist_eq] at this
      exact this.le
    _ = ε := by rw [Finset.sum_const, Finset.card_range, nsmul_eq_mul]; field_simp

/-- **C84** Along a segment that passes through the regions where the special cases of the code misfire (it may cross face planes and the surface), the work, computed
from the fields at `n` stations that divide the segment, is for large `n` the difference of the potentials, up to the length times the error of C72. -/
theorem C84_work_error (hh : h.IsHull) (hp : mkPoly h inHull = .ok p) {ρ Gc D : ℝ} (a b : V3 ℝ) {g : ℝ → V3 ℝ}
    (hg : ∀ t ∈ Icc (0 : ℝ) 1, h.Ordinary (a.add (V3.smul t (b.sub a))) D ∧ ∃ gr T, Call.onNew p ⟨a.add (V3.smul t (b.sub a)), ρ, Gc, gr⟩ = .ok (g t, T))
    {ε : ℝ} (hε : 0 < ε) : ∃ N : ℕ, ∀ n : ℕ, N ≤ n → 0 < n →
    |1 / (n : ℝ) * (∑ k ∈ Finset.range n, rdot (g (k / n)) (b.sub a)) - 100000 * Gc * ρ * ((∫ q in h.body, 1 / dist3 q b) - ∫ q in h.body, 1 / dist3 q a)| ≤
      |100000 * Gc * ρ| * h.simplices.length * (2 * Real.pi * repsilon + 3 * tubeError D) * vlen (b.sub a) + ε := by
  set f : ℝ → ℝ := fun t => (100000 * Gc * ρ) • rdot (attraction h.body (a.add (V3.smul t (b.sub a)))) (b.sub a) with hf
  have hc : Continuous f := (attraction_continuous h.body_decent a (b.sub a) (b.sub a)).const_smul (100000 * Gc * ρ)
  have e1 : a.add (V3.smul 1 (b.sub a)) = b := by refine V3.ext' ?_ ?_ ?_ <;> simp
  have e0 : a.add (V3.smul 0 (b.sub a)) = a := by refine V3.ext' ?_ ?_ ?_ <;> simp
  have hw : 100000 * Gc * ρ * ((∫ q in h.body, 1 / dist3 q b) - ∫ q in h.body, 1 / dist3 q a) = ∫ t in (0 : ℝ)..1, f t := by
    simp only [hf, smul_eq_mul]
    rw [intervalIntegral.integral_const_mul, attraction_work h.body_decent, e1, e0]; rfl
  obtain ⟨N, hN⟩ := riemann_le hc hε
  refine ⟨N, fun n hn hn0 => ?_⟩
  have hr := hN n hn hn0
  have hn0' : (0 : ℝ) < n := by exact_mod_cast hn0
  rw [hw]
  set E := |100000 * Gc * ρ| * h.simplices.length * (2 * Real.pi * repsilon + 3 * tubeError D) * vlen (b.sub a) with hE
  have hpt : ∀ k ∈ Finset.range n, |rdot (g (k / n)) (b.sub a) - f (k / n)| ≤ E := by
    intro k hk
    have hk' : (k : ℝ) ≤ n := by exact_mod_cast (Finset.mem_range.mp hk).le
    obtain ⟨h1, gr, T, h2⟩ := hg (k / n) ⟨by positivity, by rwa [div_le_one hn0']⟩
    have hb := C72_error hh hp h1 h2
    have : rdot (g (k / n)) (b.sub a) - f (k / n) =
        rdot ((g (k / n)).sub (V3.smul (100000 * Gc * ρ) (attraction h.body (a.add (V3.smul (k / n) (b.sub a)))))) (b.sub a) := by
      simp only [hf, rdot, sub_x, sub_y, sub_z, smul_x, smul_y, smul_z, smul_eq_mul]; ring
    rw [this]
    exact (abs_rdot_le _ _).trans (mul_le_mul_of_nonneg_right hb (vlen_nonneg _))
  have hsum : |1 / (n : ℝ) * (∑ k ∈ Finset.range n, rdot (g (k / n)) (b.sub a)) - 1 / (n : ℝ) * (∑ k ∈ Finset.range n, f (k / n))| ≤ E := by
    rw [← mul_sub, ← Finset.sum_sub_distrib, abs_mul, abs_of_pos (show 0 < 1 / (n : ℝ) by positivity)]
    calc _ ≤ 1 / (n : ℝ) * ∑ k ∈ Finset.range n, E := by
          gcongr
          exact (Finset.abs_sum_le_sum_abs _ _).trans (Finset.sum_le_sum hpt)
      _ = E := by rw [Finset.sum_const, Finset.card_range, nsmul_eq_mul]; field_simp
  have := abs_sub_le (1 / (n : ℝ) * (∑ k ∈ Finset.range n, rdot (g (k / n)) (b.sub a))) (1 / (n : ℝ) * (∑ k ∈ Finset.range n, f (k / n))) (∫ t in (0 : ℝ)..1, f t)
  linarith

/-! ### C85 -/

theorem attraction_nhds {B : Set P3} (hB : Decent B) (s e : V3 ℝ) {ε : ℝ} (hε : 0 < ε) :
    ∃ δ > 0, ∀ s' : V3 ℝ, |s'.x - s.x| < δ → |s'.y - s.y| < δ → |s'.z - s.z| < δ → |rdot (attraction B s') e - rdot (attraction B s) e| < ε := by
  have hc := (kernel_continuous hB (pull_meas e.toP) (pull_le e.toP)).continuousAt (x := s.toP)
  rw [Metric.continuousAt_iff] at hc
  obtain ⟨δ, hδ, k⟩ := hc ε hε
  refine ⟨δ, hδ, fun s' h1 h2 h3 => ?_⟩
  have := k (x := s'.toP) (by rw [Prod.dist_eq, Prod.dist_eq]; exact max_lt h1 (max_lt h2 h3))
  rw [Real.dist_eq] at this
  rwa [rdot_attraction hB, rdot_attraction hB]

/-- **C85** The field has no jumps: near any point of space, also on the surface or at a corner, where the field itself need not be returned, the fields returned at
regular stations differ arbitrarily little. -/
theorem C85_continuous (hh : h.IsHull) (hp : mkPoly h inHull = .ok p) (c : V3 ℝ) (ρ Gc : ℝ) {ε : ℝ} (hε : 0 < ε) :
    ∃ δ > 0, ∀ s s' : V3 ℝ, vlen (s.sub c) < δ → vlen (s'.sub c) < δ → h.Regular s → h.Regular s' → ∀ gr gr' G G' T T',
      Call.onNew p ⟨s, ρ, Gc, gr⟩ = .ok (G, T) → Call.onNew p ⟨s', ρ, Gc, gr'⟩ = .ok (G', T') →
      |G.x - G'.x| ≤ ε ∧ |G.y - G'.y| ≤ ε ∧ |G.z - G'.z| ≤ ε := by
  set K := 100000 * Gc * ρ with hK
  have hpos : 0 < ε / (2 * (|K| + 1)) := by positivity
  obtain ⟨δ1, hδ1, k1⟩ := attraction_nhds h.body_decent c ⟨1, 0, 0⟩ hpos
  obtain ⟨δ2, hδ2, k2⟩ := attraction_nhds h.body_decent c ⟨0, 1, 0⟩ hpos
  obtain ⟨δ3, hδ3, k3⟩ := attraction_nhds h.body_decent c ⟨0, 0, 1⟩ hpos
  refine ⟨min δ1 (min δ2 δ3), lt_min hδ1 (lt_min hδ2 hδ3), ?_⟩
  intro s s' hs hs' hr hr' gr gr' G G' T T' hv hv'
  have comp : ∀ s : V3 ℝ, vlen (s.sub c) < min δ1 (min δ2 δ3) → ∀ e ∈ [(⟨1, 0, 0⟩ : V3 ℝ), ⟨0, 1, 0⟩, ⟨0, 0, 1⟩],
      |rdot (attraction h.body s) e - rdot (attraction h.body c) e| < ε / (2 * (|K| + 1)) := by
    intro s hs
    have hx : |s.x - c.x| ≤ vlen (s.sub c) := Real.abs_le_sqrt (by simp only [rdot, sub_x, sub_y, sub_z]; nlinarith [sq_nonneg (s.y - c.y), sq_nonneg (s.z - c.z)])
    have hy : |s.y - c.y| ≤ vlen (s.sub c) := Real.abs_le_sqrt (by simp only [rdot, sub_x, sub_y, sub_z]; nlinarith [sq_nonneg (s.x - c.x), sq_nonneg (s.z - c.z)])
    have hz : |s.z - c.z| ≤ vlen (s.sub c) := Real.abs_le_sqrt (by simp only [rdot, sub_x, sub_y, sub_z]; nlinarith [sq_nonneg (s.y - c.y), sq_nonneg (s.x - c.x)])
    have m1 := min_le_left δ1 (min δ2 δ3)
    have m2 := (min_le_right δ1 (min δ2 δ3)).trans (min_le_left δ2 δ3)
    have m3 := (min_le_right δ1 (min δ2 δ3)).trans (min_le_right δ2 δ3)
    intro e he
    simp only [List.mem_cons, List.not_mem_nil, or_false] at he
    rcases he with rfl | rfl | rfl
    · exact k1 s (by linarith) (by linarith) (by linarith)
    · exact k2 s (by linarith) (by linarith) (by linarith)
    · exact k3 s (by linarith) (by linarith) (by linarith)
  have key : ∀ e ∈ [(⟨1, 0, 0⟩ : V3 ℝ), ⟨0, 1, 0⟩, ⟨0, 0, 1⟩], |K * rdot (attraction h.body s) e - K * rdot (attraction h.body s') e| ≤ ε := by
    intro e he
    have c1 := comp s hs e he
    have c2 := comp s' hs' e he
    have hd : |rdot (attraction h.body s) e - rdot (attraction h.body s') e| ≤ ε / (|K| + 1) := by
      have := abs_sub_le (rdot (attraction h.body s) e) (rdot (attraction h.body c) e) (rdot (attraction h.body s') e)
      rw [abs_sub_comm (rdot (attraction h.body c) e)] at this
      have e2 : ε / (|K| + 1) = ε / (2 * (|K| + 1)) + ε / (2 * (|K| + 1)) := by field_simp; ring
      linarith
    rw [← mul_sub, abs_mul]
    have hK0 := abs_nonneg K
    calc |K| * |rdot (attraction h.body s) e - rdot (attraction h.body s') e| ≤ (|K| + 1) * (ε / (|K| + 1)) := by gcongr; linarith
      _ = ε := by field_simp
  rw [(C16_newton hh hp hr hv).1, (C16_newton hh hp hr' hv').1, ← hK]
  refine ⟨?_, ?_, ?_⟩
  · have := key ⟨1, 0, 0⟩ (by simp); simpa [rdot] using this
  · have := key ⟨0, 1, 0⟩ (by simp); simpa [rdot] using this
  · have := key ⟨0, 0, 1⟩ (by simp); simpa [rdot] using this

theorem rad_toV (s : V3 ℝ) (q : P3) : vlen ((P3.toV q).sub s) = rad (q - s.toP) := by
  unfold vlen rad
  congr 1
  simp only [rdot, P3.toV, V3.toP, sub_x, sub_y, sub_z, Prod.fst_sub, Prod.snd_sub]; ring

/-- the weight over the ball of radius `r` -/
theorem wt_ball_integral {r : ℝ} (hr : 0 ≤ r) : ∫ y in ball (0 : P3) r, wt y = 24 * r := by
  have h3 : Module.finrank ℝ P3 = 3 := by simp [P3]
  have e : ∀ y : P3, (ball (0 : P3) r).indicator wt y = (fun t : ℝ => if t < r then 1 / t ^ 2 else 0) ‖y‖ := by
    intro y
    by_cases hy : ‖y‖ < r
    · rw [indicator_of_mem (by rwa [mem_ball_zero_iff])]; simp [hy, wt]
    · rw [indicator_of_notMem (by rwa [mem_ball_zero_iff])]; simp [hy]
  rw [← integral_indicator measurableSet_ball]
  simp only [e]
  rw [integral_fun_norm_addHaar (volume : Measure P3) (fun t : ℝ => if t < r then 1 / t ^ 2 else 0), h3]
  have hball : volume.real (ball (0 : P3) 1) = 8 := by
    have : ball (0 : P3) 1 = ball (0 : ℝ) 1 ×ˢ (ball (0 : ℝ) 1 ×ˢ ball (0 : ℝ) 1) := by
      rw [ball_prod_same, ball_prod_same]; rfl
    rw [measureReal_def, this, Measure.volume_eq_prod, Measure.prod_prod, Measure.volume_eq_prod, Measure.prod_prod, Real.volume_ball]
    norm_num
  have hint : ∫ t in Ioi (0 : ℝ), t ^ (3 - 1) • (if t < r then 1 / t ^ 2 else 0) = r := by
    have : ∀ t ∈ Ioi (0 : ℝ), t ^ (3 - 1) • (if t < r then 1 / t ^ 2 else 0) = (Ioo 0 r).indicator (fun _ => (1 : ℝ)) t := by
      intro t ht
      have h0 : t ≠ 0 := ne_of_gt ht
      by_cases htr : t < r
      · rw [if_pos htr, indicator_of_mem (show t ∈ Ioo 0 r from ⟨ht, htr⟩), smul_eq_mul]; field_simp
      · rw [if_neg htr, indicator_of_notMem (fun h => htr h.2), smul_zero]
    rw [setIntegral_congr_fun measurableSet_Ioi this, setIntegral_indicator measurableSet_Ioo,
      show Ioi (0 : ℝ) ∩ Ioo 0 r = Ioo 0 r from inter_eq_right.mpr fun t ht => ht.1, setIntegral_const, smul_eq_mul, mul_one, measureReal_def, Real.volume_Ioo]
    simp [hr]
  rw [hint, hball]
  simp
  ring

/-- **C85** The field is bounded, by the volume of the body only: at every regular station, also inside the body and on its surface. -/
theorem C85_bounded (hh : h.IsHull) (hp : mkPoly h inHull = .ok p) {s : V3 ℝ} (hs : h.Regular s) {ρ Gc : ℝ} {gr : Bool} {G : V3 ℝ} {T : M3 ℝ}
    (hv : Call.onNew p ⟨s, ρ, Gc, gr⟩ = .ok (G, T)) {r : ℝ} (hr : 0 < r) :
    vlen G ≤ |100000 * Gc * ρ| * (24 * r + (volume h.body).toReal / r ^ 2) := by
  have hm := h.body_decent.meas
  have hfin : volume h.body ≠ ⊤ := h.body_compact.measure_ne_top
  set K := 100000 * Gc * ρ with hK
  have hnew : rdot G G = K * ∫ q in h.body, pull G.toP (q - s.toP) := by
    rw [← rdot_attraction h.body_decent]
    conv_lhs => arg 1; rw [(C16_newton hh hp hs hv).1]
    simp only [rdot, smul_x, smul_y, smul_z]; ring
  have hle : ∀ y : P3, |pull G.toP y| ≤ vlen G * wt y := by
    intro y
    by_cases hy : y = 0
    · subst hy; simp [pull, wt]
    have hr0 := rad_pos hy
    have hn : 0 < ‖y‖ := norm_pos_iff.mpr hy
    have hcs : |y.1 * G.toP.1 + y.2.1 * G.toP.2.1 + y.2.2 * G.toP.2.2| ≤ rad y * vlen G := by
      have := abs_rdot_le (P3.toV y) G
      have e : vlen (P3.toV y) = rad y := by
        unfold vlen rad; congr 1; simp only [rdot, P3.toV]; ring
      rw [e] at this
      exact this
    have hG := vlen_nonneg G
    unfold pull wt
    rw [abs_div, abs_of_pos (pow_pos hr0 3)]
    calc _ ≤ rad y * vlen G / rad y ^ 3 := by gcongr
      _ = vlen G * (1 / rad y ^ 2) := by field_simp
      _ ≤ vlen G * (1 / ‖y‖ ^ 2) := by have := norm_le_rad y; gcongr
  have hb : |∫ q in h.body, pull G.toP (q - s.toP)| ≤ vlen G * (24 * r + (volume h.body).toReal / r ^ 2) := by
    have hball : MeasurableSet (ball (0 : P3) r) := measurableSet_ball
    have i1 : Integrable ((ball (0 : P3) r).indicator wt) := (integrable_indicator_iff hball).mpr (wt_ball r)
    have i1' : IntegrableOn (fun q => (ball (0 : P3) r).indicator wt (q - s.toP)) h.body := (i1.comp_sub_right s.toP).integrableOn
    have i2 : IntegrableOn (fun _ : P3 => 1 / r ^ 2) h.body := integrableOn_const hfin
    have hpt : ∀ q : P3, ‖pull G.toP (q - s.toP)‖ ≤ vlen G * ((ball (0 : P3) r).indicator wt (q - s.toP) + 1 / r ^ 2) := by
      intro q
      refine (hle _).trans (mul_le_mul_of_nonneg_left ?_ (vlen_nonneg G))
      by_cases hq : q - s.toP ∈ ball (0 : P3) r
      · rw [indicator_of_mem hq]; have : 0 ≤ 1 / r ^ 2 := by positivity
        linarith
      · rw [indicator_of_notMem hq, zero_add]
        have : r ≤ ‖q - s.toP‖ := by rw [mem_ball_zero_iff, not_lt] at hq; exact hq
        unfold wt
        gcongr
    have h1 : ‖∫ q in h.body, pull G.toP (q - s.toP)‖ ≤ ∫ q in h.body, vlen G * ((ball (0 : P3) r).indicator wt (q - s.toP) + 1 / r ^ 2) :=
      norm_integral_le_of_norm_le ((i1'.add i2).const_mul _) (Eventually.of_forall hpt)
    rw [integral_const_mul, integral_add i1' i2, setIntegral_const] at h1
    have h2 : ∫ q in h.body, (ball (0 : P3) r).indicator wt (q - s.toP) ≤ 24 * r := by
      calc _ ≤ ∫ q, (ball (0 : P3) r).indicator wt (q - s.toP) :=
            setIntegral_le_integral (i1.comp_sub_right s.toP) (Eventually.of_forall fun q => indicator_nonneg (fun y _ => wt_nonneg y) _)
        _ = ∫ q, (ball (0 : P3) r).indicator wt q := integral_sub_right_eq_self _ _
        _ = 24 * r := by rw [integral_indicator hball, wt_ball_integral hr.le]
    rw [Real.norm_eq_abs] at h1
    refine h1.trans (mul_le_mul_of_nonneg_left ?_ (vlen_nonneg G))
    rw [smul_eq_mul, mul_one_div, measureReal_def]
    linarith
  rcases eq_or_lt_of_le (vlen_nonneg G) with h0 | h0
  · rw [← h0]; positivity
  · have : vlen G * vlen G ≤ vlen G * (|K| * (24 * r + (volume h.body).toReal / r ^ 2)) := by
      rw [vlen_sq, hnew]
      calc _ ≤ |K * ∫ q in h.body, pull G.toP (q - s.toP)| := le_abs_self _
        _ = |K| * |∫ q in h.body, pull G.toP (q - s.toP)| := abs_mul _ _
        _ ≤ |K| * (vlen G * (24 * r + (volume h.body).toReal / r ^ 2)) := mul_le_mul_of_nonneg_left hb (abs_nonneg _)
        _ = _ := by ring
    exact le_of_mul_le_mul_left this h0

/-! ### cases -/

/-- every station of the box [2,3] × [3,4] × [5,6] is regular -/
theorem tetra_regular_box {x y z : ℝ} (hx : 2 ≤ x ∧ x ≤ 3) (hy : 3 ≤ y ∧ y ≤ 4) (hz : 5 ≤ z ∧ z ≤ 6) : tetra.Regular ⟨x, y, z⟩ := by
  obtain ⟨x0, x1⟩ := hx
  obtain ⟨y0, y1⟩ := hy
  obtain ⟨z0, z1⟩ := hz
  have q1 : x * x ≤ 9 := by nlinarith
  have q2 : y * y ≤ 16 := by nlinarith
  have q3 : z * z ≤ 36 := by nlinarith
  have p1 : 4 ≤ x * x := by nlinarith
  have p2 : 9 ≤ y * y := by nlinarith
  have p3 : 25 ≤ z * z := by nlinarith
  apply tetra_regular
  · intro a b ha hb hne
    apply clearOf_bounds <;> interval_cases a <;> interval_cases b <;> first | exact absurd rfl hne | skip
    all_goals simp only [rdot, cross_x, cross_y, cross_z, sub_x, sub_y, sub_z, tetra_pt0, tetra_pt1, tetra_pt2, tetra_pt3]
    all_goals linarith [mul_self_nonneg (1 - x - y), mul_self_nonneg (1 - x - z), mul_self_nonneg (1 - y - z)]
  · rw [abs_of_pos (by linarith)]; linarith
  · rw [abs_of_pos (by linarith)]; linarith
  · rw [abs_of_pos (by linarith)]; linarith
  · rw [abs_of_neg (by linarith)]; linarith

/-- a triangle of stations in the box -/
def loop3 : ℕ → V3 ℝ
  | 1 => ⟨3, 3, 5⟩
  | 2 => ⟨2, 4, 6⟩
  | _ => ⟨2, 3, 5⟩

theorem loop3_box {k : ℕ} (hk : k < 3) {t : ℝ} (ht : t ∈ Icc (0 : ℝ) 1) : tetra.Regular ((loop3 k).add (V3.smul t ((loop3 (k + 1)).sub (loop3 k)))) ∧
    ∀ i, i < 4 → tetra.pt i ≠ (loop3 k).add (V3.smul t ((loop3 (k + 1)).sub (loop3 k))) := by
  obtain ⟨t0, t1⟩ := ht
  have h : ∃ x y z, (loop3 k).add (V3.smul t ((loop3 (k + 1)).sub (loop3 k))) = ⟨x, y, z⟩ ∧ (2 ≤ x ∧ x ≤ 3) ∧ (3 ≤ y ∧ y ≤ 4) ∧ (5 ≤ z ∧ z ≤ 6) := by
    refine ⟨_, _, _, rfl, ?_⟩
    interval_cases k
    · show (2 ≤ 2 + t * (3 - 2) ∧ 2 + t * (3 - 2) ≤ 3) ∧ (3 ≤ 3 + t * (3 - 3) ∧ 3 + t * (3 - 3) ≤ 4) ∧ (5 ≤ 5 + t * (5 - 5) ∧ 5 + t * (5 - 5) ≤ (6 : ℝ))
      refine ⟨⟨?_, ?_⟩, ⟨?_, ?_⟩, ?_, ?_⟩ <;> linarith
    · show (2 ≤ 3 + t * (2 - 3) ∧ 3 + t * (2 - 3) ≤ 3) ∧ (3 ≤ 3 + t * (4 - 3) ∧ 3 + t * (4 - 3) ≤ 4) ∧ (5 ≤ 5 + t * (6 - 5) ∧ 5 + t * (6 - 5) ≤ (6 : ℝ))
      refine ⟨⟨?_, ?_⟩, ⟨?_, ?_⟩, ?_, ?_⟩ <;> linarith
    · show (2 ≤ 2 + t * (2 - 2) ∧ 2 + t * (2 - 2) ≤ 3) ∧ (3 ≤ 4 + t * (3 - 4) ∧ 4 + t * (3 - 4) ≤ 4) ∧ (5 ≤ 6 + t * (5 - 6) ∧ 6 + t * (5 - 6) ≤ (6 : ℝ))
      refine ⟨⟨?_, ?_⟩, ⟨?_, ?_⟩, ?_, ?_⟩ <;> linarith
  obtain ⟨x, y, z, e, hx, hy, hz⟩ := h
  rw [e]
  refine ⟨tetra_regular_box hx hy hz, fun i hi he => ?_⟩
  have hx' := congrArg V3.x he
  interval_cases i <;> simp only [tetra_pt0, tetra_pt1, tetra_pt2, tetra_pt3] at hx' <;> linarith [hx.1]

/-- C84: once around the triangle (the hypotheses of `C84_closed` and `C84_work` are met) -/
example : ∃ p, mkPoly tetra (fun _ => true) = .ok p ∧ ∃ g : ℕ → ℝ → V3 ℝ,
    (∀ k < 3, ∀ t ∈ Icc (0 : ℝ) 1, ∃ T, Call.onNew p ⟨(loop3 k).add (V3.smul t ((loop3 (k + 1)).sub (loop3 k))), 2670, 1, false⟩ = .ok (g k t, T)) ∧
    ∑ k ∈ Finset.range 3, ∫ t in (0 : ℝ)..1, rdot (g k t) ((loop3 (k + 1)).sub (loop3 k)) = 0 := by
  obtain ⟨p, hp⟩ := hull_mkPoly_ok tetra_isHull (fun _ => true)
  have ex : ∀ (k : ℕ) (t : ℝ), ∃ G, k < 3 → t ∈ Icc (0 : ℝ) 1 → ∃ T, Call.onNew p ⟨(loop3 k).add (V3.smul t ((loop3 (k + 1)).sub (loop3 k))), 2670, 1, false⟩ = .ok (G, T) := by
    intro k t
    by_cases h : k < 3 ∧ t ∈ Icc (0 : ℝ) 1
    · obtain ⟨G, T, hv⟩ := C22_total tetra_isHull hp (fun s hs i hi => (loop3_box h.1 h.2).2 i (tetra_isHull.cornerIndex s hs i hi)) 2670 1
      exact ⟨G, fun _ _ => ⟨T, hv⟩⟩
    · exact ⟨V3.zeros, fun h1 h2 => absurd ⟨h1, h2⟩ h⟩
  choose g hg using ex
  refine ⟨p, hp, g, fun k hk t ht => hg k t hk ht, ?_⟩
  refine C84_closed (ρ := 2670) (Gc := 1) tetra_isHull hp 3 loop3 rfl fun k hk t ht => ⟨(loop3_box hk ht).1, false, ?_⟩
  exact hg k t hk ht

/-- C84: at a station inside, and on an edge -/
example : ∃ p G T, mkPoly tetra (fun _ => true) = .ok p ∧ Call.onNew p ⟨⟨1 / 2, 0, 0⟩, 2670, 1, false⟩ = .ok (G, T) ∧
    HasDerivAt (fun x : ℝ => 100000 * 1 * 2670 * ∫ q in tetra.body, 1 / dist3 q ((⟨1 / 2, 0, 0⟩ : V3 ℝ).add (V3.smul x ⟨0, 0, 1⟩))) (rdot G ⟨0, 0, 1⟩) 0 ∧
    ∀ r, 0 < r → vlen G ≤ |100000 * 1 * 2670| * (24 * r + (volume tetra.body).toReal / r ^ 2) := by
  obtain ⟨p, hp⟩ := hull_mkPoly_ok tetra_isHull (fun _ => true)
  obtain ⟨G, T, hv⟩ := C22_total (obs := ⟨1 / 2, 0, 0⟩) tetra_isHull hp (fun s hs i hi => by
    have h4 : i < 4 := tetra_isHull.cornerIndex s hs i hi
    intro he
    have hx := congrArg V3.x he
    interval_cases i <;> simp only [tetra_pt0, tetra_pt1, tetra_pt2, tetra_pt3] at hx <;> norm_num at hx) 2670 1
  exact ⟨p, G, T, hp, hv, (C84_gradient tetra_isHull hp tetra_regular_edge hv _).2, fun r hr => C85_bounded tetra_isHull hp tetra_regular_edge hv hr⟩

/-- the stations on the vertical line through (1/4, 1/8), from the inside of the tetrahedron through its lower face to the outside, are ordinary -/
theorem tetra_ordinary_line {z : ℝ} (hz : -1 ≤ z ∧ z ≤ 1 / 4) : tetra.Ordinary ⟨1 / 4, 1 / 8, z⟩ 1000000 := by
  obtain ⟨z0, z1⟩ := hz
  have q : z * z ≤ 1 := by nlinarith
  intro t ht i j hi hj hij
  have h4 : i < 4 := tetra_isHull.cornerIndex t ht i hi
  have h4' : j < 4 := tetra_isHull.cornerIndex t ht j hj
  have e3 : repsilon < 1 / 8 := by unfold repsilon; norm_num
  have hlen : 1 ≤ vlen ((tetra.pt j).sub (tetra.pt i)) ∧ vlen ((tetra.pt j).sub (tetra.pt i)) ≤ 2 := by
    unfold vlen
    constructor
    · apply Real.le_sqrt_of_sq_le
      interval_cases i <;> interval_cases j <;> first | exact absurd rfl hij | skip
      all_goals simp only [rdot, sub_x, sub_y, sub_z, tetra_pt0, tetra_pt1, tetra_pt2, tetra_pt3]; norm_num
    · rw [Real.sqrt_le_left (by norm_num)]
      interval_cases i <;> interval_cases j <;> first | exact absurd rfl hij | skip
      all_goals simp only [rdot, sub_x, sub_y, sub_z, tetra_pt0, tetra_pt1, tetra_pt2, tetra_pt3]; norm_num
  have hdist : 1 / 8 ≤ vlen ((tetra.pt i).sub ⟨1 / 4, 1 / 8, z⟩) ∧ vlen ((tetra.pt i).sub ⟨1 / 4, 1 / 8, z⟩) ≤ 10 := by
    unfold vlen
    constructor
    · apply Real.le_sqrt_of_sq_le
      interval_cases i <;> simp only [rdot, sub_x, sub_y, sub_z, tetra_pt0, tetra_pt1, tetra_pt2, tetra_pt3] <;> nlinarith [mul_self_nonneg z, mul_self_nonneg (1 - z)]
    · rw [Real.sqrt_le_left (by norm_num)]
      interval_cases i <;> simp only [rdot, sub_x, sub_y, sub_z, tetra_pt0, tetra_pt1, tetra_pt2, tetra_pt3] <;> nlinarith [mul_self_nonneg z, mul_self_nonneg (1 - z)]
  refine ⟨by linarith [hdist.1], by linarith [hdist.2, hlen.2], ClearOf.ne_eps (fun he => ?_) ?_⟩
  · have h1 := hlen.1
    rw [he] at h1
    have h0 : vlen ((tetra.pt j).sub (tetra.pt j)) = 0 := by simp [vlen, rdot]
    linarith
  apply clearOf_bounds <;> interval_cases i <;> interval_cases j <;> first | exact absurd rfl hij | skip
  all_goals simp only [rdot, cross_x, cross_y, cross_z, sub_x, sub_y, sub_z, tetra_pt0, tetra_pt1, tetra_pt2, tetra_pt3]
  all_goals linarith [mul_self_nonneg z, mul_self_nonneg (1 - 1 / 4 - z), mul_self_nonneg (1 - 1 / 8 - z)]

/-- C84 with error: down through the lower face (the hypotheses of `C84_work_error` are met by the returned values) -/
example : ∃ p, mkPoly tetra (fun _ => true) = .ok p ∧ ∃ g : ℝ → V3 ℝ, ∀ t ∈ Icc (0 : ℝ) 1,
    tetra.Ordinary ((⟨1 / 4, 1 / 8, 1 / 4⟩ : V3 ℝ).add (V3.smul t ((⟨1 / 4, 1 / 8, -1⟩ : V3 ℝ).sub ⟨1 / 4, 1 / 8, 1 / 4⟩))) 1000000 ∧
    ∃ gr T, Call.onNew p ⟨(⟨1 / 4, 1 / 8, 1 / 4⟩ : V3 ℝ).add (V3.smul t ((⟨1 / 4, 1 / 8, -1⟩ : V3 ℝ).sub ⟨1 / 4, 1 / 8, 1 / 4⟩)), 2670, 1, gr⟩ = .ok (g t, T) := by
  obtain ⟨p, hp⟩ := hull_mkPoly_ok tetra_isHull (fun _ => true)
  have el : ∀ t : ℝ, (⟨1 / 4, 1 / 8, 1 / 4⟩ : V3 ℝ).add (V3.smul t ((⟨1 / 4, 1 / 8, -1⟩ : V3 ℝ).sub ⟨1 / 4, 1 / 8, 1 / 4⟩)) = ⟨1 / 4, 1 / 8, 1 / 4 - 5 / 4 * t⟩ := by
    intro t
    refine V3.ext' ?_ ?_ ?_ <;> simp <;> ring
  have ex : ∀ t : ℝ, ∃ G, ∃ T, Call.onNew p ⟨⟨1 / 4, 1 / 8, 1 / 4 - 5 / 4 * t⟩, 2670, 1, false⟩ = .ok (G, T) := by
    intro t
    refine C22_total tetra_isHull hp (fun s hs i hi => ?_) 2670 1
    have h4 : i < 4 := tetra_isHull.cornerIndex s hs i hi
    intro he
    have hy := congrArg V3.y he
    interval_cases i <;> simp only [tetra_pt0, tetra_pt1, tetra_pt2, tetra_pt3] at hy <;> norm_num at hy
  choose g T hg using ex
  refine ⟨p, hp, g, fun t ht => ?_⟩
  rw [el]
  exact ⟨tetra_ordinary_line ⟨by linarith [ht.2], by linarith [ht.1]⟩, false, T t, hg t⟩

/-- C85: regular stations inside and outside at which the field is returned -/
example : ∃ p G T G' T', mkPoly tetra (fun _ => true) = .ok p ∧ Call.onNew p ⟨⟨1 / 2, 1 / 8, 1 / 4⟩, 2670, 1, false⟩ = .ok (G, T) ∧
    Call.onNew p ⟨⟨2, 3, 5⟩, 2670, 1, false⟩ = .ok (G', T') ∧ tetra.Regular ⟨1 / 2, 1 / 8, 1 / 4⟩ ∧ tetra.Regular ⟨2, 3, 5⟩ := by
  obtain ⟨p, hp⟩ := hull_mkPoly_ok tetra_isHull (fun _ => true)
  obtain ⟨G, T, hv⟩ := C22_total (obs := ⟨1 / 2, 1 / 8, 1 / 4⟩) tetra_isHull hp (fun s hs i hi => by
    have h4 : i < 4 := tetra_isHull.cornerIndex s hs i hi
    intro he
    have hx := congrArg V3.y he
    interval_cases i <;> simp only [tetra_pt0, tetra_pt1, tetra_pt2, tetra_pt3] at hx <;> norm_num at hx) 2670 1
  obtain ⟨G', T', hv'⟩ := C22_total tetra_isHull hp tetra_out_corner 2670 1
  exact ⟨p, G, T, G', T', hp, hv, hv', tetra_regular_in, tetra_regular_out⟩

end
end Geec
