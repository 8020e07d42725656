import Verif.Lemmas.Sphere
/-
The attraction of a cylinder at a point of its axis, by slices; comparison of attractions.
-/
namespace Geec
open Arith MeasureTheory Metric Set Filter Topology
noncomputable section

/-- the upright cylinder about the first axis -/
def cyl0 (a b R : ℝ) : Set P3 := {w | (a ≤ w.1 ∧ w.1 ≤ b) ∧ w.2.1 ^ 2 + w.2.2 ^ 2 ≤ R ^ 2}

/-- the cylinder of radius `R` with the axis through `s` in the direction of the unit vector `u`, between the heights `a` and `b` above `s` -/
def cylinder (s u : V3 ℝ) (a b R : ℝ) : Set P3 :=
  {q | (a ≤ rdot u ((P3.toV q).sub s) ∧ rdot u ((P3.toV q).sub s) ≤ b) ∧ vlen ((P3.toV q).sub s) ^ 2 - rdot u ((P3.toV q).sub s) ^ 2 ≤ R ^ 2}

/-- the attraction along the axis (Newton's law with density and constant 1) -/
def cylinderPull (a b R : ℝ) : ℝ := 2 * Real.pi * ((b - a) - (Real.sqrt (b ^ 2 + R ^ 2) - Real.sqrt (a ^ 2 + R ^ 2)))

theorem cyl0_convex (a b R : ℝ) : Convex ℝ (cyl0 a b R) := by
  rintro p ⟨⟨hp1, hp2⟩, hp3⟩ q ⟨⟨hq1, hq2⟩, hq3⟩ x y hx hy hxy
  refine ⟨⟨?_, ?_⟩, ?_⟩
  · show a ≤ x * p.1 + y * q.1
    have h1 := mul_le_mul_of_nonneg_left hp1 hx
    have h2 := mul_le_mul_of_nonneg_left hq1 hy
    have : a = x * a + y * a := by rw [← add_mul, hxy, one_mul]
    linarith
  · show x * p.1 + y * q.1 ≤ b
    have h1 := mul_le_mul_of_nonneg_left hp2 hx
    have h2 := mul_le_mul_of_nonneg_left hq2 hy
    have : b = x * b + y * b := by rw [← add_mul, hxy, one_mul]
    linarith
  · show (x * p.2.1 + y * q.2.1) ^ 2 + (x * p.2.2 + y * q.2.2) ^ 2 ≤ R ^ 2
    have h1 : x * y * ((p.2.1 - q.2.1) ^ 2 + (p.2.2 - q.2.2) ^ 2) ≥ 0 := by positivity
    have h2 : (x * p.2.1 + y * q.2.1) ^ 2 + (x * p.2.2 + y * q.2.2) ^ 2 =
        (x + y) * (x * (p.2.1 ^ 2 + p.2.2 ^ 2) + y * (q.2.1 ^ 2 + q.2.2 ^ 2)) - x * y * ((p.2.1 - q.2.1) ^ 2 + (p.2.2 - q.2.2) ^ 2) := by ring
    rw [h2, hxy]
    have h3 := mul_le_mul_of_nonneg_left hp3 hx
    have h4 := mul_le_mul_of_nonneg_left hq3 hy
    have : R ^ 2 = x * R ^ 2 + y * R ^ 2 := by rw [← add_mul, hxy, one_mul]
    linarith

theorem cyl0_closed (a b R : ℝ) : IsClosed (cyl0 a b R) :=
  ((isClosed_le continuous_const continuous_fst).inter (isClosed_le continuous_fst continuous_const)).inter (isClosed_le (f := fun w : P3 => w.2.1 ^ 2 + w.2.2 ^ 2) (by fun_prop) continuous_const)

theorem cyl0_compact (a b R : ℝ) : IsCompact (cyl0 a b R) := by
  refine Metric.isCompact_of_isClosed_isBounded (cyl0_closed a b R) ?_
  refine ((isBounded_Icc a b).prod ((isBounded_Icc (-|R|) |R|).prod (isBounded_Icc (-|R|) |R|))).subset ?_
  rintro w ⟨hw, h⟩
  have h1 : w.2.1 ^ 2 ≤ R ^ 2 := by nlinarith [sq_nonneg w.2.2]
  have h2 : w.2.2 ^ 2 ≤ R ^ 2 := by nlinarith [sq_nonneg w.2.1]
  exact ⟨hw, abs_le.mp (sq_le_sq.mp h1), abs_le.mp (sq_le_sq.mp h2)⟩

theorem cyl0_decent (a b R : ℝ) : Decent (cyl0 a b R) :=
  ⟨(cyl0_closed a b R).measurableSet, (cyl0_compact a b R).isBounded, (cyl0_convex a b R).addHaar_frontier volume⟩

theorem cyl0_attraction {a b R : ℝ} (ha : 0 ≤ a) (hab : a ≤ b) (hR : 0 < R) : (attraction (cyl0 a b R) V3.zeros).x = cylinderPull a b R := by
  have hi : IntegrableOn (fun q : P3 => (q.1 - 0) / dist3 q V3.zeros ^ 3) (cyl0 a b R) := by
    have := kernel_integrable (cyl0_decent a b R).meas (cyl0_decent a b R).bdd (pull_meas (1, 0, 0)) (pull_le (1, 0, 0)) (V3.zeros : V3 ℝ).toP
    refine this.congr_fun (fun q _ => ?_) (cyl0_decent a b R).meas
    simp [pull, dist3_eq_rad, V3.toP]
  unfold attraction
  simp only [zeros_x]
  rw [← integral_indicator (cyl0_decent a b R).meas]
  rw [← integrable_indicator_iff (cyl0_decent a b R).meas] at hi
  rw [Measure.volume_eq_prod] at hi ⊢
  rw [integral_prod _ hi]
  have hslice : ∀ x : ℝ, x ≠ 0 → (∫ p : ℝ × ℝ, (cyl0 a b R).indicator (fun q : P3 => (q.1 - 0) / dist3 q V3.zeros ^ 3) (x, p)) =
      (Icc a b).indicator (fun x => 2 * Real.pi * (1 - x / Real.sqrt (x ^ 2 + R ^ 2))) x := by
    intro x hx
    by_cases hxR : x ∈ Icc a b
    · rw [indicator_of_mem hxR]
      have hpos : 0 < x := lt_of_le_of_ne (ha.trans hxR.1) (Ne.symm hx)
      have hd := disc_integral hx hR.le
      rw [abs_of_pos hpos, div_self hx] at hd
      rw [← hd]
      refine integral_congr_ae (Eventually.of_forall fun p => ?_)
      simp only
      by_cases hp : p.1 ^ 2 + p.2 ^ 2 ≤ R ^ 2
      · rw [indicator_of_mem (show ((x, p) : P3) ∈ cyl0 a b R from ⟨hxR, hp⟩), indicator_of_mem (by exact hp)]
        simp only [dist3, zeros_x, zeros_y, zeros_z, sub_zero]
      · rw [indicator_of_notMem (fun h => hp h.2), indicator_of_notMem (by exact hp)]
    · rw [indicator_of_notMem hxR]
      refine integral_eq_zero_of_ae (Eventually.of_forall fun p => ?_)
      simp only [Pi.zero_apply]
      rw [indicator_of_notMem]
      exact fun h => hxR h.1
  have hae : ∀ᵐ x : ℝ, x ≠ 0 := by simp [ae_iff]
  rw [integral_congr_ae (hae.mono hslice), integral_indicator measurableSet_Icc, integral_Icc_eq_integral_Ioc,
    ← intervalIntegral.integral_of_le hab]
  have hpos : ∀ x : ℝ, 0 < x ^ 2 + R ^ 2 := fun x => by positivity
  have hd : ∀ x ∈ uIcc a b, HasDerivAt (fun x => 2 * Real.pi * (x - Real.sqrt (x ^ 2 + R ^ 2))) (2 * Real.pi * (1 - x / Real.sqrt (x ^ 2 + R ^ 2))) x := by
    intro x _
    have h1 : HasDerivAt (fun x : ℝ => x ^ 2 + R ^ 2) (2 * x) x := by simpa using (hasDerivAt_pow 2 x).add_const (R ^ 2)
    have h2 := h1.sqrt (hpos x).ne'
    have h3 := ((hasDerivAt_id x).sub h2).const_mul (2 * Real.pi)
    refine h3.congr_deriv ?_
    field_simp
  have hint : IntervalIntegrable (fun x => 2 * Real.pi * (1 - x / Real.sqrt (x ^ 2 + R ^ 2))) volume a b := by
    apply Continuous.intervalIntegrable
    refine continuous_const.mul (continuous_const.sub (Continuous.div continuous_id (by fun_prop) fun x => ?_))
    exact (Real.sqrt_pos.mpr (hpos x)).ne'
  rw [intervalIntegral.integral_eq_sub_of_hasDerivAt hd hint]
  unfold cylinderPull; ring

theorem cylinder_moved {H : M3 ℝ} (hH : IsOrthogonal H) (hinv : ∀ a, H.apply (H.apply a) = a) {u : V3 ℝ} (h0 : H.r0 = u) (s : V3 ℝ) (a b R : ℝ) :
    similarMap 1 H s '' cyl0 a b R = cylinder s u a b R := by
  have hsub : ∀ a, similar 1 H s a = (H.apply a).add s := by
    intro a; unfold similar; congr 1; refine V3.ext' ?_ ?_ ?_ <;> simp
  have hlen : ∀ a, vlen (H.apply a) = vlen a := by intro a; unfold vlen; rw [hH.rdot_apply]
  have hx : ∀ v, rdot u (H.apply v) = v.x := by
    intro v
    have : (H.apply (H.apply v)).x = v.x := by rw [hinv]
    simpa [M3.apply, h0] using this
  have hv : ∀ w : P3, vlen (P3.toV w) ^ 2 - w.1 ^ 2 = w.2.1 ^ 2 + w.2.2 ^ 2 := by
    intro w; rw [pow_two, vlen_sq]; simp only [rdot, P3.toV]; ring
  ext q
  constructor
  · rintro ⟨w, ⟨hw, h⟩, rfl⟩
    have e1 : (P3.toV (similarMap 1 H s w)).sub s = H.apply (P3.toV w) := by
      rw [similarMap, toP_toV, hsub]; refine V3.ext' ?_ ?_ ?_ <;> simp
    simp only [cylinder, mem_ofPred_eq, e1, hx, hlen]
    refine ⟨hw, ?_⟩
    show vlen (P3.toV w) ^ 2 - w.1 ^ 2 ≤ R ^ 2
    rw [hv]; exact h
  · rintro ⟨hq, h⟩
    refine ⟨(H.apply ((P3.toV q).sub s)).toP, ?_, ?_⟩
    · have e0 : (H.apply ((P3.toV q).sub s)).toP.1 = rdot u ((P3.toV q).sub s) := by
        show (H.apply _).x = _
        simp [M3.apply, h0]
      refine ⟨by rw [e0]; exact hq, ?_⟩
      rw [← hv, e0, toP_toV, hlen]; exact h
    · rw [similarMap, toP_toV, hsub, hinv]
      have : ((P3.toV q).sub s).add s = P3.toV q := by refine V3.ext' ?_ ?_ ?_ <;> simp
      rw [this, toV_toP]

theorem cylinder_decent {u : V3 ℝ} (hu : rdot u u = 1) (s : V3 ℝ) (a b R : ℝ) : Decent (cylinder s u a b R) := by
  obtain ⟨H, hH, hinv, -, h0, -⟩ := mirror_exists u hu
  rw [← cylinder_moved hH hinv h0 s a b R]
  have hf : similarMap 1 H s = fun q => similarLin 1 H q + s.toP := funext (similarMap_eq 1 H s)
  have hc : IsCompact (similarMap 1 H s '' cyl0 a b R) := by
    refine (cyl0_compact a b R).image ?_
    rw [hf]; exact (similarLin 1 H).continuous.add continuous_const
  have hcv : Convex ℝ (similarMap 1 H s '' cyl0 a b R) := by
    have e : similarMap 1 H s '' cyl0 a b R = (fun q => q + s.toP) '' ((similarLin 1 H : P3 → P3) '' cyl0 a b R) := by
      rw [image_image, hf]
    rw [e]
    have h1 : Convex ℝ ((similarLin 1 H : P3 → P3) '' cyl0 a b R) := (cyl0_convex a b R).linear_image (similarLin 1 H).toLinearMap
    simpa only [add_comm] using h1.translate s.toP
  exact ⟨hc.isClosed.measurableSet, hc.isBounded, hcv.addHaar_frontier volume⟩

/-- the attraction of a cylinder at a point of its axis, along the axis -/
theorem cylinder_attraction {s u : V3 ℝ} (hu : rdot u u = 1) {a b R : ℝ} (ha : 0 ≤ a) (hab : a ≤ b) (hR : 0 < R) :
    rdot (attraction (cylinder s u a b R) s) u = cylinderPull a b R := by
  obtain ⟨H, hH, hinv, ht, h0, hap⟩ := mirror_exists u hu
  have hm := cylinder_moved hH hinv h0 s a b R
  have hs : similar 1 H s V3.zeros = s := by
    unfold similar; refine V3.ext' ?_ ?_ ?_ <;> simp [M3.apply, rdot]
  have key := attraction_moved (cyl0_decent a b R) hH s V3.zeros u (by rw [hm]; exact cylinder_decent hu s a b R)
  rw [hm, hs, ht] at key
  have e1 : H.apply u = ⟨1, 0, 0⟩ := by
    have h1 := hap 1
    have h2 : V3.smul 1 u = u := by refine V3.ext' ?_ ?_ ?_ <;> simp
    rw [h2] at h1
    rw [← h1, hinv]
  rw [key, e1, rdot, cyl0_attraction ha hab hR]
  ring

/-- the body which has more on the side of `u` and less on the other side attracts more towards `u` -/
theorem attraction_compare {A B : Set P3} (hA : Decent A) (hB : Decent B) {s u : V3 ℝ} (hmore : ∀ q ∈ B, q ∉ A → 0 ≤ rdot u ((P3.toV q).sub s))
    (hless : ∀ q ∈ A, q ∉ B → rdot u ((P3.toV q).sub s) ≤ 0) : rdot (attraction A s) u ≤ rdot (attraction B s) u := by
  rw [rdot_attraction hA, rdot_attraction hB, ← integral_indicator hA.meas, ← integral_indicator hB.meas]
  refine integral_mono ((integrable_indicator_iff hA.meas).mpr (kernel_integrable hA.meas hA.bdd (pull_meas _) (pull_le _) _))
    ((integrable_indicator_iff hB.meas).mpr (kernel_integrable hB.meas hB.bdd (pull_meas _) (pull_le _) _)) fun q => ?_
  have hv := vlen_nonneg ((P3.toV q).sub s)
  by_cases hqA : q ∈ A <;> by_cases hqB : q ∈ B
  · simp only [indicator_of_mem hqA, indicator_of_mem hqB]; exact le_rfl
  · simp only [indicator_of_mem hqA, indicator_of_notMem hqB]
    rw [pull_kernelAt]; unfold kernelAt
    have := hless q hqA hqB
    rw [rdot_comm] at this
    exact div_nonpos_of_nonpos_of_nonneg this (by positivity)
  · simp only [indicator_of_notMem hqA, indicator_of_mem hqB]
    rw [pull_kernelAt]; unfold kernelAt
    have := hmore q hqB hqA
    rw [rdot_comm] at this
    positivity
  · simp only [indicator_of_notMem hqA, indicator_of_notMem hqB]; exact le_rfl

/-- the larger of two bodies on one side of a plane through the station attracts more towards that side -/
theorem attraction_mono {A B : Set P3} (hA : Decent A) (hB : Decent B) (h : A ⊆ B) {s u : V3 ℝ} (hside : ∀ q ∈ B, 0 ≤ rdot u ((P3.toV q).sub s)) :
    rdot (attraction A s) u ≤ rdot (attraction B s) u :=
  attraction_compare hA hB (fun q hq _ => hside q hq) fun _ hq hn => absurd (h hq) hn

theorem attraction_empty (s : V3 ℝ) : attraction ∅ s = V3.zeros := by
  simp [attraction, V3.zeros]

/-- a cylinder attracts less than the plate of its thickness -/
theorem cylinderPull_le {a b R : ℝ} (ha : 0 ≤ a) (hab : a ≤ b) : cylinderPull a b R ≤ 2 * Real.pi * (b - a) := by
  unfold cylinderPull
  have : Real.sqrt (a ^ 2 + R ^ 2) ≤ Real.sqrt (b ^ 2 + R ^ 2) := Real.sqrt_le_sqrt (by nlinarith)
  have := Real.pi_pos
  nlinarith

/-- and nearly as much, if it is wide -/
theorem le_cylinderPull {a b R : ℝ} (ha : 0 ≤ a) (hab : a ≤ b) (hR : 0 < R) : 2 * Real.pi * (b - a) * (1 - b / R) ≤ cylinderPull a b R := by
  unfold cylinderPull
  set x := Real.sqrt (a ^ 2 + R ^ 2) with hx
  set y := Real.sqrt (b ^ 2 + R ^ 2) with hy
  have hx2 : x ^ 2 = a ^ 2 + R ^ 2 := Real.sq_sqrt (by positivity)
  have hy2 : y ^ 2 = b ^ 2 + R ^ 2 := Real.sq_sqrt (by positivity)
  have hxR : R ≤ x := Real.le_sqrt_of_sq_le (by nlinarith)
  have hyR : R ≤ y := Real.le_sqrt_of_sq_le (by nlinarith)
  have h1 : y - x ≤ (b - a) * (b / R) := by
    have e : (y - x) * (y + x) = (b - a) * (b + a) := by nlinarith
    have e1 : (y - x) * (2 * R) ≤ (b - a) * (2 * b) := by
      have hyx : 0 ≤ y - x := by
        have : Real.sqrt (a ^ 2 + R ^ 2) ≤ Real.sqrt (b ^ 2 + R ^ 2) := Real.sqrt_le_sqrt (by nlinarith)
        linarith
      nlinarith
    rw [mul_div_assoc', le_div_iff₀ hR]
    linarith
  have := Real.pi_pos
  nlinarith

end
end Geec
