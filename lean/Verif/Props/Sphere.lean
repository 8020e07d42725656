import Verif.Lemmas.Sphere
import Verif.Spec.Examples
/-
C94: bodies that approximate a ball.
-/
namespace Geec
open Arith MeasureTheory Metric Set Filter Topology
noncomputable section
variable {h : Hull ℝ} {inHull : V3 ℝ → Bool} {p : Poly ℝ}

theorem disc_area {ρ : ℝ} (hρ : 0 ≤ ρ) : ∫ p : ℝ × ℝ, {p : ℝ × ℝ | p.1 ^ 2 + p.2 ^ 2 ≤ ρ ^ 2}.indicator (fun _ => (1 : ℝ)) p = Real.pi * ρ ^ 2 := by
  rw [← integral_comp_polarCoord_symm]
  have hcs : ∀ a b : ℝ, (a * Real.cos b) ^ 2 + (a * Real.sin b) ^ 2 = a ^ 2 := by
    intro a b; nlinarith [Real.sin_sq_add_cos_sq b]
  have e1 : ∀ p : ℝ × ℝ, p.1 • {p : ℝ × ℝ | p.1 ^ 2 + p.2 ^ 2 ≤ ρ ^ 2}.indicator (fun _ => (1 : ℝ)) (polarCoord.symm p) =
      {r : ℝ | r ^ 2 ≤ ρ ^ 2}.indicator (fun r => r) p.1 * 1 := by
    intro p
    rw [polarCoord_symm_apply, smul_eq_mul, mul_one]
    by_cases h : p.1 ^ 2 ≤ ρ ^ 2
    · rw [indicator_of_mem (by simpa only [mem_ofPred_eq, hcs] using h), indicator_of_mem (by exact h), mul_one]
    · rw [indicator_of_notMem (by simpa only [mem_ofPred_eq, hcs] using h), indicator_of_notMem (by exact h), mul_zero]
  simp only [e1]
  rw [polarCoord_target, Measure.volume_eq_prod, setIntegral_prod_mul (fun r : ℝ => {r : ℝ | r ^ 2 ≤ ρ ^ 2}.indicator (fun r => r) r) (fun _ => (1 : ℝ)),
    setIntegral_indicator (measurableSet_le (by fun_prop) (by fun_prop))]
  have : Ioi (0 : ℝ) ∩ {r : ℝ | r ^ 2 ≤ ρ ^ 2} = Ioc 0 ρ := by
    ext r
    simp only [mem_inter_iff, mem_Ioi, mem_ofPred_eq, mem_Ioc]
    constructor
    · rintro ⟨h1, h2⟩; exact ⟨h1, by nlinarith⟩
    · rintro ⟨h1, h2⟩; exact ⟨h1, by nlinarith⟩
  have e4 : ∫ _ in Ioo (-Real.pi) Real.pi, (1 : ℝ) = 2 * Real.pi := by
    simp [Real.volume_real_Ioo_of_le (by linarith [Real.pi_pos] : -Real.pi ≤ Real.pi)]; ring
  rw [this, ← intervalIntegral.integral_of_le hρ, integral_id, e4]
  ring

theorem eball_volume {R : ℝ} (hR : 0 ≤ R) (c : V3 ℝ) : (volume (eball c R)).toReal = 4 / 3 * Real.pi * R ^ 3 := by
  have hm := eball_moved unitM3_orthogonal (by intro a; refine V3.ext' ?_ ?_ ?_ <;> simp [unitM3, M3.apply, rdot]) c R
  have h0 := integral_similar one_pos unitM3_orthogonal c (eball_decent V3.zeros R).meas (fun _ => (1 : ℝ))
  have one : ∀ A : Set P3, ∫ _ in A, (1 : ℝ) = (volume A).toReal := by intro A; simp [measureReal_def]
  rw [hm, one_pow, one_mul, one] at h0
  rw [h0, ← integral_indicator (eball_decent V3.zeros R).meas]
  have hi : Integrable ((eball V3.zeros R).indicator fun _ => (1 : ℝ)) :=
    (integrable_indicator_iff (eball_decent V3.zeros R).meas).mpr (integrableOn_const (eball_compact V3.zeros R).measure_ne_top)
  rw [Measure.volume_eq_prod] at hi ⊢
  rw [integral_prod _ hi]
  have hmem : ∀ (x : ℝ) (p : ℝ × ℝ), ((x, p) : P3) ∈ eball V3.zeros R ↔ x ^ 2 + (p.1 ^ 2 + p.2 ^ 2) ≤ R ^ 2 := by
    intro x p
    simp only [eball, mem_ofPred_eq, dist3, zeros_x, zeros_y, zeros_z, sub_zero]
    rw [Real.sqrt_le_left hR, add_assoc]
  have hslice : ∀ x : ℝ, (∫ p : ℝ × ℝ, (eball V3.zeros R).indicator (fun _ => (1 : ℝ)) (x, p)) = (Icc (-R) R).indicator (fun x => Real.pi * (R ^ 2 - x ^ 2)) x := by
    intro x
    by_cases hxR : x ∈ Icc (-R) R
    · rw [indicator_of_mem hxR]
      have h0 : 0 ≤ R ^ 2 - x ^ 2 := by nlinarith [hxR.1, hxR.2]
      have hd := disc_area (Real.sqrt_nonneg (R ^ 2 - x ^ 2))
      rw [Real.sq_sqrt h0] at hd
      rw [← hd]
      refine integral_congr_ae (Eventually.of_forall fun p => ?_)
      simp only
      by_cases hp : p.1 ^ 2 + p.2 ^ 2 ≤ R ^ 2 - x ^ 2
      · rw [indicator_of_mem ((hmem x p).mpr (by linarith)), indicator_of_mem (by exact hp)]
      · rw [indicator_of_notMem (fun h => hp (by linarith [(hmem x p).mp h])), indicator_of_notMem (by exact hp)]
    · rw [indicator_of_notMem hxR]
      refine integral_eq_zero_of_ae (Eventually.of_forall fun p => ?_)
      simp only [Pi.zero_apply]
      rw [indicator_of_notMem]
      intro h
      have := (hmem x p).mp h
      apply hxR
      exact abs_le.mp (abs_le_of_sq_le_sq (by nlinarith [sq_nonneg p.1, sq_nonneg p.2]) hR)
  simp only [hslice]
  rw [integral_indicator measurableSet_Icc, integral_Icc_eq_integral_Ioc, ← intervalIntegral.integral_of_le (by linarith),
    intervalIntegral.integral_const_mul, intervalIntegral.integral_sub (by simp) (by apply Continuous.intervalIntegrable; fun_prop), integral_pow]
  simp
  ring

/-- Points of a sphere that leave no gap wider than `δ` span a body that contains the ball with the radius less by `δ`. -/
theorem ball_between {c : V3 ℝ} {R δ : ℝ} (hδ : 0 ≤ δ) (hR : ∀ a ∈ h.points, vlen (a.sub c) ≤ R)
    (hd : ∀ b : V3 ℝ, vlen (b.sub c) = R → ∃ a ∈ h.points, vlen (a.sub b) ≤ δ) : eball c (R - δ) ⊆ h.body ∧ h.body ⊆ eball c R := by
  constructor
  · intro q hq
    by_contra hn
    obtain ⟨f, u, h1, h2⟩ := geometric_hahn_banach_point_closed (convex_convexHull ℝ _) h.body_compact.isClosed hn
    set n : V3 ℝ := ⟨f (1, 0, 0), f (0, 1, 0), f (0, 0, 1)⟩ with hn'
    have hf : ∀ x : P3, f x = rdot n (P3.toV x) := by
      intro x
      have : x = x.1 • (1, 0, 0) + (x.2.1 • (0, 1, 0) + x.2.2 • (0, 0, 1)) := by ext <;> simp
      conv_lhs => rw [this]
      simp only [map_add, map_smul, smul_eq_mul, hn', rdot, P3.toV]; ring
    have hqr : vlen ((P3.toV q).sub c) ≤ R - δ := by rw [rad_toV]; exact hq
    have hR0 : 0 ≤ R := by linarith [vlen_nonneg ((P3.toV q).sub c)]
    have hcs : ∀ a : V3 ℝ, |rdot n a| ≤ vlen n * vlen a := fun a => abs_rdot_le n a
    by_cases hz : vlen n = 0
    · -- the functional vanishes
      obtain ⟨a, ha, -⟩ := hd (c.add ⟨R, 0, 0⟩) (by
        have : (c.add ⟨R, 0, 0⟩).sub c = ⟨R, 0, 0⟩ := by refine V3.ext' ?_ ?_ ?_ <;> simp
        rw [this]; simp [vlen, rdot, hR0])
      have h3 := h2 a.toP (subset_convexHull ℝ _ ⟨a, ha, rfl⟩)
      rw [hf] at h1 h3
      have k1 := hcs (P3.toV q)
      have k2 := hcs (P3.toV a.toP)
      rw [hz, zero_mul] at k1 k2
      have := abs_nonpos_iff.mp k1
      have := abs_nonpos_iff.mp k2
      linarith
    · have hn0 : 0 < vlen n := lt_of_le_of_ne (vlen_nonneg n) (Ne.symm hz)
      obtain ⟨a, ha, hab⟩ := hd (c.sub (V3.smul (R / vlen n) n)) (by
        have : (c.sub (V3.smul (R / vlen n) n)).sub c = V3.smul (-(R / vlen n)) n := by refine V3.ext' ?_ ?_ ?_ <;> simp
        rw [this, vlen_smul, abs_neg, abs_of_nonneg (by positivity)]; field_simp)
      have h3 := h2 a.toP (subset_convexHull ℝ _ ⟨a, ha, rfl⟩)
      rw [hf] at h1 h3
      rw [toP_toV] at h3
      have k1 : rdot n (P3.toV q) = rdot n c + rdot n ((P3.toV q).sub c) := by simp only [rdot, sub_x, sub_y, sub_z]; ring
      have k2 : rdot n a = rdot n c - R / vlen n * rdot n n + rdot n (a.sub (c.sub (V3.smul (R / vlen n) n))) := by
        simp only [rdot, sub_x, sub_y, sub_z, smul_x, smul_y, smul_z]; ring
      have k3 : R / vlen n * rdot n n = R * vlen n := by rw [← vlen_sq]; field_simp
      have k4 := (abs_le.mp (hcs ((P3.toV q).sub c))).1
      have k5 := (abs_le.mp (hcs (a.sub (c.sub (V3.smul (R / vlen n) n))))).2
      have k6 : vlen n * vlen ((P3.toV q).sub c) ≤ vlen n * (R - δ) := by gcongr
      have k7 : vlen n * vlen (a.sub (c.sub (V3.smul (R / vlen n) n))) ≤ vlen n * δ := by gcongr
      nlinarith
  · apply convexHull_min _ (eball_convex c R)
    rintro _ ⟨a, ha, rfl⟩
    have := hR a ha
    rw [eball_rad, ← rad_toV, toP_toV]
    exact this

/-- The field of a homogeneous ball of density `ρ`, in mGal: that of its mass at the centre outside, proportional to the distance from the centre inside. -/
def ballField (Gc ρ : ℝ) (c : V3 ℝ) (R : ℝ) (s : V3 ℝ) : V3 ℝ :=
  V3.smul (-(100000 * Gc * ρ) * (4 / 3 * Real.pi * min R (vlen (s.sub c)) ^ 3) / vlen (s.sub c) ^ 3) (s.sub c)

theorem ballField_eq {R : ℝ} (hR : 0 < R) (Gc ρ : ℝ) (c s : V3 ℝ) : ballField Gc ρ c R s = V3.smul (100000 * Gc * ρ) (attraction (eball c R) s) := by
  rw [newton_ball hR, ballField]
  refine V3.ext' ?_ ?_ ?_ <;> simp <;> ring

theorem vlen_le_of_dot {a : V3 ℝ} {x : ℝ} (hx : 0 ≤ x) (h : rdot a a ≤ vlen a * x) : vlen a ≤ x := by
  rcases eq_or_lt_of_le (vlen_nonneg a) with h0 | h0
  · rwa [← h0]
  · rw [← vlen_sq] at h
    exact le_of_mul_le_mul_left h h0

theorem shell_volume {c : V3 ℝ} {r R : ℝ} (hr : 0 ≤ r) (hrR : r ≤ R) (hin : eball c r ⊆ h.body) :
    (volume (eball c R \ h.body)).toReal ≤ 4 / 3 * Real.pi * (R ^ 3 - r ^ 3) := by
  have h1 : volume (eball c R \ h.body) ≤ volume (eball c R \ eball c r) := measure_mono (sdiff_subset_sdiff_right hin)
  have hsub : eball c r ⊆ eball c R := fun q hq => le_trans (b := r) hq hrR
  have hfin : volume (eball c R \ eball c r) ≠ ⊤ := ((measure_mono sdiff_subset).trans_lt (eball_compact c R).measure_lt_top).ne
  have h2 := ENNReal.toReal_mono hfin h1
  rw [measure_sdiff hsub (eball_decent c r).meas.nullMeasurableSet (eball_compact c r).measure_ne_top,
    ENNReal.toReal_sub_of_le (measure_mono hsub) (eball_compact c R).measure_ne_top, eball_volume hr, eball_volume (hr.trans hrR)] at h2
  linarith

/-- **C94** A body between two balls about the same centre has nearly the field of the larger ball, everywhere: outside, inside and on the surface. -/
theorem C94_between (hh : h.IsHull) (hp : mkPoly h inHull = .ok p) {c : V3 ℝ} {r R : ℝ} (hr : 0 < r) (hrR : r ≤ R) (hin : eball c r ⊆ h.body)
    (hout : h.body ⊆ eball c R) {s : V3 ℝ} (hs : h.Regular s) {ρ Gc : ℝ} {gr : Bool} {G : V3 ℝ} {T : M3 ℝ}
    (hv : Call.onNew p ⟨s, ρ, Gc, gr⟩ = .ok (G, T)) {x : ℝ} (hx : 0 < x) :
    vlen (G.sub (ballField Gc ρ c R s)) ≤ |100000 * Gc * ρ| * (48 * x + 4 / 3 * Real.pi * (R ^ 3 - r ^ 3) / x ^ 2) := by
  have hR : 0 < R := hr.trans_le hrR
  rw [ballField_eq hR, (C16_newton hh hp hs hv).1]
  set X := (V3.smul (100000 * Gc * ρ) (attraction h.body s)).sub (V3.smul (100000 * Gc * ρ) (attraction (eball c R) s)) with hX
  have hpow : r ^ 3 ≤ R ^ 3 := by gcongr
  have hnn : 0 ≤ 48 * x + 4 / 3 * Real.pi * (R ^ 3 - r ^ 3) / x ^ 2 := by
    have : 0 ≤ R ^ 3 - r ^ 3 := by linarith
    positivity
  refine vlen_le_of_dot (by positivity) ?_
  have key := attraction_diff_le h.body_decent (eball_decent c R) h.body_compact.measure_ne_top (eball_compact c R).measure_ne_top s X hx
  have hz : volume (h.body \ eball c R) = 0 := by rw [sdiff_eq_empty.mpr hout, measure_empty]
  rw [hz, ENNReal.toReal_zero, zero_add] at key
  have e : rdot X X = 100000 * Gc * ρ * (rdot (attraction h.body s) X - rdot (attraction (eball c R) s) X) := by
    conv_lhs => arg 1; rw [hX]
    simp only [rdot, smul_x, smul_y, smul_z, sub_x, sub_y, sub_z]; ring
  have hvol := shell_volume hr.le hrR hin
  rw [e]
  calc _ ≤ |100000 * Gc * ρ| * |rdot (attraction h.body s) X - rdot (attraction (eball c R) s) X| := by rw [← abs_mul]; exact le_abs_self _
    _ ≤ |100000 * Gc * ρ| * (vlen X * (48 * x + 4 / 3 * Real.pi * (R ^ 3 - r ^ 3) / x ^ 2)) := by
      refine mul_le_mul_of_nonneg_left (key.trans ?_) (abs_nonneg _)
      have := vlen_nonneg X
      gcongr
    _ = _ := by ring

/-- **C94** Outside of the larger ball: the field of a point mass at the centre, up to the mass between the balls at the distance of the larger one. -/
theorem C94_outside (hh : h.IsHull) (hp : mkPoly h inHull = .ok p) {c : V3 ℝ} {r R : ℝ} (hr : 0 < r) (hrR : r ≤ R) (hin : eball c r ⊆ h.body)
    (hout : h.body ⊆ eball c R) {s : V3 ℝ} (hs : h.Regular s) (hd : R < vlen (s.sub c)) {ρ Gc : ℝ} {gr : Bool} {G : V3 ℝ} {T : M3 ℝ}
    (hv : Call.onNew p ⟨s, ρ, Gc, gr⟩ = .ok (G, T)) :
    vlen (G.sub (V3.smul (100000 * Gc * (ρ * (4 / 3 * Real.pi * R ^ 3)) / vlen (s.sub c) ^ 3) (c.sub s))) ≤
      |100000 * Gc * ρ| * (4 / 3 * Real.pi * (R ^ 3 - r ^ 3)) / (vlen (s.sub c) - R) ^ 2 := by
  have hR : 0 < R := hr.trans_le hrR
  have e0 : V3.smul (100000 * Gc * (ρ * (4 / 3 * Real.pi * R ^ 3)) / vlen (s.sub c) ^ 3) (c.sub s) = ballField Gc ρ c R s := by
    rw [ballField, min_eq_left hd.le]
    refine V3.ext' ?_ ?_ ?_ <;> simp <;> ring
  rw [e0, ballField_eq hR, (C16_newton hh hp hs hv).1]
  set X := (V3.smul (100000 * Gc * ρ) (attraction h.body s)).sub (V3.smul (100000 * Gc * ρ) (attraction (eball c R) s)) with hX
  have hpow : r ^ 3 ≤ R ^ 3 := by gcongr
  set m := vlen (s.sub c) - R with hm
  have hm0 : 0 < m := by rw [hm]; linarith
  have hnn : 0 ≤ |100000 * Gc * ρ| * (4 / 3 * Real.pi * (R ^ 3 - r ^ 3)) / m ^ 2 := by
    have : 0 ≤ R ^ 3 - r ^ 3 := by linarith
    positivity
  refine vlen_le_of_dot hnn ?_
  have e : rdot X X = 100000 * Gc * ρ * (rdot (attraction h.body s) X - rdot (attraction (eball c R) s) X) := by
    conv_lhs => arg 1; rw [hX]
    simp only [rdot, smul_x, smul_y, smul_z, sub_x, sub_y, sub_z]; ring
  have hfar : ∀ q ∈ eball c R, m ≤ vlen ((P3.toV q).sub s) := by
    intro q hq
    have h1 : vlen ((P3.toV q).sub c) ≤ R := by rw [rad_toV]; exact hq
    have h2 := vlen_add_le ((P3.toV q).sub c) (s.sub (P3.toV q))
    have e1 : ((P3.toV q).sub c).add (s.sub (P3.toV q)) = s.sub c := by refine V3.ext' ?_ ?_ ?_ <;> simp
    have e2 : vlen (s.sub (P3.toV q)) = vlen ((P3.toV q).sub s) := by unfold vlen; congr 1; simp only [rdot, sub_x, sub_y, sub_z]; ring
    rw [e1, e2] at h2
    rw [hm]; linarith
  have iB := pull_integrable (eball_decent c R) s X
  have eB := integral_inter_add_sdiff h.body_decent.meas iB
  rw [inter_eq_right.mpr hout] at eB
  have hfin : volume (eball c R \ h.body) ≠ ⊤ := ((measure_mono sdiff_subset).trans_lt (eball_compact c R).measure_lt_top).ne
  have hle : |∫ q in eball c R \ h.body, pull X.toP (q - s.toP)| ≤ vlen X / m ^ 2 * (volume (eball c R \ h.body)).toReal := by
    rw [← Real.norm_eq_abs]
    refine norm_setIntegral_le_of_norm_le_const (lt_top_iff_ne_top.mpr hfin) fun q hq => ?_
    have hq1 := hfar q hq.1
    rw [pull_kernelAt, kernelAt, Real.norm_eq_abs, abs_div, abs_of_pos (pow_pos (hm0.trans_le hq1) 3)]
    have hq0 : 0 < vlen ((P3.toV q).sub s) := hm0.trans_le hq1
    calc _ ≤ vlen ((P3.toV q).sub s) * vlen X / vlen ((P3.toV q).sub s) ^ 3 := by gcongr; exact abs_rdot_le _ _
      _ = vlen X / vlen ((P3.toV q).sub s) ^ 2 := by field_simp
      _ ≤ vlen X / m ^ 2 := by have := vlen_nonneg X; gcongr
  rw [e, rdot_attraction h.body_decent, rdot_attraction (eball_decent c R), ← eB, show ∀ a b : ℝ, a - (a + b) = -b by intros; ring]
  have hvol := shell_volume hr.le hrR hin
  calc _ ≤ |100000 * Gc * ρ| * |∫ q in eball c R \ h.body, pull X.toP (q - s.toP)| := by rw [← abs_neg (∫ q in _, _), ← abs_mul]; exact le_abs_self _
    _ ≤ |100000 * Gc * ρ| * (vlen X / m ^ 2 * (4 / 3 * Real.pi * (R ^ 3 - r ^ 3))) := by
      refine mul_le_mul_of_nonneg_left (hle.trans ?_) (abs_nonneg _)
      have := vlen_nonneg X
      gcongr
    _ = _ := by ring

/-- **C94** The body spanned by points of a ball that come within `δ` of every point of its sphere. -/
theorem C94_dense (hh : h.IsHull) (hp : mkPoly h inHull = .ok p) {c : V3 ℝ} {R δ : ℝ} (hδ : 0 ≤ δ) (hδR : δ < R)
    (h1 : ∀ a ∈ h.points, vlen (a.sub c) ≤ R) (h2 : ∀ b : V3 ℝ, vlen (b.sub c) = R → ∃ a ∈ h.points, vlen (a.sub b) ≤ δ)
    {s : V3 ℝ} (hs : h.Regular s) {ρ Gc : ℝ} {gr : Bool} {G : V3 ℝ} {T : M3 ℝ} (hv : Call.onNew p ⟨s, ρ, Gc, gr⟩ = .ok (G, T)) :
    (∀ x > 0, vlen (G.sub (ballField Gc ρ c R s)) ≤ |100000 * Gc * ρ| * (48 * x + 4 / 3 * Real.pi * (R ^ 3 - (R - δ) ^ 3) / x ^ 2)) ∧
      (R < vlen (s.sub c) →
        vlen (G.sub (V3.smul (100000 * Gc * (ρ * (4 / 3 * Real.pi * R ^ 3)) / vlen (s.sub c) ^ 3) (c.sub s))) ≤
          |100000 * Gc * ρ| * (4 / 3 * Real.pi * (R ^ 3 - (R - δ) ^ 3)) / (vlen (s.sub c) - R) ^ 2) := by
  obtain ⟨hin, hout⟩ := ball_between hδ h1 h2
  exact ⟨fun x hx => C94_between hh hp (by linarith) (by linarith) hin hout hs hv hx, fun hd => C94_outside hh hp (by linarith) (by linarith) hin hout hs hd hv⟩

/-- **C94** Points spread densely enough over a sphere give its field, everywhere and to any accuracy, however many they are and however the hull library
connects them. -/
theorem C94_sphere {R : ℝ} (hR : 0 < R) (c : V3 ℝ) (ρ Gc : ℝ) {ε : ℝ} (hε : 0 < ε) :
    ∃ δ > 0, ∀ (h : Hull ℝ) (inHull : V3 ℝ → Bool) (p : Poly ℝ), h.IsHull → mkPoly h inHull = .ok p →
      (∀ a ∈ h.points, vlen (a.sub c) ≤ R) → (∀ b : V3 ℝ, vlen (b.sub c) = R → ∃ a ∈ h.points, vlen (a.sub b) ≤ δ) →
      ∀ (s : V3 ℝ) (gr : Bool) (G : V3 ℝ) (T : M3 ℝ), h.Regular s → Call.onNew p ⟨s, ρ, Gc, gr⟩ = .ok (G, T) → vlen (G.sub (ballField Gc ρ c R s)) ≤ ε := by
  set K := |100000 * Gc * ρ| with hK
  have hK0 : 0 ≤ K := abs_nonneg _
  set x := ε / (96 * (K + 1)) with hx
  have hx0 : 0 < x := by positivity
  have hpi := Real.pi_pos
  set δ := min (R / 2) (x ^ 2 * (ε / (8 * Real.pi * R ^ 2 * (K + 1)))) with hδ
  have hδ0 : 0 < δ := lt_min (by positivity) (by positivity)
  refine ⟨δ, hδ0, fun h inHull p hh hp h1 h2 s gr G T hs hv => ?_⟩
  have hδR : δ ≤ R / 2 := min_le_left _ _
  have hb := (C94_dense hh hp hδ0.le (by linarith) h1 h2 hs hv).1 x hx0
  refine hb.trans ?_
  have hcube : R ^ 3 - (R - δ) ^ 3 ≤ 3 * R ^ 2 * δ := by nlinarith [mul_pos hδ0 hδ0]
  have hδ2 : δ ≤ x ^ 2 * (ε / (8 * Real.pi * R ^ 2 * (K + 1))) := min_le_right _ _
  calc K * (48 * x + 4 / 3 * Real.pi * (R ^ 3 - (R - δ) ^ 3) / x ^ 2)
      ≤ K * (48 * x + 4 / 3 * Real.pi * (3 * R ^ 2 * (x ^ 2 * (ε / (8 * Real.pi * R ^ 2 * (K + 1))))) / x ^ 2) := by
        gcongr
        exact hcube.trans (by gcongr)
    _ = K / (K + 1) * ε := by rw [hx]; field_simp; ring
    _ ≤ 1 * ε := by
      gcongr
      rw [div_le_one (by positivity)]; linarith
    _ = ε := one_mul ε

/-! ### concrete cases: the octahedron in the unit sphere, seen from outside and from the centre -/

theorem octa_regular_out : octa.Regular ⟨2, 3, 5⟩ := by
  apply regular_bounds
  intro t ht
  right
  simp only [octa, octaSimplices, List.mem_cons, List.not_mem_nil, or_false] at ht
  rcases ht with rfl | rfl | rfl | rfl | rfl | rfl | rfl | rfl
  all_goals
    refine ⟨?_, ?_, ?_⟩
    · simp [octa_pt0, octa_pt1, octa_pt2, octa_pt3, octa_pt4, octa_pt5, rdot]; norm_num
    · simp only [octa_pt0, octa_pt1, octa_pt2, octa_pt3, octa_pt4, octa_pt5, rdot, cross_x, cross_y, cross_z, sub_x, sub_y, sub_z]; norm_num [abs_of_pos, abs_of_neg]
    · intro i j hi hj hne
      rcases hi with rfl | rfl | rfl <;> rcases hj with rfl | rfl | rfl <;> first | exact absurd rfl hne | skip
      all_goals
        apply clearOf_bounds <;> simp only [rdot, cross_x, cross_y, cross_z, sub_x, sub_y, sub_z, octa_pt0, octa_pt1, octa_pt2, octa_pt3, octa_pt4, octa_pt5] <;> norm_num

theorem octa_in_sphere : ∀ a ∈ octa.points, vlen (a.sub V3.zeros) ≤ 1 := by
  intro a ha
  simp only [octa, List.mem_cons, List.not_mem_nil, or_false] at ha
  rcases ha with rfl | rfl | rfl | rfl | rfl | rfl <;> simp [vlen, rdot]

/-- every point of the unit sphere is within 0.92 of a corner -/
theorem octa_dense (b : V3 ℝ) (hb : vlen (b.sub V3.zeros) = 1) : ∃ a ∈ octa.points, vlen (a.sub b) ≤ 0.92 := by
  have hsq : b.x * b.x + b.y * b.y + b.z * b.z = 1 := by
    have := vlen_sq (b.sub V3.zeros)
    rw [hb] at this
    simp only [rdot, sub_x, sub_y, sub_z, zeros_x, zeros_y, zeros_z, sub_zero] at this
    linarith
  have hle : ∀ a : V3 ℝ, rdot (a.sub b) (a.sub b) ≤ 0.8464 → vlen (a.sub b) ≤ 0.92 := by
    intro a ha
    refine Real.sqrt_le_iff.mpr ⟨by norm_num, ha.trans (by norm_num)⟩
  have key : 0.577 ≤ b.x ∨ 0.577 ≤ -b.x ∨ 0.577 ≤ b.y ∨ 0.577 ≤ -b.y ∨ 0.577 ≤ b.z ∨ 0.577 ≤ -b.z := by
    by_contra hn
    simp only [not_or, not_le] at hn
    obtain ⟨h1, h2, h3, h4, h5, h6⟩ := hn
    have k1 : b.x * b.x ≤ 0.577 * 0.577 := by nlinarith
    have k2 : b.y * b.y ≤ 0.577 * 0.577 := by nlinarith
    have k3 : b.z * b.z ≤ 0.577 * 0.577 := by nlinarith
    norm_num at k1 k2 k3
    linarith
  rcases key with h | h | h | h | h | h
  · exact ⟨⟨1, 0, 0⟩, by simp [octa], hle _ (by simp only [rdot, sub_x, sub_y, sub_z]; nlinarith)⟩
  · exact ⟨⟨-1, 0, 0⟩, by simp [octa], hle _ (by simp only [rdot, sub_x, sub_y, sub_z]; nlinarith)⟩
  · exact ⟨⟨0, 1, 0⟩, by simp [octa], hle _ (by simp only [rdot, sub_x, sub_y, sub_z]; nlinarith)⟩
  · exact ⟨⟨0, -1, 0⟩, by simp [octa], hle _ (by simp only [rdot, sub_x, sub_y, sub_z]; nlinarith)⟩
  · exact ⟨⟨0, 0, 1⟩, by simp [octa], hle _ (by simp only [rdot, sub_x, sub_y, sub_z]; nlinarith)⟩
  · exact ⟨⟨0, 0, -1⟩, by simp [octa], hle _ (by simp only [rdot, sub_x, sub_y, sub_z]; nlinarith)⟩

example : ∃ p G T, mkPoly octa (fun _ => true) = .ok p ∧ Call.onNew p ⟨⟨2, 3, 5⟩, 2670, 1, false⟩ = .ok (G, T) ∧
    vlen (G.sub (V3.smul (100000 * 1 * (2670 * (4 / 3 * Real.pi * 1 ^ 3)) / vlen ((⟨2, 3, 5⟩ : V3 ℝ).sub V3.zeros) ^ 3) (V3.zeros.sub ⟨2, 3, 5⟩))) ≤
      |100000 * 1 * (2670 : ℝ)| * (4 / 3 * Real.pi * (1 ^ 3 - (1 - 0.92) ^ 3)) / (vlen ((⟨2, 3, 5⟩ : V3 ℝ).sub V3.zeros) - 1) ^ 2 := by
  obtain ⟨p, hp⟩ := hull_mkPoly_ok octa_isHull (fun _ => true)
  have hc : ∀ t ∈ octa.simplices, ∀ i, Corner t i → octa.pt i ≠ ⟨2, 3, 5⟩ := by
    intro t ht i hi
    have : i < 6 := octa_isHull.cornerIndex t ht i hi
    interval_cases i <;> simp [octa_pt0, octa_pt1, octa_pt2, octa_pt3, octa_pt4, octa_pt5]
  obtain ⟨G, T, hv⟩ := C22_total octa_isHull hp hc 2670 1
  refine ⟨p, G, T, hp, hv, (C94_dense octa_isHull hp (by norm_num) (by norm_num) octa_in_sphere octa_dense octa_regular_out hv).2 ?_⟩
  rw [vlen, Real.lt_sqrt (by norm_num)]
  simp only [rdot, sub_x, sub_y, sub_z, zeros_x, zeros_y, zeros_z]
  norm_num

example : eball V3.zeros (1 - 0.92) ⊆ octa.body ∧ octa.body ⊆ eball V3.zeros 1 := ball_between (by norm_num) octa_in_sphere octa_dense

end
end Geec
