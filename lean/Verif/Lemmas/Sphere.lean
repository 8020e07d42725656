import Verif.Props.Stability
import Mathlib.Analysis.SpecialFunctions.PolarCoord
import Mathlib.MeasureTheory.Integral.IntervalIntegral.FundThmCalculus
import Mathlib.MeasureTheory.Integral.Prod
/-
The attraction of a homogeneous ball (Newton's theorem), by slices.
-/
namespace Geec
open Arith MeasureTheory Metric Set Filter Topology
noncomputable section

/-- the closed ball of radius `R` about `c` -/
def eball (c : V3 ℝ) (R : ℝ) : Set P3 := {q | dist3 q c ≤ R}

theorem disc_integral {t ρ : ℝ} (ht : t ≠ 0) (hρ : 0 ≤ ρ) :
    ∫ p : ℝ × ℝ, {p : ℝ × ℝ | p.1 ^ 2 + p.2 ^ 2 ≤ ρ ^ 2}.indicator (fun p => t / Real.sqrt (t ^ 2 + p.1 ^ 2 + p.2 ^ 2) ^ 3) p =
      2 * Real.pi * (t / |t| - t / Real.sqrt (t ^ 2 + ρ ^ 2)) := by
  rw [← integral_comp_polarCoord_symm]
  have hcs : ∀ a b : ℝ, (a * Real.cos b) ^ 2 + (a * Real.sin b) ^ 2 = a ^ 2 := by
    intro a b; nlinarith [Real.sin_sq_add_cos_sq b]
  have e1 : ∀ p : ℝ × ℝ, p.1 • {p : ℝ × ℝ | p.1 ^ 2 + p.2 ^ 2 ≤ ρ ^ 2}.indicator (fun p => t / Real.sqrt (t ^ 2 + p.1 ^ 2 + p.2 ^ 2) ^ 3) (polarCoord.symm p) =
      (p.1 * {r : ℝ | r ^ 2 ≤ ρ ^ 2}.indicator (fun r => t / Real.sqrt (t ^ 2 + r ^ 2) ^ 3) p.1) * 1 := by
    intro p
    rw [polarCoord_symm_apply, smul_eq_mul, mul_one]
    congr 1
    by_cases h : p.1 ^ 2 ≤ ρ ^ 2
    · rw [indicator_of_mem (by simpa only [mem_ofPred_eq, hcs] using h), indicator_of_mem (by exact h)]
      simp only
      rw [add_assoc, hcs]
    · rw [indicator_of_notMem (by simpa only [mem_ofPred_eq, hcs] using h), indicator_of_notMem (by exact h)]
  simp only [e1]
  rw [polarCoord_target, Measure.volume_eq_prod, setIntegral_prod_mul (fun r : ℝ => r * {r : ℝ | r ^ 2 ≤ ρ ^ 2}.indicator (fun r => t / Real.sqrt (t ^ 2 + r ^ 2) ^ 3) r) (fun _ => (1 : ℝ))]
  have e2 : ∫ r in Ioi (0 : ℝ), r * {r : ℝ | r ^ 2 ≤ ρ ^ 2}.indicator (fun r => t / Real.sqrt (t ^ 2 + r ^ 2) ^ 3) r =
      ∫ r in (0 : ℝ)..ρ, r * (t / Real.sqrt (t ^ 2 + r ^ 2) ^ 3) := by
    rw [intervalIntegral.integral_of_le hρ]
    have : ∀ r : ℝ, r * {r : ℝ | r ^ 2 ≤ ρ ^ 2}.indicator (fun r => t / Real.sqrt (t ^ 2 + r ^ 2) ^ 3) r =
        {r : ℝ | r ^ 2 ≤ ρ ^ 2}.indicator (fun r => r * (t / Real.sqrt (t ^ 2 + r ^ 2) ^ 3)) r := by
      intro r; by_cases h : r ^ 2 ≤ ρ ^ 2
      · rw [indicator_of_mem (by exact h), indicator_of_mem (by exact h)]
      · rw [indicator_of_notMem (by exact h), indicator_of_notMem (by exact h), mul_zero]
    simp only [this]
    rw [setIntegral_indicator (measurableSet_le (by fun_prop) (by fun_prop))]
    congr 2
    ext r
    simp only [mem_inter_iff, mem_Ioi, mem_ofPred_eq, mem_Ioc]
    constructor
    · rintro ⟨h1, h2⟩; exact ⟨h1, by nlinarith⟩
    · rintro ⟨h1, h2⟩; exact ⟨h1, by nlinarith⟩
  have e3 : ∫ r in (0 : ℝ)..ρ, r * (t / Real.sqrt (t ^ 2 + r ^ 2) ^ 3) = -t / Real.sqrt (t ^ 2 + ρ ^ 2) - -t / Real.sqrt (t ^ 2 + 0 ^ 2) := by
    have hpos : ∀ r : ℝ, 0 < t ^ 2 + r ^ 2 := fun r => by positivity
    refine intervalIntegral.integral_eq_sub_of_hasDerivAt (f := fun r => -t / Real.sqrt (t ^ 2 + r ^ 2)) (fun r _ => ?_) ?_
    · have h1 : HasDerivAt (fun r : ℝ => t ^ 2 + r ^ 2) (2 * r) r := by simpa using (hasDerivAt_pow 2 r).const_add (t ^ 2)
      have h2 := h1.sqrt (hpos r).ne'
      have hs : Real.sqrt (t ^ 2 + r ^ 2) ≠ 0 := (Real.sqrt_pos.mpr (hpos r)).ne'
      refine ((hasDerivAt_const r (-t)).div h2 hs).congr_deriv ?_
      field_simp; ring
    · apply Continuous.intervalIntegrable
      refine Continuous.mul continuous_id (Continuous.div continuous_const (by fun_prop) fun r => ?_)
      exact pow_ne_zero 3 (Real.sqrt_pos.mpr (hpos r)).ne'
  have e4 : ∫ _ in Ioo (-Real.pi) Real.pi, (1 : ℝ) = 2 * Real.pi := by
    simp [Real.volume_real_Ioo_of_le (by linarith [Real.pi_pos] : -Real.pi ≤ Real.pi)]; ring
  rw [e2, e3, e4]
  have : Real.sqrt (t ^ 2 + 0 ^ 2) = |t| := by rw [zero_pow two_ne_zero, add_zero, Real.sqrt_sq_eq_abs]
  rw [this]
  ring

/-- the integral along the axis -/
theorem axis_integral {R d : ℝ} (hR : 0 < R) (hd : 0 < d) (hne : d ≠ R) :
    ∫ x in (-R)..R, ((x - d) / |x - d| - (x - d) / Real.sqrt ((x - d) ^ 2 + (R ^ 2 - x ^ 2))) = -(2 / 3) * min R d ^ 3 / d ^ 2 := by
  have hw : ∀ x ∈ Icc (-R) R, 0 < (x - d) ^ 2 + (R ^ 2 - x ^ 2) := by
    intro x hx
    have h1 : 0 < (d - R) ^ 2 := by have := sub_ne_zero.mpr hne; positivity
    nlinarith [hx.1, hx.2]
  have hle : -R ≤ R := by linarith
  -- the second part
  have i2 : IntervalIntegrable (fun x => (x - d) / Real.sqrt ((x - d) ^ 2 + (R ^ 2 - x ^ 2))) volume (-R) R := by
    apply ContinuousOn.intervalIntegrable
    rw [uIcc_of_le hle]
    refine ContinuousOn.div (by fun_prop) (by fun_prop) fun x hx => (Real.sqrt_pos.mpr (hw x hx)).ne'
  have v2 : ∫ x in (-R)..R, (x - d) / Real.sqrt ((x - d) ^ 2 + (R ^ 2 - x ^ 2)) =
      -(1 / (4 * d ^ 2)) * (2 * (R ^ 2 - d ^ 2) * (|d - R| - (d + R)) - (2 / 3) * (|d - R| ^ 3 - (d + R) ^ 3)) := by
    set F : ℝ → ℝ := fun x => -(1 / (4 * d ^ 2)) * (2 * (R ^ 2 - d ^ 2) * Real.sqrt ((x - d) ^ 2 + (R ^ 2 - x ^ 2)) -
      (2 / 3) * Real.sqrt ((x - d) ^ 2 + (R ^ 2 - x ^ 2)) ^ 3) with hF
    have hder : ∀ x ∈ uIcc (-R) R, HasDerivAt F ((x - d) / Real.sqrt ((x - d) ^ 2 + (R ^ 2 - x ^ 2))) x := by
      intro x hx
      rw [uIcc_of_le hle] at hx
      have h0 := hw x hx
      have h1 : HasDerivAt (fun x : ℝ => (x - d) ^ 2 + (R ^ 2 - x ^ 2)) (-2 * d) x := by
        have : (fun x : ℝ => (x - d) ^ 2 + (R ^ 2 - x ^ 2)) = fun x => -2 * d * x + (d ^ 2 + R ^ 2) := by funext x; ring
        rw [this]
        simpa using ((hasDerivAt_id x).const_mul (-2 * d)).add_const (d ^ 2 + R ^ 2)
      have h2 := h1.sqrt h0.ne'
      have hs := Real.sqrt_pos.mpr h0
      have hsq : Real.sqrt ((x - d) ^ 2 + (R ^ 2 - x ^ 2)) ^ 2 = (x - d) ^ 2 + (R ^ 2 - x ^ 2) := Real.sq_sqrt h0.le
      refine (((h2.const_mul (2 * (R ^ 2 - d ^ 2))).sub ((h2.pow 3).const_mul (2 / 3))).const_mul (-(1 / (4 * d ^ 2)))).congr_deriv ?_
      generalize Real.sqrt ((x - d) ^ 2 + (R ^ 2 - x ^ 2)) = w at hs hsq ⊢
      field_simp
      simp only [Nat.cast_ofNat, Nat.add_one_sub_one]
      nlinarith
    rw [intervalIntegral.integral_eq_sub_of_hasDerivAt hder i2]
    have r1 : Real.sqrt ((R - d) ^ 2 + (R ^ 2 - R ^ 2)) = |d - R| := by
      rw [sub_self, add_zero, Real.sqrt_sq_eq_abs, abs_sub_comm]
    have r2 : Real.sqrt ((-R - d) ^ 2 + (R ^ 2 - (-R) ^ 2)) = d + R := by
      rw [show (-R - d) ^ 2 + (R ^ 2 - (-R) ^ 2) = (d + R) ^ 2 by ring, Real.sqrt_sq (by linarith)]
    simp only [hF, r1, r2]
    ring
  -- the first part
  have s1 : ∀ a b : ℝ, a ≤ b → b ≤ d → IntervalIntegrable (fun x => (x - d) / |x - d|) volume a b ∧ ∫ x in a..b, (x - d) / |x - d| = -(b - a) := by
    intro a b hab hbd
    have hc : ∀ x ∈ Ioo a b, (fun _ => (-1 : ℝ)) x = (x - d) / |x - d| := by
      intro x hx
      have : x - d < 0 := by linarith [hx.2]
      rw [abs_of_neg this, div_neg, div_self this.ne]
    have hae : ∀ᵐ x, x ∈ uIoc a b → (fun _ => (-1 : ℝ)) x = (x - d) / |x - d| := by
      rw [uIoc_of_le hab]
      have hb0 : ∀ᵐ x : ℝ, x ≠ b := by simp [ae_iff]
      filter_upwards [hb0] with x hx h
      exact hc x ⟨h.1, lt_of_le_of_ne h.2 hx⟩
    refine ⟨(intervalIntegrable_const (c := (-1 : ℝ))).congr_ae ?_, ?_⟩
    · rw [EventuallyEq, ae_restrict_iff' measurableSet_uIoc]; exact hae
    · rw [← intervalIntegral.integral_congr_ae hae]; simp
  have s2 : ∀ a b : ℝ, a ≤ b → d ≤ a → IntervalIntegrable (fun x => (x - d) / |x - d|) volume a b ∧ ∫ x in a..b, (x - d) / |x - d| = b - a := by
    intro a b hab hbd
    have hae : ∀ᵐ x, x ∈ uIoc a b → (fun _ => (1 : ℝ)) x = (x - d) / |x - d| := by
      rw [uIoc_of_le hab]
      refine Eventually.of_forall fun x h => ?_
      have : 0 < x - d := by linarith [h.1]
      simp only
      rw [abs_of_pos this, div_self this.ne']
    refine ⟨(intervalIntegrable_const (c := (1 : ℝ))).congr_ae ?_, ?_⟩
    · rw [EventuallyEq, ae_restrict_iff' measurableSet_uIoc]; exact hae
    · rw [← intervalIntegral.integral_congr_ae hae]; simp
  rcases lt_or_gt_of_ne hne with hlt | hgt
  · obtain ⟨j1, w1⟩ := s1 (-R) d (by linarith) le_rfl
    obtain ⟨j2, w2⟩ := s2 d R hlt.le le_rfl
    rw [intervalIntegral.integral_sub (j1.trans j2) i2, ← intervalIntegral.integral_add_adjacent_intervals j1 j2, w1, w2, v2,
      abs_of_neg (by linarith : d - R < 0), min_eq_right hlt.le]
    field_simp; ring
  · obtain ⟨j1, w1⟩ := s1 (-R) R (by linarith) hgt.le
    rw [intervalIntegral.integral_sub j1 i2, w1, v2, abs_of_pos (by linarith : 0 < d - R), min_eq_left hgt.le]
    field_simp; ring

theorem eball_closed (c : V3 ℝ) (R : ℝ) : IsClosed (eball c R) := isClosed_le (by unfold dist3; fun_prop) continuous_const

theorem eball_rad {c : V3 ℝ} {R : ℝ} {q : P3} : q ∈ eball c R ↔ rad (q - c.toP) ≤ R := Iff.rfl

theorem eball_compact (c : V3 ℝ) (R : ℝ) : IsCompact (eball c R) := by
  refine Metric.isCompact_of_isClosed_isBounded (eball_closed c R) (isBounded_closedBall (x := c.toP) (r := R) |>.subset ?_)
  intro q hq
  rw [mem_closedBall, dist_eq_norm]
  exact (norm_le_rad _).trans hq

theorem vlen_toV (q : P3) : vlen (P3.toV q) = rad q := by
  unfold vlen rad; congr 1; simp only [rdot, P3.toV]; ring

theorem rad_add_le (p q : P3) : rad (p + q) ≤ rad p + rad q := by
  have := vlen_add_le (P3.toV p) (P3.toV q)
  rwa [vlen_toV, vlen_toV, show (P3.toV p).add (P3.toV q) = P3.toV (p + q) from rfl, vlen_toV] at this

theorem rad_smul (t : ℝ) (p : P3) : rad (t • p) = |t| * rad p := by
  have := vlen_smul t (P3.toV p)
  rwa [vlen_toV, show V3.smul t (P3.toV p) = P3.toV (t • p) from rfl, vlen_toV] at this

theorem eball_convex (c : V3 ℝ) (R : ℝ) : Convex ℝ (eball c R) := by
  intro p hp q hq a b ha hb hab
  rw [eball_rad] at *
  have : a • p + b • q - c.toP = a • (p - c.toP) + b • (q - c.toP) := by
    have hb : b = 1 - a := by linarith
    subst hb
    module
  rw [this]
  refine (rad_add_le _ _).trans ?_
  rw [rad_smul, rad_smul, abs_of_nonneg ha, abs_of_nonneg hb]
  calc a * rad (p - c.toP) + b * rad (q - c.toP) ≤ a * R + b * R := by gcongr
    _ = R := by rw [← add_mul, hab, one_mul]

theorem eball_decent (c : V3 ℝ) (R : ℝ) : Decent (eball c R) :=
  ⟨(eball_closed c R).measurableSet, (eball_compact c R).isBounded, (eball_convex c R).addHaar_frontier volume⟩

/-- the attraction of a ball about the origin at a point of the first axis -/
theorem ball_axis {R d : ℝ} (hR : 0 < R) (hd : 0 < d) (hne : d ≠ R) :
    (attraction (eball V3.zeros R) ⟨d, 0, 0⟩).x = -(4 / 3) * Real.pi * min R d ^ 3 / d ^ 2 := by
  have hi : IntegrableOn (fun q : P3 => (q.1 - d) / dist3 q ⟨d, 0, 0⟩ ^ 3) (eball V3.zeros R) := by
    have := kernel_integrable (eball_decent V3.zeros R).meas (eball_decent V3.zeros R).bdd (pull_meas (1, 0, 0)) (pull_le (1, 0, 0)) (⟨d, 0, 0⟩ : V3 ℝ).toP
    refine this.congr_fun (fun q _ => ?_) (eball_decent V3.zeros R).meas
    simp [pull, dist3_eq_rad, V3.toP]
  unfold attraction
  simp only
  rw [← integral_indicator (eball_decent V3.zeros R).meas]
  rw [← integrable_indicator_iff (eball_decent V3.zeros R).meas] at hi
  rw [Measure.volume_eq_prod] at hi ⊢
  rw [integral_prod _ hi]
  have hmem : ∀ (x : ℝ) (p : ℝ × ℝ), ((x, p) : P3) ∈ eball V3.zeros R ↔ x ^ 2 + (p.1 ^ 2 + p.2 ^ 2) ≤ R ^ 2 := by
    intro x p
    simp only [eball, mem_ofPred_eq, dist3, zeros_x, zeros_y, zeros_z, sub_zero]
    rw [Real.sqrt_le_left hR.le, add_assoc]
  have hslice : ∀ x : ℝ, x ≠ d → (∫ p : ℝ × ℝ, (eball V3.zeros R).indicator (fun q : P3 => (q.1 - d) / dist3 q ⟨d, 0, 0⟩ ^ 3) (x, p)) =
      (Icc (-R) R).indicator (fun x => 2 * Real.pi * ((x - d) / |x - d| - (x - d) / Real.sqrt ((x - d) ^ 2 + (R ^ 2 - x ^ 2)))) x := by
    intro x hx
    by_cases hxR : x ∈ Icc (-R) R
    · rw [indicator_of_mem hxR]
      have h0 : 0 ≤ R ^ 2 - x ^ 2 := by nlinarith [hxR.1, hxR.2]
      have hd := disc_integral (sub_ne_zero.mpr hx) (Real.sqrt_nonneg (R ^ 2 - x ^ 2))
      rw [Real.sq_sqrt h0] at hd
      rw [← hd]
      refine integral_congr_ae (Eventually.of_forall fun p => ?_)
      simp only
      by_cases hp : p.1 ^ 2 + p.2 ^ 2 ≤ R ^ 2 - x ^ 2
      · rw [indicator_of_mem ((hmem x p).mpr (by linarith)), indicator_of_mem (by exact hp)]
        simp only [dist3, sub_zero]
      · rw [indicator_of_notMem (fun h => hp (by linarith [(hmem x p).mp h])), indicator_of_notMem (by exact hp)]
    · rw [indicator_of_notMem hxR]
      refine integral_eq_zero_of_ae (Eventually.of_forall fun p => ?_)
      simp only [Pi.zero_apply]
      rw [indicator_of_notMem]
      intro h
      have := (hmem x p).mp h
      apply hxR
      exact abs_le.mp (abs_le_of_sq_le_sq (by nlinarith [sq_nonneg p.1, sq_nonneg p.2]) hR.le)
  have hae : ∀ᵐ x : ℝ, x ≠ d := by simp [ae_iff]
  rw [integral_congr_ae (hae.mono hslice), integral_indicator measurableSet_Icc, integral_Icc_eq_integral_Ioc,
    ← intervalIntegral.integral_of_le (by linarith), intervalIntegral.integral_const_mul, axis_integral hR hd hne]
  ring

theorem pull_kernelAt (s e : V3 ℝ) (q : P3) : pull e.toP (q - s.toP) = kernelAt s e q := by
  unfold pull kernelAt
  rw [← dist3_eq_rad]
  congr 1
  congr 1
  rw [rad_toV, dist3_eq_rad]

/-- the transposed matrix -/
def M3.tapply (R : M3 ℝ) (e : V3 ℝ) : V3 ℝ := ((V3.smul e.x R.r0).add (V3.smul e.y R.r1)).add (V3.smul e.z R.r2)

theorem attraction_moved {B : Set P3} (hB : Decent B) {R : M3 ℝ} (hR : IsOrthogonal R) (t s e : V3 ℝ) (hB' : Decent (similarMap 1 R t '' B)) :
    rdot (attraction (similarMap 1 R t '' B) (similar 1 R t s)) e = rdot (attraction B s) (R.tapply e) := by
  rw [rdot_attraction hB', rdot_attraction hB]
  simp only [pull_kernelAt]
  rw [integral_similar one_pos hR t hB.meas]
  simp only [kernelAt_similar one_pos hR, one_pow, one_mul, div_one]
  rfl

theorem vec_eq_of_dot {a b : V3 ℝ} (h : ∀ e, rdot a e = rdot b e) : a = b := by
  have hx := h ⟨1, 0, 0⟩
  have hy := h ⟨0, 1, 0⟩
  have hz := h ⟨0, 0, 1⟩
  simp only [rdot, mul_one, mul_zero, add_zero, zero_add] at hx hy hz
  exact V3.ext' hx hy hz

theorem eball_moved {R : M3 ℝ} (hR : IsOrthogonal R) (hinv : ∀ a, R.apply (R.apply a) = a) (c : V3 ℝ) (r : ℝ) :
    similarMap 1 R c '' eball V3.zeros r = eball c r := by
  have hsub : ∀ a, similar 1 R c a = (R.apply a).add c := by
    intro a; unfold similar; congr 1; refine V3.ext' ?_ ?_ ?_ <;> simp
  have hlen : ∀ a, vlen (R.apply a) = vlen a := by intro a; unfold vlen; rw [hR.rdot_apply]
  have hd : ∀ (q : P3) (s : V3 ℝ), dist3 q s = vlen ((P3.toV q).sub s) := by
    intro q s; rw [rad_toV, dist3_eq_rad]
  ext q
  constructor
  · rintro ⟨a, ha, rfl⟩
    simp only [eball, mem_ofPred_eq, hd] at ha ⊢
    rw [similarMap, toP_toV, hsub]
    have e1 : ((R.apply (P3.toV a)).add c).sub c = R.apply (P3.toV a) := by refine V3.ext' ?_ ?_ ?_ <;> simp
    have e2 : (P3.toV a).sub V3.zeros = P3.toV a := by refine V3.ext' ?_ ?_ ?_ <;> simp
    rw [e1, hlen]; rwa [e2] at ha
  · intro hq
    simp only [eball, mem_ofPred_eq, hd] at hq
    refine ⟨(R.apply ((P3.toV q).sub c)).toP, ?_, ?_⟩
    · simp only [eball, mem_ofPred_eq, hd, toP_toV]
      have e2 : (R.apply ((P3.toV q).sub c)).sub V3.zeros = R.apply ((P3.toV q).sub c) := by refine V3.ext' ?_ ?_ ?_ <;> simp
      rw [e2, hlen]; exact hq
    · rw [similarMap, toP_toV, hsub, hinv]
      have : ((P3.toV q).sub c).add c = P3.toV q := by refine V3.ext' ?_ ?_ ?_ <;> simp
      rw [this, toV_toP]

/-- a mirror image that takes the first axis to a given direction -/
theorem mirror_exists (u : V3 ℝ) (hu : rdot u u = 1) : ∃ H : M3 ℝ, IsOrthogonal H ∧ (∀ a, H.apply (H.apply a) = a) ∧ (∀ a, H.tapply a = H.apply a) ∧
    H.r0 = u ∧ ∀ d : ℝ, H.apply ⟨d, 0, 0⟩ = V3.smul d u := by
  obtain ⟨a, b, c⟩ := u
  simp only [rdot] at hu
  by_cases ha : a = 1
  · subst ha
    have hb : b = 0 := by nlinarith
    have hc : c = 0 := by nlinarith
    subst hb hc
    refine ⟨⟨⟨1, 0, 0⟩, ⟨0, 1, 0⟩, ⟨0, 0, 1⟩⟩, ?_, ?_, ?_, rfl, ?_⟩
    · constructor <;> simp [rdot]
    · intro x; refine V3.ext' ?_ ?_ ?_ <;> simp [M3.apply, rdot]
    · intro x; refine V3.ext' ?_ ?_ ?_ <;> simp [M3.apply, M3.tapply, rdot]
    · intro d; refine V3.ext' ?_ ?_ ?_ <;> simp [M3.apply, rdot]
  · obtain ⟨k, hk⟩ : ∃ k : ℝ, k * (1 - a) = 1 := ⟨(1 - a)⁻¹, inv_mul_cancel₀ (sub_ne_zero.mpr (Ne.symm ha))⟩
    refine ⟨⟨⟨a, b, c⟩, ⟨b, 1 - k * b ^ 2, -k * b * c⟩, ⟨c, -k * b * c, 1 - k * c ^ 2⟩⟩, ?_, ?_, ?_, rfl, ?_⟩
    · constructor <;> simp only [rdot]
      · exact hu
      · linear_combination k ^ 2 * b ^ 2 * hu + (b ^ 2 * k * (1 + a) - b ^ 2) * hk
      · linear_combination k ^ 2 * c ^ 2 * hu + (c ^ 2 * k * (1 + a) - c ^ 2) * hk
      · linear_combination -k * b * hu - b * (1 + a) * hk
      · linear_combination -k * c * hu - c * (1 + a) * hk
      · linear_combination k ^ 2 * b * c * hu + (b * c * k * (1 + a) - b * c) * hk
    · intro x
      refine V3.ext' ?_ ?_ ?_ <;> simp only [M3.apply, rdot]
      · linear_combination x.x * hu + x.y * (-k * b * hu - b * (1 + a) * hk) + x.z * (-k * c * hu - c * (1 + a) * hk)
      · linear_combination x.y * (k ^ 2 * b ^ 2 * hu + (b ^ 2 * k * (1 + a) - b ^ 2) * hk) + x.x * (-k * b * hu - b * (1 + a) * hk) +
          x.z * (k ^ 2 * b * c * hu + (b * c * k * (1 + a) - b * c) * hk)
      · linear_combination x.z * (k ^ 2 * c ^ 2 * hu + (c ^ 2 * k * (1 + a) - c ^ 2) * hk) + x.x * (-k * c * hu - c * (1 + a) * hk) +
          x.y * (k ^ 2 * b * c * hu + (b * c * k * (1 + a) - b * c) * hk)
    · intro x; refine V3.ext' ?_ ?_ ?_ <;> simp [M3.apply, M3.tapply, rdot] <;> ring
    · intro d; refine V3.ext' ?_ ?_ ?_ <;> simp [M3.apply, rdot] <;> ring

/-- the attraction of a ball about the origin at a point of the first axis has no other component -/
theorem ball_axis_side (R d : ℝ) : (attraction (eball V3.zeros R) ⟨d, 0, 0⟩).y = 0 ∧ (attraction (eball V3.zeros R) ⟨d, 0, 0⟩).z = 0 := by
  let H : M3 ℝ := ⟨⟨1, 0, 0⟩, ⟨0, -1, 0⟩, ⟨0, 0, -1⟩⟩
  have hH : IsOrthogonal H := by constructor <;> simp [H, rdot]
  have hm := eball_moved hH (by intro a; refine V3.ext' ?_ ?_ ?_ <;> simp [H, M3.apply, rdot]) V3.zeros R
  have hs : similar 1 H V3.zeros ⟨d, 0, 0⟩ = ⟨d, 0, 0⟩ := by refine V3.ext' ?_ ?_ ?_ <;> simp [H, similar, M3.apply, rdot]
  have key := fun e => attraction_moved (eball_decent V3.zeros R) hH V3.zeros ⟨d, 0, 0⟩ e (by rw [hm]; exact eball_decent _ _)
  rw [hm, hs] at key
  have ky := key ⟨0, 1, 0⟩
  have kz := key ⟨0, 0, 1⟩
  simp [H, M3.tapply, rdot] at ky kz
  constructor <;> linarith

/-- **Newton's theorem**: a homogeneous ball attracts points outside as if its mass were at its centre, and points inside as the ball of their own radius. -/
theorem newton_ball {R : ℝ} (hR : 0 < R) (c s : V3 ℝ) :
    attraction (eball c R) s = V3.smul (-(4 / 3) * Real.pi * min R (vlen (s.sub c)) ^ 3 / vlen (s.sub c) ^ 3) (s.sub c) := by
  -- on a line through the centre
  have line : ∀ (u : V3 ℝ) (_ : rdot u u = 1) (d : ℝ) (_ : 0 < d) (_ : d ≠ R) (e : V3 ℝ),
      rdot (attraction (eball c R) (c.add (V3.smul d u))) e = -(4 / 3) * Real.pi * min R d ^ 3 / d ^ 2 * rdot u e := by
    intro u hu d hd hne e
    obtain ⟨H, hH, hinv, ht, h0, hap⟩ := mirror_exists u hu
    have hm := eball_moved hH hinv c R
    have hs : similar 1 H c ⟨d, 0, 0⟩ = c.add (V3.smul d u) := by
      unfold similar; rw [hap]; refine V3.ext' ?_ ?_ ?_ <;> simp <;> ring
    have key := attraction_moved (eball_decent V3.zeros R) hH c ⟨d, 0, 0⟩ e (by rw [hm]; exact eball_decent _ _)
    rw [hm, hs] at key
    obtain ⟨hy, hz⟩ := ball_axis_side R d
    rw [key, ht, rdot, hy, hz, ball_axis hR hd hne]
    simp only [M3.apply, h0]
    ring
  by_cases h0 : s = c
  · subst h0
    have e0 : s.sub s = V3.zeros := by refine V3.ext' ?_ ?_ ?_ <;> simp
    rw [e0]
    let H : M3 ℝ := ⟨⟨-1, 0, 0⟩, ⟨0, -1, 0⟩, ⟨0, 0, -1⟩⟩
    have hH : IsOrthogonal H := by constructor <;> simp [H, rdot]
    have hm := eball_moved hH (by intro a; refine V3.ext' ?_ ?_ ?_ <;> simp [H, M3.apply, rdot]) s R
    have hs : similar 1 H s V3.zeros = s := by refine V3.ext' ?_ ?_ ?_ <;> simp [H, similar, M3.apply, rdot]
    have hm' := eball_moved unitM3_orthogonal (by intro a; refine V3.ext' ?_ ?_ ?_ <;> simp [unitM3, M3.apply, rdot]) s R
    have hs' : similar 1 unitM3 s V3.zeros = s := by refine V3.ext' ?_ ?_ ?_ <;> simp [unitM3, similar, M3.apply, rdot]
    refine vec_eq_of_dot fun e => ?_
    have k1 := attraction_moved (eball_decent V3.zeros R) hH s V3.zeros e (by rw [hm]; exact eball_decent _ _)
    have k2 := attraction_moved (eball_decent V3.zeros R) unitM3_orthogonal s V3.zeros e (by rw [hm']; exact eball_decent _ _)
    rw [hm, hs] at k1
    rw [hm', hs'] at k2
    simp [H, M3.tapply, unitM3, rdot] at k1 k2 ⊢
    linarith
  · have hv : 0 < vlen (s.sub c) := vlen_pos (fun h => h0 (V3.ext' (by have := congrArg V3.x h; simp at this; linarith)
      (by have := congrArg V3.y h; simp at this; linarith) (by have := congrArg V3.z h; simp at this; linarith)))
    set d := vlen (s.sub c) with hd
    set u := V3.smul (1 / d) (s.sub c) with hu
    have hu1 : rdot u u = 1 := by
      rw [hu, smul_rdot, rdot_smul, ← vlen_sq, ← hd]; field_simp
    have hsu : s = c.add (V3.smul d u) := by
      rw [hu]; refine V3.ext' ?_ ?_ ?_ <;> simp <;> field_simp <;> ring
    refine vec_eq_of_dot fun e => ?_
    have hgoal : rdot (V3.smul (-(4 / 3) * Real.pi * min R d ^ 3 / d ^ 3) (s.sub c)) e = -(4 / 3) * Real.pi * min R d ^ 3 / d ^ 2 * rdot u e := by
      rw [hu, smul_rdot, smul_rdot]; field_simp
    rw [hgoal]
    by_cases hne : d = R
    · have hc1 : Tendsto (fun t => rdot (attraction (eball c R) (c.add (V3.smul t u))) e) (𝓝[≠] d) (𝓝 (rdot (attraction (eball c R) (c.add (V3.smul d u))) e)) :=
        ((attraction_continuous (eball_decent c R) c u e).tendsto d).mono_left nhdsWithin_le_nhds
      have hc2 : Tendsto (fun t : ℝ => -(4 / 3) * Real.pi * min R t ^ 3 / t ^ 2 * rdot u e) (𝓝[≠] d) (𝓝 (-(4 / 3) * Real.pi * min R d ^ 3 / d ^ 2 * rdot u e)) := by
        have : ContinuousAt (fun t : ℝ => -(4 / 3) * Real.pi * min R t ^ 3 / t ^ 2 * rdot u e) d :=
          ContinuousAt.mul (ContinuousAt.div (by fun_prop) (by fun_prop) (pow_ne_zero 2 hv.ne')) continuousAt_const
        exact this.tendsto.mono_left nhdsWithin_le_nhds
      have hev : ∀ᶠ t in 𝓝[≠] d, rdot (attraction (eball c R) (c.add (V3.smul t u))) e = -(4 / 3) * Real.pi * min R t ^ 3 / t ^ 2 * rdot u e := by
        have h1 : ∀ᶠ t in 𝓝[≠] d, 0 < t := (lt_mem_nhds hv).filter_mono nhdsWithin_le_nhds
        filter_upwards [h1, self_mem_nhdsWithin] with t h1 h2
        exact line u hu1 t h1 (by rw [← hne]; exact h2) e
      have := tendsto_nhds_unique hc1 ((tendsto_congr' hev).mpr hc2)
      rw [← this, ← hsu]
    · rw [← line u hu1 d hv hne e, ← hsu]

end
end Geec
