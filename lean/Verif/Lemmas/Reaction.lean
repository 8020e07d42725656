import Verif.Lemmas.Plate
/-
Integrals of attractions over a second body, by Fubini's theorem.
-/
namespace Geec
open Arith MeasureTheory Metric Set Filter Topology
noncomputable section

theorem continuousOn_integrable {A : Set P3} (hA : Decent A) {f : P3 → ℝ} (hf : Continuous f) : IntegrableOn f A := by
  obtain ⟨M, hM⟩ := hA.bdd.subset_closedBall 0
  exact (hf.continuousOn.integrableOn_compact (isCompact_closedBall 0 M)).mono_set hM

theorem pair_integrable {A B : Set P3} (hA : Decent A) (hB : Decent B) {φ : P3 → ℝ} (hφ : Continuous φ) (d : P3) :
    Integrable (fun z : P3 × P3 => φ z.1 * pull d (z.2 - z.1)) ((volume.restrict A).prod (volume.restrict B)) := by
  have hmeas : Measurable fun z : P3 × P3 => φ z.1 * pull d (z.2 - z.1) :=
    (hφ.measurable.comp measurable_fst).mul ((pull_meas d).comp (measurable_snd.sub measurable_fst))
  refine (integrable_prod_iff hmeas.aestronglyMeasurable).mpr ⟨Eventually.of_forall fun x => ?_, ?_⟩
  · exact (kernel_integrable (k := pull d) hB.meas hB.bdd (pull_meas d) (pull_le d) x).const_mul (φ x)
  · have hc : Continuous fun x : P3 => |φ x| * ∫ y in B, ‖pull d (y - x)‖ :=
      hφ.abs.mul (kernel_continuous (k := fun y => ‖pull d y‖) hB (pull_meas d).norm (fun y => by rw [Real.norm_eq_abs, abs_abs]; exact pull_le d y))
    refine (continuousOn_integrable hA hc).congr (Eventually.of_forall fun x => ?_)
    simp only [norm_mul, Real.norm_eq_abs]
    rw [integral_const_mul]

/-- exchange of the two bodies -/
theorem pair_swap {A B : Set P3} {K : P3 → P3 → ℝ} (hK : Integrable (fun z : P3 × P3 => K z.1 z.2) ((volume.restrict A).prod (volume.restrict B)))
    (hanti : ∀ x y, K x y = -K y x) : ∫ x in A, ∫ y in B, K x y = -∫ y in B, ∫ x in A, K y x := by
  rw [integral_integral_swap hK, ← integral_neg]
  refine integral_congr_ae (Eventually.of_forall fun y => ?_)
  dsimp only
  rw [← integral_neg]
  exact integral_congr_ae (Eventually.of_forall fun x => hanti x y)

theorem rad_neg (y : P3) : rad (-y) = rad y := by simp [rad]

theorem pull_swap (d x y : P3) : pull d (y - x) = -pull d (x - y) := by
  have : y - x = -(x - y) := by abel
  rw [this]
  unfold pull
  rw [rad_neg]
  simp only [Prod.fst_neg, Prod.snd_neg]
  ring

/-- **action and reaction** for the attractions of two bodies -/
theorem attraction_reaction {A B : Set P3} (hA : Decent A) (hB : Decent B) (d : V3 ℝ) :
    ∫ x in A, rdot (attraction B (P3.toV x)) d = -∫ y in B, rdot (attraction A (P3.toV y)) d := by
  have hi := pair_integrable hA hB (φ := fun _ => 1) continuous_const d.toP
  simp only [one_mul] at hi
  have := pair_swap (K := fun x y => pull d.toP (y - x)) hi fun x y => pull_swap _ _ _
  simp only [rdot_attraction hA, rdot_attraction hB, toV_toP]
  exact this

/-- the kernel of the moment about the origin -/
def turn (d : V3 ℝ) (x y : P3) : ℝ := pull (cross d (P3.toV x)).toP (y - x)

theorem turn_swap (d : V3 ℝ) (x y : P3) : turn d x y = -turn d y x := by
  unfold turn
  have : rad (y - x) = rad (x - y) := by rw [← rad_neg]; congr 1; abel
  unfold pull
  rw [this, ← neg_div]
  congr 1
  simp only [V3.toP, cross_x, cross_y, cross_z, P3.toV, Prod.fst_sub, Prod.snd_sub]
  ring

theorem turn_split (d : V3 ℝ) (x y : P3) : turn d x y = (cross d (P3.toV x)).x * pull (1, 0, 0) (y - x) + (cross d (P3.toV x)).y * pull (0, 1, 0) (y - x) +
    (cross d (P3.toV x)).z * pull (0, 0, 1) (y - x) := by
  unfold turn pull
  simp only [V3.toP, mul_one, mul_zero, add_zero, zero_add]
  ring

theorem turn_integrable {A B : Set P3} (hA : Decent A) (hB : Decent B) (d : V3 ℝ) :
    Integrable (fun z : P3 × P3 => turn d z.1 z.2) ((volume.restrict A).prod (volume.restrict B)) := by
  have h1 := pair_integrable hA hB (φ := fun x => (cross d (P3.toV x)).x) (by simp only [cross_x, P3.toV]; fun_prop) (1, 0, 0)
  have h2 := pair_integrable hA hB (φ := fun x => (cross d (P3.toV x)).y) (by simp only [cross_y, P3.toV]; fun_prop) (0, 1, 0)
  have h3 := pair_integrable hA hB (φ := fun x => (cross d (P3.toV x)).z) (by simp only [cross_z, P3.toV]; fun_prop) (0, 0, 1)
  exact ((h1.add h2).add h3).congr (Eventually.of_forall fun z => (turn_split d z.1 z.2).symm)

theorem rdot_cross_attraction {B : Set P3} (hB : Decent B) (x : P3) (d : V3 ℝ) : rdot d (cross (P3.toV x) (attraction B (P3.toV x))) = ∫ y in B, turn d x y := by
  have h : rdot d (cross (P3.toV x) (attraction B (P3.toV x))) = rdot (attraction B (P3.toV x)) (cross d (P3.toV x)) := by
    simp only [rdot, cross_x, cross_y, cross_z]; ring
  rw [h, rdot_attraction hB, toV_toP]
  rfl

/-- the moments of the mutual attractions cancel too -/
theorem moment_reaction {A B : Set P3} (hA : Decent A) (hB : Decent B) (d : V3 ℝ) :
    ∫ x in A, rdot d (cross (P3.toV x) (attraction B (P3.toV x))) = -∫ y in B, rdot d (cross (P3.toV y) (attraction A (P3.toV y))) := by
  simp only [rdot_cross_attraction hA, rdot_cross_attraction hB]
  exact pair_swap (turn_integrable hA hB d) (turn_swap d)

/-- **mean value**: the average of the attraction over a ball that the body does not enter -/
theorem attraction_mean {B : Set P3} (hB : Decent B) (s d : V3 ℝ) {r : ℝ} (hr : 0 < r) (hout : ∀ q ∈ B, r ≤ vlen ((P3.toV q).sub s)) :
    ∫ x in eball s r, rdot (attraction B (P3.toV x)) d = 4 / 3 * Real.pi * r ^ 3 * rdot (attraction B s) d := by
  rw [attraction_reaction (eball_decent s r) hB, rdot_attraction hB, ← integral_const_mul, ← integral_neg]
  refine setIntegral_congr_fun hB.meas fun q hq => ?_
  have hq' := hout q hq
  rw [newton_ball hr, min_eq_left hq', rdot_comm, rdot_smul, pull_kernelAt]
  unfold kernelAt
  rw [rdot_comm d]
  ring

end
end Geec
