import Verif.Props.Newton
import Mathlib.MeasureTheory.Measure.Lebesgue.VolumeOfBalls
/-
The solid angles of a closed convex surface add up to `4π` from inside and to `0` from outside.
-/
namespace Geec
open Arith MeasureTheory
noncomputable section

/-- the ball around the station -/
def stationBall (s : V3 ℝ) (r : ℝ) : Set P3 := {q | vlen ((P3.toV q).sub s) < r}

theorem continuous_dist (s : V3 ℝ) : Continuous (fun q : P3 => vlen ((P3.toV q).sub s)) := by
  apply continuous_vlen <;> simp only [sub_x, sub_y, sub_z, P3.toV] <;> fun_prop

theorem isOpen_stationBall (s : V3 ℝ) (r : ℝ) : IsOpen (stationBall s r) := isOpen_lt (continuous_dist s) continuous_const

/-- coordinates -/
def coords3 : (Fin 3 → ℝ) ≃ᵐ P3 :=
  (MeasurableEquiv.piFinSuccAbove (fun _ : Fin 3 => ℝ) 0).trans ((MeasurableEquiv.refl ℝ).prodCongr MeasurableEquiv.finTwoArrow)

theorem coords3_preserving : MeasurePreserving coords3 := by
  refine (volume_preserving_piFinSuccAbove (fun _ : Fin 3 => ℝ) 0).trans ?_
  exact (MeasurePreserving.id volume).prod (volume_preserving_finTwoArrow ℝ)

theorem coords3_apply (v : Fin 3 → ℝ) : coords3 v = (v 0, v 1, v 2) := rfl

theorem volume_stationBall (s : V3 ℝ) {r : ℝ} (hr : 0 ≤ r) : volume (stationBall s r) = ENNReal.ofReal (4 / 3 * Real.pi * r ^ 3) := by
  have h1 := coords3_preserving.measure_preimage (isOpen_stationBall s r).measurableSet.nullMeasurableSet
  have h2 := (PiLp.volume_preserving_ofLp (Fin 3)).measure_preimage
    ((coords3.measurable (isOpen_stationBall s r).measurableSet).nullMeasurableSet)
  rw [← h1, ← h2]
  have : (WithLp.ofLp (p := 2) ⁻¹' (coords3 ⁻¹' stationBall s r) : Set (EuclideanSpace ℝ (Fin 3))) =
      Metric.ball (WithLp.toLp 2 ![s.x, s.y, s.z]) r := by
    ext v
    simp only [Set.mem_preimage, stationBall, Set.mem_ofPred_eq, Metric.mem_ball, EuclideanSpace.dist_eq, Fin.sum_univ_three, coords3_apply]
    unfold vlen rdot P3.toV
    simp only [sub_x, sub_y, sub_z, Real.dist_eq, sq_abs]
    simp [pow_two]
  rw [this, EuclideanSpace.volume_ball_fin_three, ← ENNReal.ofReal_pow hr, ← ENNReal.ofReal_mul (by positivity)]
  congr 1
  ring

theorem triPt_far {p1 p2 p3 n : V3 ℝ} {r : ℝ} (hn : rdot n n = 1) (h : ∀ t v, r ≤ |rdot n (triPt p1 p2 p3 t v)|) (t v : ℝ) :
    r ≤ vlen (triPt p1 p2 p3 t v) := by
  refine (h t v).trans ?_
  have h1 := abs_rdot_le n (triPt p1 p2 p3 t v)
  have h2 : vlen n = 1 := by unfold vlen; rw [hn, Real.sqrt_one]
  rw [h2, one_mul] at h1
  exact h1

/-- the part of a cone near its apex -/
theorem cone_ball (s : V3 ℝ) {p1 p2 p3 : V3 ℝ} (hD : det3 p1 p2 p3 ≠ 0) {r : ℝ} (hr : 0 < r) (hfar : ∀ t v, r ≤ vlen (triPt p1 p2 p3 t v)) :
    ∫ q in openCone s p1 p2 p3, (stationBall s r).indicator (fun _ => (1 : ℝ)) q =
      |det3 p1 p2 p3| * (r ^ 3 / 3) * ∫ t in (0 : ℝ)..1, ∫ v in (0 : ℝ)..1, v / vlen (triPt p1 p2 p3 t v) ^ 3 := by
  have hint : Integrable ((stationBall s r).indicator (fun _ => (1 : ℝ))) := by
    rw [integrable_indicator_iff (isOpen_stationBall s r).measurableSet]
    exact integrableOn_const (by rw [volume_stationBall s hr.le]; exact ENNReal.ofReal_ne_top)
  have hcube := (cone_integrable s hD _).mp (hint.integrableOn (s := openCone s p1 p2 p3))
  rw [cone_integral s hD]
  have hval : ∀ z ∈ cube, |det3 p1 p2 p3| * (z.1 ^ 2 * z.2.2) * (stationBall s r).indicator (fun _ => (1 : ℝ)) (coneMap s p1 p2 p3 z) =
      |det3 p1 p2 p3| * z.2.2 * (Set.Iio (r / vlen (triPt p1 p2 p3 z.2.1 z.2.2))).indicator (fun t => t ^ 2) z.1 := by
    rintro z ⟨⟨ht, -⟩, -⟩
    have hp := (lt_of_lt_of_le hr (hfar z.2.1 z.2.2))
    have e : coneMap s p1 p2 p3 z ∈ stationBall s r ↔ z.1 ∈ Set.Iio (r / vlen (triPt p1 p2 p3 z.2.1 z.2.2)) := by
      unfold stationBall
      rw [Set.mem_ofPred_eq, coneMap_sub, vlen_smul, abs_of_pos ht, Set.mem_Iio, lt_div_iff₀ hp]
    by_cases hz : coneMap s p1 p2 p3 z ∈ stationBall s r
    · rw [Set.indicator_of_mem hz, Set.indicator_of_mem (e.mp hz)]; ring
    · rw [Set.indicator_of_notMem hz, Set.indicator_of_notMem (fun h => hz (e.mpr h))]; ring
  rw [setIntegral_congr_fun measurableSet_cube hval]
  rw [integrableOn_congr_fun hval measurableSet_cube] at hcube
  have hinner : ∀ w : ℝ × ℝ, ∫ t in Set.Ioo (0 : ℝ) 1, |det3 p1 p2 p3| * w.2 * (Set.Iio (r / vlen (triPt p1 p2 p3 w.1 w.2))).indicator (fun t => t ^ 2) t =
      |det3 p1 p2 p3| * (r ^ 3 / 3) * (w.2 / vlen (triPt p1 p2 p3 w.1 w.2) ^ 3) := by
    intro w
    have hp := (lt_of_lt_of_le hr (hfar w.1 w.2))
    rw [integral_const_mul, setIntegral_indicator measurableSet_Iio]
    have hset : Set.Ioo (0 : ℝ) 1 ∩ Set.Iio (r / vlen (triPt p1 p2 p3 w.1 w.2)) = Set.Ioo 0 (r / vlen (triPt p1 p2 p3 w.1 w.2)) := by
      have h1 : r / vlen (triPt p1 p2 p3 w.1 w.2) ≤ 1 := (div_le_one hp).mpr (hfar w.1 w.2)
      ext t
      simp only [Set.mem_inter_iff, Set.mem_Ioo, Set.mem_Iio]
      constructor
      · rintro ⟨⟨a, -⟩, b⟩; exact ⟨a, b⟩
      · rintro ⟨a, b⟩; exact ⟨⟨a, lt_of_lt_of_le b h1⟩, b⟩
    rw [hset, ← integral_Ioc_eq_integral_Ioo, ← intervalIntegral.integral_of_le (div_pos hr hp).le, integral_pow]
    have := hp.ne'
    rw [div_pow]
    field_simp
    ring
  have hprod : ∫ z in cube, |det3 p1 p2 p3| * z.2.2 * (Set.Iio (r / vlen (triPt p1 p2 p3 z.2.1 z.2.2))).indicator (fun t => t ^ 2) z.1 =
      ∫ w in Set.Ioo (0 : ℝ) 1 ×ˢ Set.Ioo (0 : ℝ) 1, ∫ t in Set.Ioo (0 : ℝ) 1,
        |det3 p1 p2 p3| * w.2 * (Set.Iio (r / vlen (triPt p1 p2 p3 w.1 w.2))).indicator (fun t => t ^ 2) t := by
    have hm : (volume : Measure P3).restrict cube = (volume.restrict (Set.Ioo (0 : ℝ) 1)).prod (volume.restrict (Set.Ioo (0 : ℝ) 1 ×ˢ Set.Ioo (0 : ℝ) 1)) := by
      rw [Measure.prod_restrict]; rfl
    unfold IntegrableOn at hcube
    rw [hm] at hcube ⊢
    exact integral_prod_symm _ hcube
  rw [hprod]
  simp only [hinner]
  rw [integral_const_mul]
  congr 1
  have hc : Continuous (fun w : ℝ × ℝ => w.2 / vlen (triPt p1 p2 p3 w.1 w.2) ^ 3) :=
    continuous_snd.div (continuous_triPt_len.pow 3) (fun z => pow_ne_zero 3 (triPt_len_ne hD z.1 z.2))
  exact setIntegral_square hc

/-- a triangle seen edge-on covers no solid angle -/
theorem solidAngle_edge_on {n a b c s : V3 ℝ} (hn : IsNormal n a b c) (hh : rdot n (a.sub s) = 0) : solidAngle n a b c s = 0 := by
  unfold solidAngle surfaceIntegral
  have : ∀ w : ℝ × ℝ, rdot n (((a.add (V3.smul w.1 (b.sub a))).add (V3.smul w.2 (c.sub a))).sub s) = 0 := by
    intro w
    have e : ((a.add (V3.smul w.1 (b.sub a))).add (V3.smul w.2 (c.sub a))).sub s =
        ((a.sub s).add (V3.smul w.1 (b.sub a))).add (V3.smul w.2 (c.sub a)) := by
      refine V3.ext' ?_ ?_ ?_ <;> simp <;> ring
    rw [e, rdot_add, rdot_add, rdot_smul, rdot_smul, hn.ortho1, hn.ortho2, hh]; ring
  simp [this]

/-- the part of the body near the station is made of the cones near their apex -/
theorem ball_angles {P : Set P3} {n : ℕ} {A B C N : Fin n → V3 ℝ} (hS : Surface P A B C N) (s : V3 ℝ) {r : ℝ} (hr : 0 < r)
    (hfar : ∀ k, rdot (N k) ((A k).sub s) ≠ 0 → r ≤ |rdot (N k) ((A k).sub s)|) :
    volume.real (P ∩ stationBall s r) = r ^ 3 / 3 * ∑ k, solidAngle (N k) (A k) (B k) (C k) s := by
  have hdet : ∀ k, det3 ((A k).sub s) ((B k).sub s) ((C k).sub s) =
      vlen (cross ((B k).sub (A k)) ((C k).sub (A k))) * rdot (N k) ((A k).sub s) := fun k => (hS.normal k).det s
  have hD : ∀ k, rdot (N k) ((A k).sub s) ≠ 0 → det3 ((A k).sub s) ((B k).sub s) ((C k).sub s) ≠ 0 := by
    intro k hk; rw [hdet]; exact mul_ne_zero (hS.normal k).area_pos.ne' hk
  have hint : Integrable ((stationBall s r).indicator (fun _ => (1 : ℝ))) := by
    rw [integrable_indicator_iff (isOpen_stationBall s r).measurableSet]
    exact integrableOn_const (by rw [volume_stationBall s hr.le]; exact ENNReal.ofReal_ne_top)
  obtain ⟨-, h2⟩ := body_integral hS s ((stationBall s r).indicator (fun _ => (1 : ℝ))) hD (fun k _ => hint.integrableOn)
  rw [setIntegral_indicator (isOpen_stationBall s r).measurableSet, setIntegral_const, smul_eq_mul, mul_one] at h2
  rw [h2, Finset.mul_sum]
  refine Finset.sum_congr rfl fun k _ => ?_
  by_cases h0 : rdot (N k) ((A k).sub s) = 0
  · rw [solidAngle_edge_on (hS.normal k) h0, h0]; simp
  · have hn := hS.normal k
    have hf : ∀ t v, r ≤ vlen (triPt ((A k).sub s) ((B k).sub s) ((C k).sub s) t v) := by
      apply triPt_far (n := N k) hn.unit
      intro t v
      have e : rdot (N k) (triPt ((A k).sub s) ((B k).sub s) ((C k).sub s) t v) = rdot (N k) ((A k).sub s) := by
        have h2 := hn.height2 s
        have h3 := hn.height3 s
        unfold triPt
        simp only [rdot, add_x, add_y, add_z, smul_x, smul_y, smul_z, sub_x, sub_y, sub_z] at h2 h3 ⊢
        linear_combination (v * (1 - t)) * h2 + (v * t) * h3
      rw [e]; exact hfar k h0
    unfold faceCone
    rw [cone_ball s (hD k h0) hr hf, solidAngle_polar hn h0, hdet, abs_mul, abs_of_pos hn.area_pos]
    have := sign_mul_abs (rdot (N k) ((A k).sub s))
    generalize (∫ t in (0 : ℝ)..1, ∫ v in (0 : ℝ)..1, v / vlen (triPt ((A k).sub s) ((B k).sub s) ((C k).sub s) t v) ^ 3) = I
    calc _ = vlen (cross ((B k).sub (A k)) ((C k).sub (A k))) * ((SignType.sign (rdot (N k) ((A k).sub s)) : ℝ) * |rdot (N k) ((A k).sub s)|) * (r ^ 3 / 3) * I := by ring
      _ = _ := by rw [this]; ring

theorem stationBall_subset (s : V3 ℝ) (r : ℝ) : stationBall s r ⊆ Metric.ball s.toP r := by
  intro q hq
  unfold stationBall at hq
  rw [Set.mem_ofPred_eq] at hq
  have h0 := lt_of_le_of_lt (vlen_nonneg _) hq
  have key : ∀ x : ℝ, x ^ 2 ≤ rdot ((P3.toV q).sub s) ((P3.toV q).sub s) → |x| < r := by
    intro x hx
    refine lt_of_le_of_lt ?_ hq
    unfold vlen
    exact Real.abs_le_sqrt hx
  rw [Metric.mem_ball, Prod.dist_eq, Prod.dist_eq, Real.dist_eq, Real.dist_eq, Real.dist_eq, max_lt_iff, max_lt_iff]
  simp only [rdot, sub_x, sub_y, sub_z] at key
  refine ⟨key _ ?_, key _ ?_, key _ ?_⟩ <;> simp only [P3.toV, V3.toP] <;> nlinarith [sq_nonneg (q.1 - s.x), sq_nonneg (q.2.1 - s.y), sq_nonneg (q.2.2 - s.z)]

theorem clear_radius {n : ℕ} {A N : Fin n → V3 ℝ} (s : V3 ℝ) {r : ℝ} (hr : 0 < r) :
    ∃ ρ, 0 < ρ ∧ ρ ≤ r ∧ ∀ k, rdot (N k) ((A k).sub s) ≠ 0 → ρ ≤ |rdot (N k) ((A k).sub s)| := by
  have h : ∀ᶠ ρ in nhdsWithin (0 : ℝ) (Set.Ioi 0), ∀ k, rdot (N k) ((A k).sub s) ≠ 0 → ρ ≤ |rdot (N k) ((A k).sub s)| := by
    rw [Filter.eventually_all]
    intro k
    by_cases h0 : rdot (N k) ((A k).sub s) = 0
    · exact Filter.Eventually.of_forall fun _ h => absurd h0 h
    · filter_upwards [nhdsWithin_le_nhds (gt_mem_nhds (abs_pos.mpr h0))] with ρ hρ _
      exact hρ.le
  have h' : ∀ᶠ ρ in nhdsWithin (0 : ℝ) (Set.Ioi 0), ρ < r := nhdsWithin_le_nhds (gt_mem_nhds hr)
  have h'' : ∀ᶠ ρ in nhdsWithin (0 : ℝ) (Set.Ioi 0), 0 < ρ := self_mem_nhdsWithin
  obtain ⟨ρ, h1, h2, h3⟩ := (h.and (h'.and h'')).exists
  exact ⟨ρ, h3, h2.le, h1⟩

/-- **from outside the solid angles cancel** -/
theorem angles_outside {P : Set P3} {n : ℕ} {A B C N : Fin n → V3 ℝ} (hS : Surface P A B C N) {s : V3 ℝ} (hs : s.toP ∉ P) :
    ∑ k, solidAngle (N k) (A k) (B k) (C k) s = 0 := by
  obtain ⟨r, hr, hb⟩ := Metric.isOpen_iff.mp hS.compact.isClosed.isOpen_compl s.toP hs
  obtain ⟨ρ, h1, h2, h3⟩ := clear_radius (A := A) (N := N) s hr
  have h := ball_angles hS s h1 h3
  have e : P ∩ stationBall s ρ = ∅ := by
    ext q
    simp only [Set.mem_inter_iff, Set.mem_empty_iff_false, iff_false, not_and]
    intro hq hb'
    exact hb (Metric.ball_subset_ball h2 (stationBall_subset s ρ hb')) hq
  rw [e, measureReal_empty] at h
  have : ρ ^ 3 / 3 ≠ 0 := by positivity
  rcases mul_eq_zero.mp h.symm with h | h
  · exact absurd h this
  · exact h

/-- **from inside the solid angles add up to the full sphere** -/
theorem angles_inside {P : Set P3} {n : ℕ} {A B C N : Fin n → V3 ℝ} (hS : Surface P A B C N) {s : V3 ℝ} (hs : s.toP ∈ interior P) :
    ∑ k, solidAngle (N k) (A k) (B k) (C k) s = 4 * Real.pi := by
  obtain ⟨r, hr, hb⟩ := Metric.isOpen_iff.mp isOpen_interior s.toP hs
  obtain ⟨ρ, h1, h2, h3⟩ := clear_radius (A := A) (N := N) s hr
  have h := ball_angles hS s h1 h3
  have e : P ∩ stationBall s ρ = stationBall s ρ := by
    rw [Set.inter_eq_right]
    intro q hb'
    exact interior_subset (hb (Metric.ball_subset_ball h2 (stationBall_subset s ρ hb')))
  rw [e, Measure.real, volume_stationBall s h1.le, ENNReal.toReal_ofReal (by positivity)] at h
  have : ρ ^ 3 / 3 ≠ 0 := by positivity
  apply mul_left_cancel₀ this
  rw [← h]; ring

end
end Geec
