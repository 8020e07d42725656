import Verif.Lemmas.Flux
/-
The surfaces where the code switches between formulas have no volume, and no area on any triangle.
-/
namespace Geec
open Arith MeasureTheory Metric Set Filter Topology
noncomputable section

theorem quadratic_finite {A B C : ℝ} (hA : A ≠ 0) : {y : ℝ | A * y ^ 2 + B * y + C = 0}.Finite := by
  by_cases h : ∃ y0, A * y0 ^ 2 + B * y0 + C = 0
  · obtain ⟨y0, h0⟩ := h
    refine (Set.toFinite {y0, -B / A - y0}).subset fun y hy => ?_
    have hy : A * y ^ 2 + B * y + C = 0 := hy
    have : (y - y0) * (A * (y + y0) + B) = 0 := by linear_combination hy - h0
    rcases mul_eq_zero.mp this with h1 | h1
    · left; linarith
    · right
      rw [mem_singleton_iff]
      field_simp
      linarith
  · convert Set.finite_empty
    ext y
    simp only [mem_ofPred_eq, mem_empty_iff_false, iff_false]
    exact fun hy => h ⟨y, hy⟩

theorem null_of_slices {X : Type} [MeasureSpace X] [SFinite (volume : Measure X)] {f : X × ℝ → ℝ} (hf : Measurable f) {A : ℝ} (hA : A ≠ 0) {B C : X → ℝ}
    (h : ∀ x y, f (x, y) = A * y ^ 2 + B x * y + C x) : volume {z | f z = 0} = 0 := by
  have hm : MeasurableSet {z | f z = 0} := measurableSet_eq_fun hf measurable_const
  refine (Measure.measure_prod_null hm).mpr (Eventually.of_forall fun x => ?_)
  have : (Prod.mk x ⁻¹' {z | f z = 0}) = {y : ℝ | A * y ^ 2 + B x * y + C x = 0} := by
    ext y; simp only [mem_preimage, mem_ofPred_eq, h]
  dsimp only
  rw [this]
  exact (quadratic_finite hA).measure_zero _

/-- vanishes where the distance to `a` plus the projection on the unit vector `u` is `eps` -/
def switch (u r : V3 ℝ) : ℝ := rdot r r - rdot r u ^ 2 + 2 * repsilon * rdot r u - repsilon ^ 2

theorem switch_zero {u r : V3 ℝ} (h : vlen r + rdot r u = repsilon) : switch u r = 0 := by
  have h1 : vlen r = repsilon - rdot r u := by linarith
  have h2 := vlen_sq r
  rw [h1] at h2
  unfold switch
  rw [← h2]
  ring

theorem lagrange_unit {u v : V3 ℝ} (hu : rdot u u = 1) (h : rdot v v - rdot v u ^ 2 = 0) : v = V3.smul (rdot v u) u := by
  have h2 : rdot (v.sub (V3.smul (rdot v u) u)) (v.sub (V3.smul (rdot v u) u)) = 0 := by
    have e : rdot (v.sub (V3.smul (rdot v u) u)) (v.sub (V3.smul (rdot v u) u)) = rdot v v - 2 * rdot v u * rdot v u + rdot v u ^ 2 * rdot u u := by
      simp only [rdot, sub_x, sub_y, sub_z, smul_x, smul_y, smul_z]; ring
    rw [e, hu]; linarith
  have hx := rdot_self_eq_zero.mp h2
  have hc : ∀ a b : V3 ℝ, a.sub b = V3.zeros → a = b := by
    intro a b hab
    have h1 := congrArg V3.x hab
    have h2 := congrArg V3.y hab
    have h3 := congrArg V3.z hab
    simp only [sub_x, sub_y, sub_z, V3.zeros, r_zero] at h1 h2 h3
    refine V3.ext' ?_ ?_ ?_ <;> linarith
  exact hc _ _ hx

/-- a plane meets the surface in a set without area -/
theorem plane_switch_null {u r v w : V3 ℝ} (hu : rdot u u = 1) (hvw : cross v w ≠ V3.zeros) :
    volume {z : ℝ × ℝ | switch u ((r.sub (V3.smul z.1 v)).sub (V3.smul z.2 w)) = 0} = 0 := by
  have hm : ∀ v w : V3 ℝ, Measurable fun z : ℝ × ℝ => switch u ((r.sub (V3.smul z.1 v)).sub (V3.smul z.2 w)) := by
    intro v w
    have h1 : MV fun z : ℝ × ℝ => (r.sub (V3.smul z.1 v)).sub (V3.smul z.2 w) :=
      ((MV.const _).sub (MV.smul measurable_fst (MV.const _))).sub (MV.smul measurable_snd (MV.const _))
    have h2 := h1.dot (MV.const u)
    exact (((h1.dot h1).sub (h2.pow_const 2)).add (measurable_const.mul h2)).sub measurable_const
  have hs : ∀ v w : V3 ℝ, ∀ x y : ℝ, switch u ((r.sub (V3.smul x v)).sub (V3.smul y w)) = (rdot w w - rdot w u ^ 2) * y ^ 2 +
      (-2 * rdot (r.sub (V3.smul x v)) w + 2 * rdot (r.sub (V3.smul x v)) u * rdot w u - 2 * repsilon * rdot w u) * y + switch u (r.sub (V3.smul x v)) := by
    intro v w x y
    simp only [switch, rdot, sub_x, sub_y, sub_z, smul_x, smul_y, smul_z]; ring
  by_cases hw : rdot w w - rdot w u ^ 2 = 0
  · have hv : rdot v v - rdot v u ^ 2 ≠ 0 := by
      intro hv
      apply hvw
      rw [lagrange_unit hu hv, lagrange_unit hu hw]
      refine V3.ext' ?_ ?_ ?_ <;> simp only [cross_x, cross_y, cross_z, smul_x, smul_y, smul_z, V3.zeros, r_zero] <;> ring
    have h1 := null_of_slices (hm w v) hv (fun x y => hs w v x y)
    have h2 := (Measure.measurePreserving_swap (μ := (volume : Measure ℝ)) (ν := (volume : Measure ℝ))).measure_preimage
      (measurableSet_eq_fun (hm w v) (measurable_const (a := (0 : ℝ)))).nullMeasurableSet
    have h3 : (Prod.swap ⁻¹' {z : ℝ × ℝ | switch u ((r.sub (V3.smul z.1 w)).sub (V3.smul z.2 v)) = 0}) =
        {z : ℝ × ℝ | switch u ((r.sub (V3.smul z.1 v)).sub (V3.smul z.2 w)) = 0} := by
      ext z
      have : (r.sub (V3.smul z.2 w)).sub (V3.smul z.1 v) = (r.sub (V3.smul z.1 v)).sub (V3.smul z.2 w) := by
        refine V3.ext' ?_ ?_ ?_ <;> simp only [sub_x, sub_y, sub_z] <;> ring
      simp only [mem_preimage, mem_ofPred_eq, Prod.fst_swap, Prod.snd_swap, this]
    rw [h3] at h2
    exact h2.trans h1
  · exact null_of_slices (hm v w) hw (fun x y => hs v w x y)

theorem space_switch_null {u a : V3 ℝ} (hu : rdot u u = 1) : volume {q : P3 | switch u (a.sub (P3.toV q)) = 0} = 0 := by
  have h1 : MV fun q : P3 => a.sub (P3.toV q) := (MV.const _).sub MV.toV
  have h2 := h1.dot (MV.const u)
  have hm : MeasurableSet {q : P3 | switch u (a.sub (P3.toV q)) = 0} :=
    measurableSet_eq_fun ((((h1.dot h1).sub (h2.pow_const 2)).add (measurable_const.mul h2)).sub measurable_const) measurable_const
  refine (Measure.measure_prod_null hm).mpr (Eventually.of_forall fun x => ?_)
  have h3 : cross (⟨0, 1, 0⟩ : V3 ℝ) ⟨0, 0, 1⟩ ≠ V3.zeros := by
    intro h
    have := congrArg V3.x h
    simp [cross_x, V3.zeros] at this
  have := plane_switch_null (r := a.sub ⟨x, 0, 0⟩) hu h3
  refine (congrArg volume ?_).trans this
  ext z
  have e : a.sub (P3.toV (x, z)) = ((a.sub ⟨x, 0, 0⟩).sub (V3.smul z.1 ⟨0, 1, 0⟩)).sub (V3.smul z.2 ⟨0, 0, 1⟩) := by
    refine V3.ext' ?_ ?_ ?_ <;> simp [P3.toV]
  simp only [mem_preimage, mem_ofPred_eq, e]

/-- The station is farther than `eps` from the corners of the body, and the distance to a corner plus the length of an edge at the
corner is at most `D`. -/
def Hull.Within (h : Hull ℝ) (s : V3 ℝ) (D : ℝ) : Prop :=
  ∀ t ∈ h.simplices, ∀ i, Corner t i → repsilon < vlen ((h.pt i).sub s) ∧ ∀ j, Corner t j → vlen ((h.pt i).sub s) + vlen ((h.pt j).sub (h.pt i)) ≤ D

theorem unit_edge {e : V3 ℝ} (he : e ≠ V3.zeros) : rdot (V3.smul (vlen e)⁻¹ e) (V3.smul (vlen e)⁻¹ e) = 1 := by
  rw [rdot_smul, rdot_comm, rdot_smul, ← vlen_sq]
  have := vlen_pos he
  field_simp

theorem ordinary_of_switch {h : Hull ℝ} {s : V3 ℝ} {D : ℝ} (hw : h.Within s D)
    (hsw : ∀ i j : ℕ, (h.pt j).sub (h.pt i) ≠ V3.zeros → switch (V3.smul (vlen ((h.pt j).sub (h.pt i)))⁻¹ ((h.pt j).sub (h.pt i))) ((h.pt i).sub s) ≠ 0) :
    h.Ordinary s D := by
  intro t ht i j hi hj _
  refine ⟨(hw t ht i hi).1, (hw t ht i hi).2 j hj, fun heq => ?_⟩
  by_cases he : (h.pt j).sub (h.pt i) = V3.zeros
  · rw [he] at heq
    have hz : ∀ a : V3 ℝ, rdot a V3.zeros = 0 := rdot_zeros
    rw [hz, zero_div, add_zero] at heq
    exact absurd heq (hw t ht i hi).1.ne'
  · refine hsw i j he (switch_zero ?_)
    rw [rdot_smul, ← heq]
    ring

theorem ordinary_triangle {h : Hull ℝ} {a b c : V3 ℝ} {D : ℝ} (hn : cross (b.sub a) (c.sub a) ≠ V3.zeros) (hw : ∀ w ∈ triParam, h.Within (triPoint a b c w) D) :
    ∀ᵐ w ∂(volume.restrict triParam), h.Ordinary (triPoint a b c w) D := by
  have : ∀ i j : ℕ, ∀ᵐ w : ℝ × ℝ, (h.pt j).sub (h.pt i) ≠ V3.zeros →
      switch (V3.smul (vlen ((h.pt j).sub (h.pt i)))⁻¹ ((h.pt j).sub (h.pt i))) ((h.pt i).sub (triPoint a b c w)) ≠ 0 := by
    intro i j
    by_cases he : (h.pt j).sub (h.pt i) = V3.zeros
    · exact Eventually.of_forall fun w hne => absurd he hne
    · have h1 := plane_switch_null (r := (h.pt i).sub a) (unit_edge he) hn
      rw [ae_iff]
      refine measure_mono_null (fun w hw => ?_) h1
      simp only [mem_ofPred_eq, Classical.not_imp, not_not] at hw ⊢
      have e : (h.pt i).sub (triPoint a b c w) = (((h.pt i).sub a).sub (V3.smul w.1 (b.sub a))).sub (V3.smul w.2 (c.sub a)) := by
        unfold triPoint
        refine V3.ext' ?_ ?_ ?_ <;> simp only [sub_x, sub_y, sub_z, add_x, add_y, add_z] <;> ring
      rw [← e]
      exact hw.2
  rw [ae_restrict_iff' triParam_meas]
  filter_upwards [ae_all_iff.mpr fun i => ae_all_iff.mpr (this i)] with w hall hwt
  exact ordinary_of_switch (hw w hwt) hall

theorem ordinary_space {h : Hull ℝ} {B : Set P3} (hB : MeasurableSet B) {D : ℝ} (hw : ∀ q ∈ B, h.Within (P3.toV q) D) :
    ∀ᵐ q ∂(volume.restrict B), h.Ordinary (P3.toV q) D := by
  have : ∀ i j : ℕ, ∀ᵐ q : P3, (h.pt j).sub (h.pt i) ≠ V3.zeros →
      switch (V3.smul (vlen ((h.pt j).sub (h.pt i)))⁻¹ ((h.pt j).sub (h.pt i))) ((h.pt i).sub (P3.toV q)) ≠ 0 := by
    intro i j
    by_cases he : (h.pt j).sub (h.pt i) = V3.zeros
    · exact Eventually.of_forall fun w hne => absurd he hne
    · rw [ae_iff]
      refine measure_mono_null (fun q hq => ?_) (space_switch_null (a := h.pt i) (unit_edge he))
      simp only [mem_ofPred_eq, Classical.not_imp, not_not] at hq ⊢
      exact hq.2
  rw [ae_restrict_iff' hB]
  filter_upwards [ae_all_iff.mpr fun i => ae_all_iff.mpr (this i)] with q hall hq
  exact ordinary_of_switch (hw q hq) hall

end
end Geec
