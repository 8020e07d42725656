import Verif.Lemmas.HullStable
import Verif.Props.Potential
import Verif.Lemmas.Rigid
import Verif.Props.EndToEnd
/-
C90: small errors in the points of a body change the field by little.
-/
namespace Geec
open Arith MeasureTheory Metric Set Filter Topology
noncomputable section
variable {h h' : Hull ℝ} {inHull inHull' : V3 ℝ → Bool} {p p' : Poly ℝ}

theorem pull_le_wt (e : V3 ℝ) (y : P3) : |pull e.toP y| ≤ vlen e * wt y := by
  by_cases hy : y = 0
  · subst hy; simp [pull, wt]
  have hr0 := rad_pos hy
  have hn : 0 < ‖y‖ := norm_pos_iff.mpr hy
  have hcs : |y.1 * e.toP.1 + y.2.1 * e.toP.2.1 + y.2.2 * e.toP.2.2| ≤ rad y * vlen e := by
    have := abs_rdot_le (P3.toV y) e
    have h : vlen (P3.toV y) = rad y := by
      unfold vlen rad; congr 1; simp only [rdot, P3.toV]; ring
    rw [h] at this
    exact this
  have hG := vlen_nonneg e
  unfold pull wt
  rw [abs_div, abs_of_pos (pow_pos hr0 3)]
  calc _ ≤ rad y * vlen e / rad y ^ 3 := by gcongr
    _ = vlen e * (1 / rad y ^ 2) := by field_simp
    _ ≤ vlen e * (1 / ‖y‖ ^ 2) := by have := norm_le_rad y; gcongr

/-- the pull of any set is bounded by its volume -/
theorem pull_integral_le {D : Set P3} (hfin : volume D ≠ ⊤) (s e : V3 ℝ) {r : ℝ} (hr : 0 < r) :
    |∫ q in D, pull e.toP (q - s.toP)| ≤ vlen e * (24 * r + (volume D).toReal / r ^ 2) := by
  have hball : MeasurableSet (ball (0 : P3) r) := measurableSet_ball
  have i1 : Integrable ((ball (0 : P3) r).indicator wt) := (integrable_indicator_iff hball).mpr (wt_ball r)
  have i1' : IntegrableOn (fun q => (ball (0 : P3) r).indicator wt (q - s.toP)) D := (i1.comp_sub_right s.toP).integrableOn
  have i2 : IntegrableOn (fun _ : P3 => 1 / r ^ 2) D := integrableOn_const hfin
  have hpt : ∀ q : P3, ‖pull e.toP (q - s.toP)‖ ≤ vlen e * ((ball (0 : P3) r).indicator wt (q - s.toP) + 1 / r ^ 2) := by
    intro q
    refine (pull_le_wt e _).trans (mul_le_mul_of_nonneg_left ?_ (vlen_nonneg e))
    by_cases hq : q - s.toP ∈ ball (0 : P3) r
    · rw [indicator_of_mem hq]; have : 0 ≤ 1 / r ^ 2 := by positivity
      linarith
    · rw [indicator_of_notMem hq, zero_add]
      have : r ≤ ‖q - s.toP‖ := by rw [mem_ball_zero_iff, not_lt] at hq; exact hq
      unfold wt
      gcongr
  have h1 : ‖∫ q in D, pull e.toP (q - s.toP)‖ ≤ ∫ q in D, vlen e * ((ball (0 : P3) r).indicator wt (q - s.toP) + 1 / r ^ 2) :=
    norm_integral_le_of_norm_le ((i1'.add i2).const_mul _) (Eventually.of_forall hpt)
  rw [integral_const_mul, integral_add i1' i2, setIntegral_const] at h1
  have h2 : ∫ q in D, (ball (0 : P3) r).indicator wt (q - s.toP) ≤ 24 * r := by
    calc _ ≤ ∫ q, (ball (0 : P3) r).indicator wt (q - s.toP) :=
          setIntegral_le_integral (i1.comp_sub_right s.toP) (Eventually.of_forall fun q => indicator_nonneg (fun y _ => wt_nonneg y) _)
      _ = ∫ q, (ball (0 : P3) r).indicator wt q := integral_sub_right_eq_self _ _
      _ = 24 * r := by rw [integral_indicator hball, wt_ball_integral hr.le]
  rw [Real.norm_eq_abs] at h1
  refine h1.trans (mul_le_mul_of_nonneg_left ?_ (vlen_nonneg e))
  rw [smul_eq_mul, mul_one_div, measureReal_def]
  linarith

theorem pull_integrable {B : Set P3} (hB : Decent B) (s e : V3 ℝ) : IntegrableOn (fun q => pull e.toP (q - s.toP)) B :=
  kernel_integrable hB.meas hB.bdd (pull_meas _) (pull_le _) s.toP

theorem attraction_diff_le {A B : Set P3} (hA : Decent A) (hB : Decent B) (hfA : volume A ≠ ⊤) (hfB : volume B ≠ ⊤) (s e : V3 ℝ) {r : ℝ} (hr : 0 < r) :
    |rdot (attraction A s) e - rdot (attraction B s) e| ≤
      vlen e * (48 * r + ((volume (A \ B)).toReal + (volume (B \ A)).toReal) / r ^ 2) := by
  have iA := pull_integrable hA s e
  have iB := pull_integrable hB s e
  rw [rdot_attraction hA, rdot_attraction hB]
  have eA := integral_inter_add_sdiff hB.meas iA
  have eB := integral_inter_add_sdiff hA.meas iB
  rw [inter_comm] at eB
  have fA : volume (A \ B) ≠ ⊤ := ((measure_mono sdiff_subset).trans_lt (lt_top_iff_ne_top.mpr hfA)).ne
  have fB : volume (B \ A) ≠ ⊤ := ((measure_mono sdiff_subset).trans_lt (lt_top_iff_ne_top.mpr hfB)).ne
  have k1 := pull_integral_le fA s e hr
  have k2 := pull_integral_le fB s e hr
  rw [← eA, ← eB, show ∀ x y z : ℝ, x + y - (x + z) = y - z by intros; ring]
  refine (abs_sub _ _).trans ((add_le_add k1 k2).trans (le_of_eq ?_))
  ring

/-- **C90** The fields of two bodies of one density differ by no more than the volume that is in one of them only accounts for, at every station that
is regular for both. -/
theorem C90_difference (hh : h.IsHull) (hh' : h'.IsHull) (hp : mkPoly h inHull = .ok p) (hp' : mkPoly h' inHull' = .ok p') {s : V3 ℝ} (hs : h.Regular s)
    (hs' : h'.Regular s) {ρ Gc : ℝ} {gr gr' : Bool} {G G' : V3 ℝ} {T T' : M3 ℝ} (hv : Call.onNew p ⟨s, ρ, Gc, gr⟩ = .ok (G, T))
    (hv' : Call.onNew p' ⟨s, ρ, Gc, gr'⟩ = .ok (G', T')) {r : ℝ} (hr : 0 < r) :
    vlen (G.sub G') ≤ |100000 * Gc * ρ| * (48 * r + ((volume (h.body \ h'.body)).toReal + (volume (h'.body \ h.body)).toReal) / r ^ 2) := by
  have e1 := (C16_newton hh hp hs hv).1
  have e2 := (C16_newton hh' hp' hs' hv').1
  have key := attraction_diff_le h.body_decent h'.body_decent h.body_compact.measure_ne_top h'.body_compact.measure_ne_top s (G.sub G') hr
  have hsq : vlen (G.sub G') * vlen (G.sub G') = 100000 * Gc * ρ * (rdot (attraction h.body s) (G.sub G') - rdot (attraction h'.body s) (G.sub G')) := by
    rw [vlen_sq]
    generalize hX : G.sub G' = X at *
    have : X = V3.smul (100000 * Gc * ρ) ((attraction h.body s).sub (attraction h'.body s)) := by
      rw [← hX, e1, e2]; refine V3.ext' ?_ ?_ ?_ <;> simp <;> ring
    conv_lhs => arg 1; rw [this]
    simp only [rdot, smul_x, smul_y, smul_z, sub_x, sub_y, sub_z]; ring
  rcases eq_or_lt_of_le (vlen_nonneg (G.sub G')) with h0 | h0
  · rw [← h0]; positivity
  · apply le_of_mul_le_mul_right _ h0
    rw [hsq]
    calc _ ≤ |100000 * Gc * ρ| * |rdot (attraction h.body s) (G.sub G') - rdot (attraction h'.body s) (G.sub G')| := by
          rw [← abs_mul]; exact le_abs_self _
      _ ≤ _ := mul_le_mul_of_nonneg_left key (abs_nonneg _)
      _ = _ := by ring

/-- **C90** Small errors of the points change the field by little, and this uniformly in the station: for every body and every tolerance there is a
`δ > 0` such that for any body each of whose points is within `δ` of a point of the first, and conversely, whatever the number of its points and the
triangles found for it, the fields at every station regular for both differ by at most the tolerance. -/
theorem C90_stable (hh : h.IsHull) (hp : mkPoly h inHull = .ok p) (ρ Gc : ℝ) {ε : ℝ} (hε : 0 < ε) :
    ∃ δ > 0, ∀ (h' : Hull ℝ) (inHull' : V3 ℝ → Bool) (p' : Poly ℝ), h'.IsHull → mkPoly h' inHull' = .ok p' →
      (∀ a ∈ h.points, ∃ b ∈ h'.points, vlen (a.sub b) ≤ δ) → (∀ b ∈ h'.points, ∃ a ∈ h.points, vlen (b.sub a) ≤ δ) →
      ∀ (s : V3 ℝ) (gr gr' : Bool) (G G' : V3 ℝ) (T T' : M3 ℝ), h.Regular s → h'.Regular s → Call.onNew p ⟨s, ρ, Gc, gr⟩ = .ok (G, T) →
        Call.onNew p' ⟨s, ρ, Gc, gr'⟩ = .ok (G', T') → vlen (G.sub G') ≤ ε := by
  set K := |100000 * Gc * ρ| with hK
  have hK0 : 0 ≤ K := abs_nonneg _
  -- the radius and the volume
  set r := ε / (96 * (K + 1)) with hr
  have hr0 : 0 < r := by positivity
  set v := r ^ 2 * (ε / (4 * (K + 1))) with hv
  have hv0 : 0 < v := by positivity
  obtain ⟨δ, hδ, H⟩ := symmDiff_small (A := h.body) (convex_convexHull ℝ _) h.body_compact hv0
  refine ⟨δ, hδ, fun h' inHull' p' hh' hp' n1 n2 s gr gr' G G' T T' hs hs' hc hc' => ?_⟩
  obtain ⟨v1, v2⟩ := H h'.body (convex_convexHull ℝ _) h'.body_compact (Hull.body_subset_near n1) (Hull.body_subset_near n2)
  have w1 : (volume (h.body \ h'.body)).toReal ≤ v := ENNReal.toReal_le_of_le_ofReal hv0.le v1
  have w2 : (volume (h'.body \ h.body)).toReal ≤ v := ENNReal.toReal_le_of_le_ofReal hv0.le v2
  refine (C90_difference hh hh' hp hp' hs hs' hc hc' hr0).trans ?_
  calc K * (48 * r + ((volume (h.body \ h'.body)).toReal + (volume (h'.body \ h.body)).toReal) / r ^ 2)
      ≤ K * (48 * r + (v + v) / r ^ 2) := by gcongr
    _ = K / (K + 1) * ε := by rw [hv, hr]; field_simp; ring
    _ ≤ 1 * ε := by
      gcongr
      rw [div_le_one (by positivity)]; linarith
    _ = ε := one_mul ε

/-- C90: the unit tetrahedron and the one moved by a little to negative x, from (2,3,5). -/
example {p : Poly ℝ} (hp : mkPoly tetra (fun _ => true) = .ok p) {ε : ℝ} (hε : 0 < ε) :
    ∃ δ > 0, ∀ t, 0 ≤ t → t ≤ δ → t ≤ 1 → ∃ p' G T G' T', mkPoly (tetra.rigid Motion.one ⟨-t, 0, 0⟩) (fun _ => true) = .ok p' ∧
      Call.onNew p ⟨⟨2, 3, 5⟩, 2670, 1, false⟩ = .ok (G, T) ∧ Call.onNew p' ⟨⟨2, 3, 5⟩, 2670, 1, false⟩ = .ok (G', T') ∧ vlen (G.sub G') ≤ ε := by
  obtain ⟨δ, hδ, H⟩ := C90_stable tetra_isHull hp 2670 1 hε
  refine ⟨δ, hδ, fun t h0 h1 h2 => ?_⟩
  have hh' := tetra_isHull.rigid one_rotation ⟨-t, 0, 0⟩
  obtain ⟨p', hp'⟩ := hull_mkPoly_ok hh' (fun _ => true)
  have hs : tetra.Regular ⟨2, 3, 5⟩ := tetra_regular_box (by norm_num) (by norm_num) (by norm_num)
  have hs' : (tetra.rigid Motion.one ⟨-t, 0, 0⟩).Regular ⟨2, 3, 5⟩ := by
    have := regular_rigid tetra_isHull one_rotation ⟨-t, 0, 0⟩ (tetra_regular_box (x := 2 + t) (y := 3) (z := 5) ⟨by linarith, by linarith⟩ (by norm_num) (by norm_num))
    rwa [show rigid Motion.one ⟨-t, 0, 0⟩ ⟨2 + t, 3, 5⟩ = ⟨2, 3, 5⟩ by refine V3.ext' ?_ ?_ ?_ <;> simp [rigid, one_apply]] at this
  obtain ⟨G, T, hv⟩ := C22_total tetra_isHull hp tetra_out_corner 2670 1
  have hne : ∀ u ∈ (tetra.rigid Motion.one ⟨-t, 0, 0⟩).simplices, ∀ i, Corner u i → (tetra.rigid Motion.one ⟨-t, 0, 0⟩).pt i ≠ ⟨2, 3, 5⟩ := by
    intro u hu i hi he
    have := corner_mem hh' hu hi
    rw [he] at this
    obtain ⟨a, ha, he⟩ := List.mem_map.mp this
    simp only [tetra, List.mem_cons, List.not_mem_nil, or_false] at ha
    have hy := congrArg V3.y he
    have hz := congrArg V3.z he
    rcases ha with rfl | rfl | rfl | rfl <;> simp [rigid, one_apply] at hy hz
  obtain ⟨G', T', hv'⟩ := C22_total hh' hp' hne 2670 1
  have hd : ∀ a : V3 ℝ, vlen (a.sub (rigid Motion.one ⟨-t, 0, 0⟩ a)) = t ∧ vlen ((rigid Motion.one ⟨-t, 0, 0⟩ a).sub a) = t := by
    intro a
    constructor <;> simp [rigid, one_apply, vlen, rdot, h0]
  refine ⟨p', G, T, G', T', hp', hv, hv', H _ _ p' hh' hp' ?_ ?_ _ _ _ _ _ _ _ hs hs' hv hv'⟩
  · intro a ha
    exact ⟨_, List.mem_map_of_mem ha, by rw [(hd a).1]; exact h1⟩
  · intro b hb
    obtain ⟨a, ha, rfl⟩ := List.mem_map.mp hb
    exact ⟨a, ha, by rw [(hd a).2]; exact h1⟩

end
end Geec
