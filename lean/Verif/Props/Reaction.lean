import Verif.Lemmas.Reaction
import Verif.Props.Plate
/-
C114: action and reaction, and the mean value of the answers over a ball of stations.
-/
namespace Geec
open Arith MeasureTheory Filter Topology
noncomputable section
variable {h h' : Hull ℝ} {inHull inHull' : V3 ℝ → Bool} {p p' : Poly ℝ} {ρ ρ' Gc : ℝ} {gr gr' : Bool} {g g' : P3 → V3 ℝ} {T T' : P3 → M3 ℝ}

/-- **C114** Action and reaction: the force on the second body, that is, its density times the integral over its points of the
answers of the first body, is the opposite of the force on the first body, computed from the answers of the second one. -/
theorem C114_force (hh : h.IsHull) (hp : mkPoly h inHull = .ok p) (hh' : h'.IsHull) (hp' : mkPoly h' inHull' = .ok p')
    (hs : ∀ q ∈ h'.body, h.Regular (P3.toV q)) (hs' : ∀ q ∈ h.body, h'.Regular (P3.toV q))
    (hv : ∀ q ∈ h'.body, Call.onNew p ⟨P3.toV q, ρ, Gc, gr⟩ = .ok (g q, T q)) (hv' : ∀ q ∈ h.body, Call.onNew p' ⟨P3.toV q, ρ', Gc, gr'⟩ = .ok (g' q, T' q)) (d : V3 ℝ) :
    ρ' * ∫ q in h'.body, rdot d (g q) = -(ρ * ∫ q in h.body, rdot d (g' q)) := by
  have e1 : ∫ q in h'.body, rdot d (g q) = 100000 * Gc * ρ * ∫ q in h'.body, rdot (attraction h.body (P3.toV q)) d := by
    rw [← integral_const_mul]
    refine setIntegral_congr_fun h'.body_decent.meas fun q hq => ?_
    rw [(C16_newton hh hp (hs q hq) (hv q hq)).1, rdot_smul, rdot_comm d]
  have e2 : ∫ q in h.body, rdot d (g' q) = 100000 * Gc * ρ' * ∫ q in h.body, rdot (attraction h'.body (P3.toV q)) d := by
    rw [← integral_const_mul]
    refine setIntegral_congr_fun h.body_decent.meas fun q hq => ?_
    rw [(C16_newton hh' hp' (hs' q hq) (hv' q hq)).1, rdot_smul, rdot_comm d]
  rw [e1, e2, attraction_reaction h'.body_decent h.body_decent]
  ring

/-- **C114**, moments: the moments of these forces about the origin are opposite, too. -/
theorem C114_moment (hh : h.IsHull) (hp : mkPoly h inHull = .ok p) (hh' : h'.IsHull) (hp' : mkPoly h' inHull' = .ok p')
    (hs : ∀ q ∈ h'.body, h.Regular (P3.toV q)) (hs' : ∀ q ∈ h.body, h'.Regular (P3.toV q))
    (hv : ∀ q ∈ h'.body, Call.onNew p ⟨P3.toV q, ρ, Gc, gr⟩ = .ok (g q, T q)) (hv' : ∀ q ∈ h.body, Call.onNew p' ⟨P3.toV q, ρ', Gc, gr'⟩ = .ok (g' q, T' q)) (d : V3 ℝ) :
    ρ' * ∫ q in h'.body, rdot d (cross (P3.toV q) (g q)) = -(ρ * ∫ q in h.body, rdot d (cross (P3.toV q) (g' q))) := by
  have hc : ∀ (a b : V3 ℝ) (k : ℝ), rdot d (cross a (V3.smul k b)) = k * rdot d (cross a b) := by
    intro a b k; simp only [rdot, cross_x, cross_y, cross_z, smul_x, smul_y, smul_z]; ring
  have e1 : ∫ q in h'.body, rdot d (cross (P3.toV q) (g q)) = 100000 * Gc * ρ * ∫ q in h'.body, rdot d (cross (P3.toV q) (attraction h.body (P3.toV q))) := by
    rw [← integral_const_mul]
    refine setIntegral_congr_fun h'.body_decent.meas fun q hq => ?_
    rw [(C16_newton hh hp (hs q hq) (hv q hq)).1, hc]
  have e2 : ∫ q in h.body, rdot d (cross (P3.toV q) (g' q)) = 100000 * Gc * ρ' * ∫ q in h.body, rdot d (cross (P3.toV q) (attraction h'.body (P3.toV q))) := by
    rw [← integral_const_mul]
    refine setIntegral_congr_fun h.body_decent.meas fun q hq => ?_
    rw [(C16_newton hh' hp' (hs' q hq) (hv' q hq)).1, hc]
  rw [e1, e2, moment_reaction h'.body_decent h.body_decent]
  ring

/-- **C114**, mean value: the average of the answers to all stations in a ball which the body does not enter is the answer to its
centre. -/
theorem C114_mean (hh : h.IsHull) (hp : mkPoly h inHull = .ok p) {s : V3 ℝ} {r : ℝ} (hr : 0 < r)
    (hs : ∀ q, dist3 q s ≤ r → h.Regular (P3.toV q)) (hout : ∀ q ∈ h.body, r ≤ dist3 q s)
    (hv : ∀ q, dist3 q s ≤ r → Call.onNew p ⟨P3.toV q, ρ, Gc, gr⟩ = .ok (g q, T q)) {G : V3 ℝ} {T₀ : M3 ℝ} (h0 : Call.onNew p ⟨s, ρ, Gc, gr'⟩ = .ok (G, T₀)) (d : V3 ℝ) :
    (∫ q in {q | dist3 q s ≤ r}, rdot d (g q)) / (4 / 3 * Real.pi * r ^ 3) = rdot d G := by
  have hself : dist3 s.toP s ≤ r := by simp [dist3, V3.toP, hr.le]
  have hrs : h.Regular s := by simpa only [toP_toV] using hs _ hself
  have e1 : ∫ q in {q | dist3 q s ≤ r}, rdot d (g q) = 100000 * Gc * ρ * ∫ q in eball s r, rdot (attraction h.body (P3.toV q)) d := by
    rw [← integral_const_mul]
    refine setIntegral_congr_fun (eball_decent s r).meas fun q hq => ?_
    rw [(C16_newton hh hp (hs q hq) (hv q hq)).1, rdot_smul, rdot_comm d]
  have hmean := attraction_mean h.body_decent s d hr fun q hq => by
    rw [rad_toV, ← dist3_eq_rad]; exact hout q hq
  rw [e1, hmean, (C16_newton hh hp hrs h0).1, rdot_smul, rdot_comm d]
  have := Real.pi_pos
  field_simp

/-! ### The hypotheses can be met: the tetrahedron and its copy moved by (2, 2, 2) -/

theorem tetra_regular_apart {s : V3 ℝ} (hx : 1 ≤ s.x ^ 2) (hy : 1 ≤ s.y ^ 2) (hz : 1 ≤ s.z ^ 2) (hx' : s.x ^ 2 ≤ 9) (hy' : s.y ^ 2 ≤ 9) (hz' : s.z ^ 2 ≤ 9)
    (h1 : 1 ≤ |1 - s.x - s.y - s.z|) : tetra.Regular s := by
  have habs : ∀ {x : ℝ}, 1 ≤ x ^ 2 → 1 / 1000 ≤ |x| := fun {x} hx => le_trans (by norm_num) (one_le_sq_iff_one_le_abs _ |>.mp hx)
  have bx := abs_le.mp (abs_le_of_sq_le_sq (show s.x ^ 2 ≤ 3 ^ 2 by linarith) (by norm_num))
  have bz := abs_le.mp (abs_le_of_sq_le_sq (show s.z ^ 2 ≤ 3 ^ 2 by linarith) (by norm_num))
  have bv := abs_le.mp (abs_le_of_sq_le_sq (show s.y ^ 2 ≤ 3 ^ 2 by linarith) (by norm_num))
  apply tetra_regular
  · intro a b ha hb hne
    apply clearOf_bounds <;> interval_cases a <;> interval_cases b <;> first | exact absurd rfl hne | skip
    all_goals simp only [rdot, cross_x, cross_y, cross_z, sub_x, sub_y, sub_z, tetra_pt0, tetra_pt1, tetra_pt2, tetra_pt3]
    all_goals first | (norm_num; done) | linarith [sq_nonneg (1 - s.x - s.y), sq_nonneg (1 - s.x - s.z), sq_nonneg (1 - s.y - s.z)]
  · exact habs hz
  · exact habs hy
  · exact habs hx
  · exact le_trans (by norm_num) h1

theorem tetra_apart_corner {s : V3 ℝ} (hx : 1 ≤ s.x ^ 2) (hy : 1 ≤ s.y ^ 2) : ∀ t ∈ tetra.simplices, ∀ i, Corner t i → tetra.pt i ≠ s := by
  intro t ht i hi he
  have h4 := tetra_isHull.cornerIndex t ht i hi
  change i < 4 at h4
  subst he
  interval_cases i <;> first | (norm_num [tetra_pt0, tetra_pt1, tetra_pt2, tetra_pt3] at hx; done) | norm_num [tetra_pt0, tetra_pt1, tetra_pt2, tetra_pt3] at hy

/-- the copy -/
def tetraFar : Hull ℝ := tetra.rigid Motion.one ⟨2, 2, 2⟩

theorem tetraFar_isHull : tetraFar.IsHull := tetra_isHull.rigid one_rotation _

theorem tetraFar_body : tetraFar.body = {q : P3 | 2 ≤ q.1 ∧ 2 ≤ q.2.1 ∧ 2 ≤ q.2.2 ∧ q.1 + q.2.1 + q.2.2 ≤ 7} := by
  unfold tetraFar
  rw [rigid_affine, affine_body, tetra_body]
  ext ⟨x, y, z⟩
  simp only [Set.mem_image, Set.mem_ofPred_eq, similarLin, rowForm_apply, rdot, P3.toV, ContinuousLinearMap.prod_apply, smul_apply, smul_eq_mul,
    Prod.mk_add_mk, Prod.mk.injEq, Prod.exists, Motion.one, V3.toP]
  constructor
  · rintro ⟨a, b, c, ⟨h1, h2, h3, h4⟩, rfl, rfl, rfl⟩
    refine ⟨?_, ?_, ?_, ?_⟩ <;> linarith
  · rintro ⟨h1, h2, h3, h4⟩
    exact ⟨x - 2, y - 2, z - 2, ⟨by linarith, by linarith, by linarith, by linarith⟩, by ring, by ring, by ring⟩

theorem tetra_of_far {q : P3} (hq : q ∈ tetraFar.body) : tetra.Regular (P3.toV q) ∧ ∀ t ∈ tetra.simplices, ∀ i, Corner t i → tetra.pt i ≠ P3.toV q := by
  rw [tetraFar_body] at hq
  obtain ⟨h1, h2, h3, h4⟩ := hq
  refine ⟨tetra_regular_apart (s := P3.toV q) ?_ ?_ ?_ ?_ ?_ ?_ ?_, tetra_apart_corner (s := P3.toV q) ?_ ?_⟩
  all_goals simp only [P3.toV]
  all_goals first | nlinarith | skip
  rw [abs_of_nonpos] <;> linarith

theorem far_of_tetra {q : P3} (hq : q ∈ tetra.body) : tetraFar.Regular (P3.toV q) ∧ ∀ t ∈ tetraFar.simplices, ∀ i, Corner t i → tetraFar.pt i ≠ P3.toV q := by
  rw [tetra_body] at hq
  obtain ⟨h1, h2, h3, h4⟩ := hq
  have e : P3.toV q = rigid Motion.one ⟨2, 2, 2⟩ ⟨q.1 - 2, q.2.1 - 2, q.2.2 - 2⟩ := by
    unfold rigid; rw [one_apply]; refine V3.ext' ?_ ?_ ?_ <;> simp [P3.toV]
  have hx : (1 : ℝ) ≤ (q.1 - 2) ^ 2 := by nlinarith
  have hy : (1 : ℝ) ≤ (q.2.1 - 2) ^ 2 := by nlinarith
  constructor
  · rw [e]
    refine regular_rigid tetra_isHull one_rotation _ (tetra_regular_apart hx hy ?_ ?_ ?_ ?_ ?_)
    all_goals first | nlinarith | skip
    rw [abs_of_nonneg] <;> linarith
  · intro t ht i hi he
    have h4 := tetra_isHull.cornerIndex t ht i hi
    rw [e] at he
    unfold tetraFar at he
    rw [rigid_pt h4] at he
    exact tetra_apart_corner hx hy t ht i hi (rigid_injective one_rotation he)

/-- the forces and the moments, of all answers of the one in the points of the other -/
example : ∃ (p p' : Poly ℝ) (g g' : P3 → V3 ℝ) (T T' : P3 → M3 ℝ), mkPoly tetra (fun _ => true) = .ok p ∧ mkPoly tetraFar (fun _ => true) = .ok p' ∧
    (∀ q ∈ tetraFar.body, Call.onNew p ⟨P3.toV q, 1, 1, false⟩ = .ok (g q, T q)) ∧ (∀ q ∈ tetra.body, Call.onNew p' ⟨P3.toV q, 5, 1, false⟩ = .ok (g' q, T' q)) ∧
    (∀ d, 5 * ∫ q in tetraFar.body, rdot d (g q) = -(1 * ∫ q in tetra.body, rdot d (g' q))) ∧
    ∀ d, 5 * ∫ q in tetraFar.body, rdot d (cross (P3.toV q) (g q)) = -(1 * ∫ q in tetra.body, rdot d (cross (P3.toV q) (g' q))) := by
  obtain ⟨p', hp'⟩ := hull_mkPoly_ok tetraFar_isHull (fun _ => true)
  have h1 : ∀ q, ∃ r : V3 ℝ × M3 ℝ, q ∈ tetraFar.body → Call.onNew tetraP ⟨P3.toV q, 1, 1, false⟩ = .ok r := fun q => by
    by_cases hq : q ∈ tetraFar.body
    · obtain ⟨T, hv⟩ := C16_newton_returned tetra_isHull tetraP_built (tetra_of_far hq).1 (tetra_of_far hq).2 1 1
      exact ⟨_, fun _ => hv⟩
    · exact ⟨(V3.zeros, M3.zeros), fun h => absurd h hq⟩
  have h2 : ∀ q, ∃ r : V3 ℝ × M3 ℝ, q ∈ tetra.body → Call.onNew p' ⟨P3.toV q, 5, 1, false⟩ = .ok r := fun q => by
    by_cases hq : q ∈ tetra.body
    · obtain ⟨T, hv⟩ := C16_newton_returned tetraFar_isHull hp' (far_of_tetra hq).1 (far_of_tetra hq).2 5 1
      exact ⟨_, fun _ => hv⟩
    · exact ⟨(V3.zeros, M3.zeros), fun h => absurd h hq⟩
  choose r hr using h1
  choose r' hr' using h2
  refine ⟨tetraP, p', fun q => (r q).1, fun q => (r' q).1, fun q => (r q).2, fun q => (r' q).2, tetraP_built, hp', hr, hr', fun d => ?_, fun d => ?_⟩
  · exact C114_force tetra_isHull tetraP_built tetraFar_isHull hp' (fun q hq => (tetra_of_far hq).1) (fun q hq => (far_of_tetra hq).1) hr hr' d
  · exact C114_moment tetra_isHull tetraP_built tetraFar_isHull hp' (fun q hq => (tetra_of_far hq).1) (fun q hq => (far_of_tetra hq).1) hr hr' d

/-- the stations of the ball of radius 1 around (-2, -2, -2) are regular -/
theorem tetra_of_ball {q : P3} (hq : dist3 q ⟨-2, -2, -2⟩ ≤ 1) : tetra.Regular (P3.toV q) ∧ ∀ t ∈ tetra.simplices, ∀ i, Corner t i → tetra.pt i ≠ P3.toV q := by
  have h0 : (q.1 + 2) ^ 2 + (q.2.1 + 2) ^ 2 + (q.2.2 + 2) ^ 2 ≤ 1 := by
    unfold dist3 at hq
    rw [Real.sqrt_le_left (by norm_num)] at hq
    nlinarith
  have b1 := abs_le.mp (abs_le_of_sq_le_sq (show (q.1 + 2) ^ 2 ≤ 1 ^ 2 by nlinarith [sq_nonneg (q.2.1 + 2), sq_nonneg (q.2.2 + 2)]) (by norm_num))
  have b2 := abs_le.mp (abs_le_of_sq_le_sq (show (q.2.1 + 2) ^ 2 ≤ 1 ^ 2 by nlinarith [sq_nonneg (q.1 + 2), sq_nonneg (q.2.2 + 2)]) (by norm_num))
  have b3 := abs_le.mp (abs_le_of_sq_le_sq (show (q.2.2 + 2) ^ 2 ≤ 1 ^ 2 by nlinarith [sq_nonneg (q.1 + 2), sq_nonneg (q.2.1 + 2)]) (by norm_num))
  refine ⟨tetra_regular_apart (s := P3.toV q) ?_ ?_ ?_ ?_ ?_ ?_ ?_, tetra_apart_corner (s := P3.toV q) ?_ ?_⟩
  all_goals simp only [P3.toV]
  all_goals first | nlinarith | skip
  rw [abs_of_nonneg] <;> linarith

example : ∃ (g : P3 → V3 ℝ) (T : P3 → M3 ℝ) (G : V3 ℝ) (T₀ : M3 ℝ), (∀ q, dist3 q ⟨-2, -2, -2⟩ ≤ 1 → Call.onNew tetraP ⟨P3.toV q, 1, 1, false⟩ = .ok (g q, T q)) ∧
    Call.onNew tetraP ⟨⟨-2, -2, -2⟩, 1, 1, false⟩ = .ok (G, T₀) ∧
    ∀ d, (∫ q in {q | dist3 q ⟨-2, -2, -2⟩ ≤ 1}, rdot d (g q)) / (4 / 3 * Real.pi * 1 ^ 3) = rdot d G := by
  have h1 : ∀ q, ∃ r : V3 ℝ × M3 ℝ, dist3 q ⟨-2, -2, -2⟩ ≤ 1 → Call.onNew tetraP ⟨P3.toV q, 1, 1, false⟩ = .ok r := fun q => by
    by_cases hq : dist3 q ⟨-2, -2, -2⟩ ≤ 1
    · obtain ⟨T, hv⟩ := C16_newton_returned tetra_isHull tetraP_built (tetra_of_ball hq).1 (tetra_of_ball hq).2 1 1
      exact ⟨_, fun _ => hv⟩
    · exact ⟨(V3.zeros, M3.zeros), fun h => absurd h hq⟩
  choose r hr using h1
  have hc : dist3 (-2, -2, -2) ⟨-2, -2, -2⟩ ≤ 1 := by simp [dist3]
  refine ⟨fun q => (r q).1, fun q => (r q).2, _, _, hr, hr _ hc, fun d => ?_⟩
  refine C114_mean tetra_isHull tetraP_built one_pos (fun q hq => (tetra_of_ball hq).1) (fun q hq => ?_) hr (hr _ hc) d
  rw [tetra_body] at hq
  obtain ⟨h1, h2, h3, h4⟩ := hq
  unfold dist3
  refine Real.le_sqrt_of_sq_le ?_
  dsimp only
  nlinarith

end
end Geec
