import Verif.Lemmas.Plate
import Verif.Props.Unique
import Verif.Props.AppliedBodies
/-
C113: comparison of the answers of different bodies; the infinite plate as a bound.
-/
namespace Geec
open Arith MeasureTheory Filter Topology
noncomputable section
variable {h h' : Hull ℝ} {inHull inHull' : V3 ℝ → Bool} {p p' : Poly ℝ} {s u : V3 ℝ} {ρ Gc : ℝ} {gr gr' : Bool} {G G' : V3 ℝ} {T T' : M3 ℝ}

/-- **C113** A body which has more on the side of `u` of the station and less on the other side is answered with a larger component
along `u`, at the same density. -/
theorem C113_compare (hh : h.IsHull) (hp : mkPoly h inHull = .ok p) (hh' : h'.IsHull) (hp' : mkPoly h' inHull' = .ok p') (hs : h.Regular s) (hs' : h'.Regular s)
    (hv : Call.onNew p ⟨s, ρ, Gc, gr⟩ = .ok (G, T)) (hv' : Call.onNew p' ⟨s, ρ, Gc, gr'⟩ = .ok (G', T')) (hk : 0 ≤ Gc * ρ)
    (hmore : ∀ q ∈ h'.body, q ∉ h.body → 0 ≤ rdot u ((P3.toV q).sub s)) (hless : ∀ q ∈ h.body, q ∉ h'.body → rdot u ((P3.toV q).sub s) ≤ 0) :
    rdot u G ≤ rdot u G' := by
  rw [(C16_newton hh hp hs hv).1, (C16_newton hh' hp' hs' hv').1, rdot_smul, rdot_smul, rdot_comm u, rdot_comm u]
  have := attraction_compare h.body_decent h'.body_decent hmore hless
  exact mul_le_mul_of_nonneg_left this (by nlinarith)

/-- **C113**, a part of a body on one side of the station: it attracts less than the whole body towards that side. -/
theorem C113_part (hh : h.IsHull) (hp : mkPoly h inHull = .ok p) (hh' : h'.IsHull) (hp' : mkPoly h' inHull' = .ok p') (hs : h.Regular s) (hs' : h'.Regular s)
    (hv : Call.onNew p ⟨s, ρ, Gc, gr⟩ = .ok (G, T)) (hv' : Call.onNew p' ⟨s, ρ, Gc, gr'⟩ = .ok (G', T')) (hk : 0 ≤ Gc * ρ)
    (hpart : h.body ⊆ h'.body) (hside : ∀ q ∈ h'.body, 0 ≤ rdot u ((P3.toV q).sub s)) : rdot u G ≤ rdot u G' :=
  C113_compare hh hp hh' hp' hs hs' hv hv' hk (fun q hq _ => hside q hq) fun _ hq hn => absurd (hpart hq) hn

/-- some cylinder holds everything of the body which is between two heights -/
theorem cylinder_around (h : Hull ℝ) (s u : V3 ℝ) : ∃ R : ℝ, 0 < R ∧ ∀ q ∈ h.body, vlen ((P3.toV q).sub s) ^ 2 - rdot u ((P3.toV q).sub s) ^ 2 ≤ R ^ 2 := by
  have hc : Continuous (fun q : P3 => vlen ((P3.toV q).sub s)) := by simp only [vlen, rdot, P3.toV, sub_x, sub_y, sub_z]; fun_prop
  obtain ⟨M, hM⟩ := h.body_compact.exists_bound_of_continuousOn hc.continuousOn
  refine ⟨max M 1, lt_of_lt_of_le one_pos (le_max_right _ _), fun q hq => ?_⟩
  have h1 := (le_abs_self _).trans (hM q hq)
  have h2 := h1.trans (le_max_left M 1)
  have h3 := vlen_nonneg ((P3.toV q).sub s)
  nlinarith [sq_nonneg (rdot u ((P3.toV q).sub s))]

theorem plate_above (hh : h.IsHull) (hp : mkPoly h inHull = .ok p) (hs : h.Regular s) (hv : Call.onNew p ⟨s, ρ, Gc, gr⟩ = .ok (G, T)) (hk : 0 ≤ Gc * ρ)
    (hu : rdot u u = 1) {lo hi : ℝ} (hlh : lo ≤ hi) (hlayer : ∀ q ∈ h.body, lo ≤ rdot u ((P3.toV q).sub s) ∧ rdot u ((P3.toV q).sub s) ≤ hi) :
    rdot u G ≤ 2 * Real.pi * (100000 * Gc * ρ) * (max hi 0 - max lo 0) := by
  obtain ⟨R, hR, hround⟩ := cylinder_around h s u
  have h0 : 0 ≤ max lo 0 := le_max_right _ _
  have h1 : max lo 0 ≤ max hi 0 := max_le_max_right 0 hlh
  have key := attraction_compare (s := s) (u := u) h.body_decent (cylinder_decent hu s (max lo 0) (max hi 0) R) (fun q hq _ => h0.trans hq.1.1) fun q hq hn => by
    by_contra hneg
    rw [not_le] at hneg
    exact hn ⟨⟨max_le (hlayer q hq).1 hneg.le, (hlayer q hq).2.trans (le_max_left _ _)⟩, hround q hq⟩
  rw [cylinder_attraction hu h0 h1 hR] at key
  rw [(C16_newton hh hp hs hv).1, rdot_smul, rdot_comm u]
  have := mul_le_mul_of_nonneg_left (key.trans (cylinderPull_le h0 h1)) (show 0 ≤ 100000 * Gc * ρ by nlinarith)
  linarith

/-- **C113**, the plate: when the body lies between two parallel planes, the component of the answer across them is at most what
Newton's law gives for an infinite plate between them: `2π G ρ` times the thickness of the part of the plate which is on the one
side of the station, and no less than minus that on the other side. -/
theorem C113_plate (hh : h.IsHull) (hp : mkPoly h inHull = .ok p) (hs : h.Regular s) (hv : Call.onNew p ⟨s, ρ, Gc, gr⟩ = .ok (G, T)) (hk : 0 ≤ Gc * ρ)
    (hu : rdot u u = 1) {lo hi : ℝ} (hlh : lo ≤ hi) (hlayer : ∀ q ∈ h.body, lo ≤ rdot u ((P3.toV q).sub s) ∧ rdot u ((P3.toV q).sub s) ≤ hi) :
    -(2 * Real.pi * (100000 * Gc * ρ) * (max (-lo) 0 - max (-hi) 0)) ≤ rdot u G ∧ rdot u G ≤ 2 * Real.pi * (100000 * Gc * ρ) * (max hi 0 - max lo 0) := by
  refine ⟨?_, plate_above hh hp hs hv hk hu hlh hlayer⟩
  have hneg : ∀ v : V3 ℝ, rdot (V3.smul (-1) u) v = -rdot u v := fun v => by rw [rdot_comm, rdot_smul, rdot_comm]; ring
  have := plate_above (u := V3.smul (-1) u) hh hp hs hv hk (by rw [hneg, rdot_smul, hu]; norm_num) (neg_le_neg hlh) fun q hq => by
    rw [hneg]; exact ⟨neg_le_neg (hlayer q hq).2, neg_le_neg (hlayer q hq).1⟩
  rw [hneg] at this
  linarith

/-- **C113**, the width: no component of any answer is larger than `2π G ρ` times the width of the body in that direction, from
wherever it is observed. -/
theorem C113_width (hh : h.IsHull) (hp : mkPoly h inHull = .ok p) (hs : h.Regular s) (hv : Call.onNew p ⟨s, ρ, Gc, gr⟩ = .ok (G, T)) (hk : 0 ≤ Gc * ρ)
    (hu : rdot u u = 1) {w : ℝ} (hw : ∀ q ∈ h.body, ∀ q' ∈ h.body, rdot u ((P3.toV q).sub (P3.toV q')) ≤ w) :
    |rdot u G| ≤ 2 * Real.pi * (100000 * Gc * ρ) * w := by
  have hc : ContinuousOn (fun q : P3 => rdot u ((P3.toV q).sub s)) h.body := by
    apply Continuous.continuousOn; simp only [rdot, P3.toV, sub_x, sub_y, sub_z]; fun_prop
  have hne : h.body.Nonempty := hh.solid.mono interior_subset
  obtain ⟨a, ha, hmin⟩ := h.body_compact.exists_isMinOn hne hc
  obtain ⟨b, hb, hmax⟩ := h.body_compact.exists_isMaxOn hne hc
  have hlh : rdot u ((P3.toV a).sub s) ≤ rdot u ((P3.toV b).sub s) := hmin hb
  have key := C113_plate hh hp hs hv hk hu hlh fun q hq => ⟨hmin hq, hmax hq⟩
  have hwab : rdot u ((P3.toV b).sub s) - rdot u ((P3.toV a).sub s) ≤ w := by
    refine le_trans (le_of_eq ?_) (hw b hb a ha)
    simp only [rdot, sub_x, sub_y, sub_z]; ring
  generalize rdot u ((P3.toV a).sub s) = lo at *
  generalize rdot u ((P3.toV b).sub s) = hi at *
  have hK : 0 ≤ 2 * Real.pi * (100000 * Gc * ρ) := mul_nonneg (by have := Real.pi_pos; positivity) (by nlinarith)
  have e1 : max (-lo) 0 - max (-hi) 0 ≤ w := by
    rcases le_total (-lo) 0 with x | x <;> rcases le_total (-hi) 0 with y | y <;> simp only [max_eq_left x, max_eq_right x, max_eq_left y, max_eq_right y] <;> linarith
  have e2 : max hi 0 - max lo 0 ≤ w := by
    rcases le_total lo 0 with x | x <;> rcases le_total hi 0 with y | y <;> simp only [max_eq_left x, max_eq_right x, max_eq_left y, max_eq_right y] <;> linarith
  have f1 := mul_le_mul_of_nonneg_left e1 hK
  have f2 := mul_le_mul_of_nonneg_left e2 hK
  rw [abs_le]
  constructor <;> linarith [key.1, key.2]

/-- **C113**, bodies inside and around a cylinder with the station on its axis: the answer is at most, or at least, what the closed
formula for the cylinder gives. -/
theorem C113_cylinder (hh : h.IsHull) (hp : mkPoly h inHull = .ok p) (hs : h.Regular s) (hv : Call.onNew p ⟨s, ρ, Gc, gr⟩ = .ok (G, T)) (hk : 0 ≤ Gc * ρ)
    (hu : rdot u u = 1) {a b R : ℝ} (ha : 0 ≤ a) (hab : a ≤ b) (hR : 0 < R) :
    (h.body ⊆ cylinder s u a b R → rdot u G ≤ 100000 * Gc * ρ * (2 * Real.pi * ((b - a) - (Real.sqrt (b ^ 2 + R ^ 2) - Real.sqrt (a ^ 2 + R ^ 2))))) ∧
    (cylinder s u a b R ⊆ h.body → (∀ q ∈ h.body, 0 ≤ rdot u ((P3.toV q).sub s)) →
      100000 * Gc * ρ * (2 * Real.pi * ((b - a) - (Real.sqrt (b ^ 2 + R ^ 2) - Real.sqrt (a ^ 2 + R ^ 2)))) ≤ rdot u G) := by
  have hK : 0 ≤ 100000 * Gc * ρ := by nlinarith
  have hG : rdot u G = 100000 * Gc * ρ * rdot (attraction h.body s) u := by rw [(C16_newton hh hp hs hv).1, rdot_smul, rdot_comm u]
  have hcyl := cylinder_attraction (s := s) hu ha hab hR
  rw [hG]
  refine ⟨fun hin => mul_le_mul_of_nonneg_left ?_ hK, fun hout hside => mul_le_mul_of_nonneg_left ?_ hK⟩
  · exact (attraction_mono h.body_decent (cylinder_decent hu s a b R) hin fun q hq => ha.trans hq.1.1).trans hcyl.le
  · exact hcyl.symm.le.trans (attraction_mono (cylinder_decent hu s a b R) h.body_decent hout hside)

/-- **C113**, the Bouguer limit: the answer for a body in a layer on one side of the station is at most the value for the infinite
plate, `2π G ρ` times the thickness `b - a`; and when everything between the heights `a'` and `b'` and up to the distance `R` from
the axis through the station belongs to the body, then it is at least `2π G ρ (b' - a')`, up to the fraction `b' / R`. -/
theorem C113_wide (hh : h.IsHull) (hp : mkPoly h inHull = .ok p) (hs : h.Regular s) (hv : Call.onNew p ⟨s, ρ, Gc, gr⟩ = .ok (G, T)) (hk : 0 ≤ Gc * ρ)
    (hu : rdot u u = 1) {a b a' b' R : ℝ} (ha : 0 ≤ a) (hab : a ≤ b) (ha' : 0 ≤ a') (hab' : a' ≤ b') (hR : 0 < R) (hwide : cylinder s u a' b' R ⊆ h.body)
    (hlayer : ∀ q ∈ h.body, a ≤ rdot u ((P3.toV q).sub s) ∧ rdot u ((P3.toV q).sub s) ≤ b) :
    2 * Real.pi * (100000 * Gc * ρ) * (b' - a') * (1 - b' / R) ≤ rdot u G ∧ rdot u G ≤ 2 * Real.pi * (100000 * Gc * ρ) * (b - a) := by
  constructor
  · refine le_trans ?_ ((C113_cylinder hh hp hs hv hk hu ha' hab' hR).2 hwide fun q hq => ha.trans (hlayer q hq).1)
    have := mul_le_mul_of_nonneg_left (le_cylinderPull ha' hab' hR) (show 0 ≤ 100000 * Gc * ρ by nlinarith)
    unfold cylinderPull at this
    linarith
  · have := (C113_plate hh hp hs hv hk hu hab hlayer).2
    rwa [max_eq_left (ha.trans hab), max_eq_left ha] at this

/-! ### The hypotheses can be met: the tetrahedron, and a station a little below its bottom face -/

theorem tetra_regular_below : tetra.Regular ⟨1 / 5, 1 / 4, -1 / 100⟩ := by
  apply tetra_regular
  · intro a b ha hb hne
    apply clearOf_bounds <;> interval_cases a <;> interval_cases b <;> first | exact absurd rfl hne | skip
    all_goals simp only [rdot, cross_x, cross_y, cross_z, sub_x, sub_y, sub_z, tetra_pt0, tetra_pt1, tetra_pt2, tetra_pt3]; norm_num
  all_goals norm_num

theorem tetra_below_corner : ∀ t ∈ tetra.simplices, ∀ i, Corner t i → tetra.pt i ≠ ⟨1 / 5, 1 / 4, -1 / 100⟩ := by
  intro t ht i hi he
  have h4 := tetra_isHull.cornerIndex t ht i hi
  change i < 4 at h4
  have hz := congrArg V3.z he
  interval_cases i <;> simp only [tetra_pt0, tetra_pt1, tetra_pt2, tetra_pt3] at hz <;> norm_num at hz

theorem tetra_layer_below : ∀ q ∈ tetra.body, 1 / 100 ≤ rdot ⟨0, 0, 1⟩ ((P3.toV q).sub ⟨1 / 5, 1 / 4, -1 / 100⟩) ∧
    rdot ⟨0, 0, 1⟩ ((P3.toV q).sub ⟨1 / 5, 1 / 4, -1 / 100⟩) ≤ 101 / 100 := by
  intro q hq
  rw [tetra_body] at hq
  obtain ⟨h1, h2, h3, h4⟩ := hq
  simp only [rdot, P3.toV, sub_x, sub_y, sub_z]
  constructor <;> linarith

theorem tetra_disc_below : cylinder ⟨1 / 5, 1 / 4, -1 / 100⟩ ⟨0, 0, 1⟩ (1 / 100) (3 / 100) (1 / 10) ⊆ tetra.body := by
  rintro q ⟨⟨h1, h2⟩, h3⟩
  rw [sq (vlen _), vlen_sq] at h3
  simp only [rdot, P3.toV, sub_x, sub_y, sub_z] at h1 h2 h3
  rw [tetra_body]
  have h4 : (q.1 - 1 / 5) ^ 2 + (q.2.1 - 1 / 4) ^ 2 ≤ (1 / 10) ^ 2 := by nlinarith
  have h5 := abs_le.mp (abs_le_of_sq_le_sq (show (q.1 - 1 / 5) ^ 2 ≤ (1 / 10) ^ 2 by nlinarith [sq_nonneg (q.2.1 - 1 / 4)]) (by norm_num))
  have h6 := abs_le.mp (abs_le_of_sq_le_sq (show (q.2.1 - 1 / 4) ^ 2 ≤ (1 / 10) ^ 2 by nlinarith [sq_nonneg (q.1 - 1 / 5)]) (by norm_num))
  exact ⟨by linarith, by linarith, by linarith, by linarith⟩

/-- the answer to that station is upwards, between two numbers -/
example : ∃ G T, Call.onNew tetraP ⟨⟨1 / 5, 1 / 4, -1 / 100⟩, 1, 1, false⟩ = .ok (G, T) ∧ 2800 * Real.pi ≤ rdot ⟨0, 0, 1⟩ G ∧ rdot ⟨0, 0, 1⟩ G ≤ 200000 * Real.pi := by
  obtain ⟨T, hv⟩ := C16_newton_returned tetra_isHull tetraP_built tetra_regular_below tetra_below_corner 1 1
  refine ⟨_, T, hv, ?_⟩
  have := C113_wide tetra_isHull tetraP_built tetra_regular_below hv (by norm_num) (u := ⟨0, 0, 1⟩) (by simp [rdot]) (by norm_num) (by norm_num) (by norm_num) (by norm_num)
    (by norm_num) tetra_disc_below tetra_layer_below
  constructor <;> linarith [this.1, this.2, Real.pi_pos]

/-- half of the tetrahedron attracts less than the whole from above, and the whole not more than a plate of thickness 1 -/
example : ∃ q G T G' T', mkPoly halfA (fun _ => true) = .ok q ∧ Call.onNew q ⟨⟨2, 3, 5⟩, 1, 1, false⟩ = .ok (G, T) ∧
    Call.onNew tetraP ⟨⟨2, 3, 5⟩, 1, 1, true⟩ = .ok (G', T') ∧ rdot ⟨0, 0, -1⟩ G ≤ rdot ⟨0, 0, -1⟩ G' ∧ |rdot ⟨0, 0, -1⟩ G'| ≤ 200000 * Real.pi := by
  obtain ⟨q, hq⟩ := hull_mkPoly_ok halfA_isHull (fun _ => true)
  obtain ⟨T, hv⟩ := C16_newton_returned halfA_isHull hq halfA_regular (OffPlanes.corner halfA_offPlanes) 1 1
  obtain ⟨G', T', hv'⟩ := tetraP_answer 1 1
  refine ⟨q, _, T, G', T', hq, hv, hv', ?_, ?_⟩
  · refine C113_part halfA_isHull hq tetra_isHull tetraP_built halfA_regular tetra_regular_out hv hv' (by norm_num) ?_ ?_
    · intro x hx
      rw [halfA_body] at hx; rw [tetra_body]
      obtain ⟨h1, h2, h3, h4⟩ := hx
      exact ⟨by linarith, by linarith, by linarith, by linarith⟩
    · intro x hx
      rw [tetra_body] at hx
      obtain ⟨h1, h2, h3, h4⟩ := hx
      simp only [rdot, P3.toV, sub_x, sub_y, sub_z]; linarith
  · have := C113_width tetra_isHull tetraP_built tetra_regular_out hv' (by norm_num) (u := ⟨0, 0, -1⟩) (by simp [rdot]) (w := 1) (by
      intro x hx y hy
      rw [tetra_body] at hx hy
      obtain ⟨h1, h2, h3, h4⟩ := hx
      obtain ⟨k1, k2, k3, k4⟩ := hy
      simp only [rdot, P3.toV, sub_x, sub_y, sub_z]; linarith)
    linarith

end
end Geec
