import Verif.Props.Failure
import Verif.Props.Twin
import Verif.Props.ThinTube
import Verif.Props.Potential
import Verif.Props.Stability
import Verif.Props.Accuracy
import Verif.Props.InHull
import Verif.Props.Superposition
import Verif.Props.Access
import Verif.Props.FarField2

/-! Theorems about single bodies, applied to the tetrahedron with corners at the origin and at the unit points of the axes (`tetra`)
and to the octahedron (`octa`), seen from the point (2, 3, 5). The cases beside the theorems show that the hypotheses can hold; here the
theorems are used on a body for which every hypothesis is proved. -/

namespace Geec
noncomputable section

/-- the tetrahedron as the constructor builds it -/
def tetraP : Poly ℝ := (hull_mkPoly_ok tetra_isHull (fun _ => true)).choose
theorem tetraP_built : mkPoly tetra (fun _ => true) = .ok tetraP := (hull_mkPoly_ok tetra_isHull (fun _ => true)).choose_spec

/-- the octahedron as the constructor builds it -/
def octaP : Poly ℝ := (hull_mkPoly_ok octa_isHull (fun _ => true)).choose
theorem octaP_built : mkPoly octa (fun _ => true) = .ok octaP := (hull_mkPoly_ok octa_isHull (fun _ => true)).choose_spec

/-- the query with gradients from (2, 3, 5) -/
theorem tetraP_answer (ρ Gc : ℝ) : ∃ G T, Call.onNew tetraP ⟨⟨2, 3, 5⟩, ρ, Gc, true⟩ = .ok (G, T) :=
  C19_newton_returned tetra_isHull tetraP_built tetra_tensorRegular_out ρ Gc

/-- the query without gradients from (2, 3, 5): the same attraction (C03) and a zero tensor (C04) -/
theorem tetraP_answers (ρ Gc : ℝ) : ∃ G T, Call.onNew tetraP ⟨⟨2, 3, 5⟩, ρ, Gc, true⟩ = .ok (G, T) ∧
    Call.onNew tetraP ⟨⟨2, 3, 5⟩, ρ, Gc, false⟩ = .ok (G, M3.zeros) := by
  obtain ⟨G, T, hv⟩ := tetraP_answer ρ Gc
  obtain ⟨T', hv'⟩ := C03_gradient_flag_same_G tetraP _ ρ Gc hv
  have h0 : T' = M3.zeros := C04_no_gradient_zero_tensor (show (0 : ℝ) + 0 = 0 by norm_num) tetraP _ ρ Gc Mem.fresh hv'
  exact ⟨G, T, hv, h0 ▸ hv'⟩

/-- C05 and C09 for the tetrahedron: the tensor is symmetric, and three times the density gives three times the answer -/
example : ∃ G T, Call.onNew tetraP ⟨⟨2, 3, 5⟩, 2670, 1, true⟩ = .ok (G, T) ∧ T.r0.y = T.r1.x ∧ T.r0.z = T.r2.x ∧ T.r1.z = T.r2.y ∧
    Call.onNew tetraP ⟨⟨2, 3, 5⟩, 3 * 2670, 1, true⟩ = .ok (V3.smul 3 G, ⟨V3.smul 3 T.r0, V3.smul 3 T.r1, V3.smul 3 T.r2⟩) ∧
    Call.onNew tetraP ⟨⟨2, 3, 5⟩, 1335, 2, true⟩ = .ok (G, T) := by
  obtain ⟨G, T, hv⟩ := tetraP_answer 2670 1
  obtain ⟨h1, h2, h3⟩ := C05_tensor_symmetric tetraP _ 2670 1 true Mem.fresh hv
  exact ⟨G, T, hv, h1, h2, h3, C09_hull tetra_isHull tetraP_built _ true hv 3,
    ((C09_linear (wellTwinned_of_hull tetra_isHull tetraP_built) _ true).2 _ _ _ _ hv).2.2.2.1 1335 2 (by norm_num)⟩

/-- C01 and C02: queries with and without gradients in turn on the same tetrahedron give the answers of new objects -/
example : ∃ G T, (runCalls tetraP [⟨⟨2, 3, 5⟩, 2670, 1, false⟩, ⟨⟨2, 3, 5⟩, 2670, 1, true⟩, ⟨⟨2, 3, 5⟩, 2670, 1, false⟩] Mem.fresh).1 =
    [.ok (G, M3.zeros), .ok (G, T), .ok (G, M3.zeros)] ∧
    (Call.run tetraP (runCalls tetraP [⟨⟨2, 3, 5⟩, 2670, 1, false⟩, ⟨⟨2, 3, 5⟩, 2670, 1, true⟩] Mem.fresh).2 ⟨⟨2, 3, 5⟩, 600, 1, true⟩).1 =
      Call.onNew tetraP ⟨⟨2, 3, 5⟩, 600, 1, true⟩ := by
  obtain ⟨G, T, hv, hv'⟩ := tetraP_answers 2670 1
  refine ⟨G, T, ?_, ?_⟩
  · rw [C01_all_answers tetraP_built _ (by simp [hv, hv', returned])]
    simp [hv, hv']
  · refine C02_partial tetraP_built _ _ ?_
    rw [C01_all_answers tetraP_built _ (by simp [hv, hv', returned])]
    simp [hv, hv', returned]

/-- C02: the query from the corner (0, 0, 1), which is not on the first face, raises, and a query with gradients from (2, 3, 5) after it
raises too, though it returns on a new object -/
example : (Call.run tetraP Mem.fresh ⟨⟨0, 0, 1⟩, 2670, 1, false⟩).1 = .error .zeroDivisionError ∧
    (∃ x, (Call.run tetraP (Call.run tetraP Mem.fresh ⟨⟨0, 0, 1⟩, 2670, 1, false⟩).2 ⟨⟨2, 3, 5⟩, 2670, 1, true⟩).1 = .error x) ∧
    ∃ G T, Call.onNew tetraP ⟨⟨2, 3, 5⟩, 2670, 1, true⟩ = .ok (G, T) := by
  have h := C02_poisoned tetra_isHull tetraP_built (s0 := (0, 1, 2)) (s := (0, 1, 3)) rfl (by simp [tetra]) (v := 3) (.inr (.inr rfl)) (by
    rintro i (rfl | rfl | rfl) <;> simp [tetra_pt0, tetra_pt1, tetra_pt2, tetra_pt3]) 2670 1
  refine ⟨h.1, ?_, tetraP_answer 2670 1⟩
  exact h.2 [⟨⟨2, 3, 5⟩, 2670, 1, true⟩] (by simp) _ (by simp [runCalls, tetra_pt3])

/-- C10: the tetrahedron and the station moved by (7, −4, 100) -/
example : ∃ p', mkPoly { tetra with points := tetra.points.map (fun q => q.add ⟨7, -4, 100⟩) } (fun _ => true) = .ok p' ∧
    Call.onNew p' ⟨(⟨2, 3, 5⟩ : V3 ℝ).add ⟨7, -4, 100⟩, 2670, 1, true⟩ = Call.onNew tetraP ⟨⟨2, 3, 5⟩, 2670, 1, true⟩ := by
  have hb : ({ tetra with points := tetra.points.map (fun q => q.add ⟨7, -4, 100⟩) } : Hull ℝ) = tetra.rigid Motion.one ⟨7, -4, 100⟩ := by
    simp [Hull.rigid, rigid, one_apply]
  obtain ⟨p', hp'⟩ := hull_mkPoly_ok (tetra_isHull.rigid one_rotation ⟨7, -4, 100⟩) (fun _ => true)
  rw [← hb] at hp'
  exact ⟨p', hp', C10_translation tetra_isHull _ tetraP_built hp' _ _ _ _⟩

/-- C12: the tetrahedron and the station turned by a quarter turn about the vertical axis -/
example : ∃ p' G T T', mkPoly { tetra with points := tetra.points.map (⟨⟨0, -1, 0⟩, ⟨1, 0, 0⟩, ⟨0, 0, 1⟩⟩ : M3 ℝ).apply } (fun _ => true) = .ok p' ∧
    Call.onNew tetraP ⟨⟨2, 3, 5⟩, 2670, 1, true⟩ = .ok (G, T) ∧ Call.onNew p' ⟨⟨-3, 2, 5⟩, 2670, 1, true⟩ = .ok (⟨-G.y, G.x, G.z⟩, T') := by
  have hR : IsRotation (⟨⟨0, -1, 0⟩, ⟨1, 0, 0⟩, ⟨0, 0, 1⟩⟩ : M3 ℝ) := by refine ⟨?_, ?_, ?_, ?_⟩ <;> simp [rdot]
  have hb : ({ tetra with points := tetra.points.map (⟨⟨0, -1, 0⟩, ⟨1, 0, 0⟩, ⟨0, 0, 1⟩⟩ : M3 ℝ).apply } : Hull ℝ) =
      tetra.rigid ⟨⟨0, -1, 0⟩, ⟨1, 0, 0⟩, ⟨0, 0, 1⟩⟩ V3.zeros := by
    simp [Hull.rigid, rigid, tetra, M3.apply, V3.add]
  obtain ⟨p', hp'⟩ := hull_mkPoly_ok (tetra_isHull.rigid hR V3.zeros) (fun _ => true)
  rw [← hb] at hp'
  obtain ⟨G, T, hv⟩ := tetraP_answer 2670 1
  have h := C12_rotation tetra_isHull hR tetraP_built hp' ⟨2, 3, 5⟩ 2670 1 true
  have hs : (⟨⟨0, -1, 0⟩, ⟨1, 0, 0⟩, ⟨0, 0, 1⟩⟩ : M3 ℝ).apply ⟨2, 3, 5⟩ = ⟨-3, 2, 5⟩ := by refine V3.ext' ?_ ?_ ?_ <;> simp [M3.apply, rdot]
  rw [hv, hs] at h
  rcases hw : Call.onNew p' ⟨⟨-3, 2, 5⟩, 2670, 1, true⟩ with e | ⟨G', T'⟩
  · rw [hw] at h; simp [Except.map] at h
  · rw [hw] at h
    simp only [Except.map, Except.ok.injEq] at h
    refine ⟨p', G, T, T', hp', hv, ?_⟩
    rw [hw, h]
    congr 2
    refine V3.ext' ?_ ?_ ?_ <;> simp [M3.apply, rdot]

/-- C13 and C14: the edge from the origin to (1, 0, 0) and the same edge reversed -/
example : ∃ v d d', edgeIntegral (⟨⟨0, 0, 0⟩, ⟨1, 0, 0⟩, (0, 1), (⟨1, 0, 0⟩ : V3 ℝ).sub ⟨0, 0, 0⟩, vlen ((⟨1, 0, 0⟩ : V3 ℝ).sub ⟨0, 0, 0⟩), 1, none⟩ : Edge ℝ) ⟨2, 3, 5⟩ true = .ok (v, d) ∧
    edgeIntegral (⟨⟨1, 0, 0⟩, ⟨0, 0, 0⟩, (1, 0), (⟨0, 0, 0⟩ : V3 ℝ).sub ⟨1, 0, 0⟩, vlen ((⟨0, 0, 0⟩ : V3 ℝ).sub ⟨1, 0, 0⟩), 1, none⟩ : Edge ℝ) ⟨2, 3, 5⟩ false = .ok (v.neg, d') := by
  have c : ∀ a b, a < 4 → b < 4 → a ≠ b → ClearOf (tetra.pt a) (tetra.pt b) ⟨2, 3, 5⟩ := by
    intro a b ha hb hne
    apply clearOf_bounds <;> interval_cases a <;> interval_cases b <;> first | exact absurd rfl hne | skip
    all_goals simp only [tetra_pt0, tetra_pt1, tetra_pt2, tetra_pt3, rdot, cross_x, cross_y, cross_z, sub_x, sub_y, sub_z]; norm_num
  exact C14_antisymmetric ⟨rfl, rfl, by intro h; simpa using congrArg V3.x h⟩ ⟨rfl, rfl, by intro h; simpa using congrArg V3.x h⟩ rfl rfl
    (c 0 1 (by norm_num) (by norm_num) (by norm_num)) (c 1 0 (by norm_num) (by norm_num) (by norm_num)) true false

/-- C13, C14, C82: every edge of the tetrahedron seen from (2, 3, 5) -/
example (i j : Nat) (e : Edge ℝ) (he : tetraP.edgeAt i j = some e) :
    (∃ v d d', edgeIntegral e ⟨2, 3, 5⟩ true = .ok (v, d) ∧ edgeValue tetraP ⟨2, 3, 5⟩ true i e = .ok (v, d')) ∧
    (∃ P Q R d, edgeIntegral e ⟨2, 3, 5⟩ true = .ok (⟨P, Q, R⟩, d)) ∧
    ∃ i' j' e', i' ≠ i ∧ tetraP.edgeAt i' j' = some e' ∧ e'.trace = (e.trace.1.reverse, e.trace.2.1.reverse, e.trace.2.2.reverse) := by
  obtain ⟨c1, c2⟩ := tetra_clear tetraP_built i j e he
  obtain ⟨P, Q, R, d, h, -⟩ := C13_line_integral (edge_proper tetra_isHull tetraP_built he) c1 true
  obtain ⟨i', j', e', h1, h2, h3, -⟩ := C82_reversed tetra_isHull tetraP_built he
  exact ⟨C14_twin_value tetra_isHull tetraP_built he c1 c2 true, ⟨P, Q, R, d, h⟩, i', j', e', h1, h2, h3⟩

/-- C15: the triangle (1, 0, 0), (0, 2, 0), (0, 0, 0) seen from (5, 6, −7) -/
example (gr : Bool) (i : Nat) (m : Mem ℝ) : ∃ f : Face ℝ, f.points = [⟨1, 0, 0⟩, ⟨0, 2, 0⟩, ⟨0, 0, 0⟩] ∧
    ((((do getDotPoint1 i f ⟨5, 6, -7⟩; getSign i; getOmega i f ⟨5, 6, -7⟩ gr : Act ℝ Unit) m).2).face i).omega =
      some (-solidAngle ⟨0, 0, 1⟩ ⟨1, 0, 0⟩ ⟨0, 2, 0⟩ ⟨0, 0, 0⟩ ⟨5, 6, -7⟩) := by
  refine ⟨⟨[⟨1, 0, 0⟩, ⟨0, 2, 0⟩, ⟨0, 0, 0⟩], [], ⟨0, 0, 1⟩, [], []⟩, rfl, (C15_solid_angle rfl ⟨?_, ?_, ?_, ?_⟩ ?_ gr i m).2⟩
  · simp [rdot]
  · simp [rdot]
  · simp [rdot]
  · simp [rdot]
  · simp [rdot]; unfold repsilon; norm_num

/-- C22: from (2, 3, 5) no query raises; from (0, 1, 0) it does -/
example : (¬ ∃ x, Call.onNew tetraP ⟨⟨2, 3, 5⟩, 2670, 1, false⟩ = .error x) ∧ ∃ x, Call.onNew tetraP ⟨⟨0, 1, 0⟩, 2670, 1, false⟩ = .error x := by
  constructor
  · rw [C22_raises_iff tetra_isHull tetraP_built]
    rintro ⟨s, hs, i, hi, he⟩
    exact tetra_out_corner s hs i hi he
  · rw [C22_raises_iff tetra_isHull tetraP_built]
    exact ⟨(0, 1, 2), by simp [tetra], 2, .inr (.inr rfl), tetra_pt2⟩

/-- C21: the origin is an extreme point of the tetrahedron -/
example : Call.onNew tetraP ⟨⟨0, 0, 0⟩, 2670, 1, true⟩ = .error .zeroDivisionError := by
  refine C21_vertex tetra_isHull tetraP_built ?_ 2670 1 true
  rw [mem_extremePoints]
  refine ⟨by rw [tetra_body]; simp [V3.toP], ?_⟩
  rw [tetra_body]
  rintro ⟨x, y, z⟩ ⟨h1, h2, h3, -⟩ ⟨x', y', z'⟩ ⟨h4, h5, h6, -⟩ ⟨a, b, ha, hb, hab, he⟩
  simp only [V3.toP, Prod.smul_mk, Prod.mk_add_mk, Prod.mk.injEq, smul_eq_mul] at he h1 h2 h3 h4 h5 h6 ⊢
  obtain ⟨e1, e2, e3⟩ := he
  have k : ∀ u v : ℝ, 0 ≤ u → 0 ≤ v → a * u + b * v = 0 → u = 0 ∧ v = 0 := by
    intro u v hu hv h
    have q1 := mul_nonneg ha.le hu
    have q2 := mul_nonneg hb.le hv
    exact ⟨by rcases mul_eq_zero.mp (show a * u = 0 by linarith) with h | h <;> [linarith; exact h],
      by rcases mul_eq_zero.mp (show b * v = 0 by linarith) with h | h <;> [linarith; exact h]⟩
  have k1 := k _ _ h1 h4 e1
  have k2 := k _ _ h2 h5 e2
  have k3 := k _ _ h3 h6 e3
  exact ⟨⟨k1.1, k2.1, k3.1⟩, k1.2, k2.2, k3.2⟩

/-- C23 and C25 -/
example (f : Face ℝ) (hf : f ∈ tetraP.faces) (c : Call ℝ) : rdot f.un f.un = 1 ∧ (∀ a ∈ f.points, rdot f.un (⟨1 / 4, 1 / 4, 1 / 4⟩ : V3 ℝ) < rdot f.un a) ∧
    c.onNew tetraP ≠ .error .typeError := by
  obtain ⟨h1, -, -, h4⟩ := C23_outward_unit_normals tetra_isHull tetraP_built hf
  refine ⟨h1, fun a ha => ?_, C25_no_twin_error tetra_isHull tetraP_built c⟩
  exact h4 a ha (1 / 4, 1 / 4, 1 / 4) (by rw [tetra_interior]; norm_num)

/-- C64 from (2, 3, 0), a point in the plane of a face; C64 and C13 in the thin tube around an edge -/
example : (∃ G T, Call.onNew tetraP ⟨⟨2, 3, 0⟩, 2670, 1, true⟩ = .ok (G, T) ∧
      HasDerivAt (fun x => 1000000000 * 1 * 2670 * (attraction tetra.body ((⟨2, 3, 0⟩ : V3 ℝ).add (V3.smul x ⟨0, 0, 1⟩))).y) (rdot T.r1 ⟨0, 0, 1⟩) 0) ∧
    ∃ G T D, Call.onNew tetraP ⟨thinStation, 2670, 1, true⟩ = .ok (G, T) ∧
      HasDerivAt (fun x => 1000000000 * 1 * 2670 * (attraction tetra.body (thinStation.add (V3.smul x ⟨0, 0, 1⟩))).y) D 0 ∧
      |D| ≤ 1000000000 * 1 * 2670 / 10 ∧ T.r1.z ≤ D - 1000000000 * 1 * 2670 / 5 := by
  obtain ⟨G, T, hv, h⟩ := C64_partial tetra_isHull tetraP_built tetra_tensorRegular_plane.regular tetra_tensorRegular_plane.clear
    tetra_tensorRegular_plane.off 2670 1
  exact ⟨⟨G, T, hv, (h _).2.1⟩, C64_thin_tensor tetraP_built (by norm_num)⟩

/-- C22 with gradients: no edge of the tetrahedron is as long as the way from its corner to (2, 3, 5) -/
example (gr : Bool) : ∃ G T, Call.onNew tetraP ⟨⟨2, 3, 5⟩, 2670, 1, gr⟩ = .ok (G, T) := by
  refine C22_gradient tetra_isHull tetraP_built tetra_out_corner (fun t ht i j hi hj hij => ?_) 2670 1 gr
  have hi4 : i < 4 := tetra_isHull.cornerIndex t ht i hi
  have hj4 : j < 4 := tetra_isHull.cornerIndex t ht j hj
  refine ne_of_lt (Real.sqrt_lt_sqrt (rdot_self_nonneg _) ?_)
  interval_cases i <;> interval_cases j <;> simp only [tetra_pt0, tetra_pt1, tetra_pt2, tetra_pt3, rdot, sub_x, sub_y, sub_z] <;> norm_num

/-- C90 for the tetrahedron and the octahedron that contains it -/
example : ∃ G T G' T', Call.onNew tetraP ⟨⟨2, 3, 5⟩, 2670, 1, true⟩ = .ok (G, T) ∧ Call.onNew octaP ⟨⟨2, 3, 5⟩, 2670, 1, false⟩ = .ok (G', T') ∧
    vlen (G.sub G') ≤ |100000 * 1 * (2670 : ℝ)| * (48 * 1 + ((MeasureTheory.volume (tetra.body \ octa.body)).toReal + (MeasureTheory.volume (octa.body \ tetra.body)).toReal) / 1 ^ 2) := by
  obtain ⟨G, T, hv⟩ := tetraP_answer 2670 1
  obtain ⟨G', T', hv'⟩ := C22_total octa_isHull octaP_built octa_out_corner 2670 1
  exact ⟨G, T, G', T', hv, hv', C90_difference tetra_isHull octa_isHull tetraP_built octaP_built tetra_regular_out octa_regular_out hv hv' one_pos⟩

/-- C72: below the tetrahedron -/
example : ∃ G T, Call.onNew tetraP ⟨⟨1 / 4, 1 / 8, -1⟩, 2670, 1, false⟩ = .ok (G, T) ∧
    vlen (G.sub (V3.smul (100000 * 1 * 2670) (attraction tetra.body ⟨1 / 4, 1 / 8, -1⟩))) ≤
      |100000 * 1 * (2670 : ℝ)| * 4 * (2 * Real.pi * repsilon + 3 * tubeError 1000000) := by
  obtain ⟨G, T, hv⟩ := C22_total (obs := ⟨1 / 4, 1 / 8, -1⟩) tetra_isHull tetraP_built (fun s hs i hi => by
    have h4 : i < 4 := tetra_isHull.cornerIndex s hs i hi
    intro he
    have hy := congrArg V3.y he
    interval_cases i <;> simp only [tetra_pt0, tetra_pt1, tetra_pt2, tetra_pt3] at hy <;> norm_num at hy) 2670 1
  have := C72_error tetra_isHull tetraP_built (tetra_ordinary_line (z := -1) ⟨by norm_num, by norm_num⟩) hv
  exact ⟨G, T, hv, by simpa [tetra] using this⟩

/-- C81: the centre of three points is found in their convex hull by an exact test -/
example (inHull : V3 ℝ → Bool) (hx : ExactInHull [⟨0, 0, 0⟩, ⟨3, 0, 0⟩, ⟨0, 3, 0⟩] inHull) :
    inHull (meanPoint [⟨0, 0, 0⟩, ⟨3, 0, 0⟩, ⟨0, 3, 0⟩] [0, 1, 2]) = true := C81_centroid (by simp) (by simp) hx

/-- C85 around a point of an edge: two stations near the middle of the edge from the origin to (1, 0, 0) -/
example : ∃ δ > 0, ∀ s : V3 ℝ, vlen (s.sub ⟨1 / 2, 0, 0⟩) < δ → tetra.Regular s → ∀ G T G' T',
    Call.onNew tetraP ⟨s, 2670, 1, false⟩ = .ok (G, T) → Call.onNew tetraP ⟨⟨1 / 2, 0, 0⟩, 2670, 1, false⟩ = .ok (G', T') → |G.x - G'.x| ≤ 1 := by
  obtain ⟨δ, hδ, h⟩ := C85_continuous tetra_isHull tetraP_built ⟨1 / 2, 0, 0⟩ 2670 1 one_pos
  exact ⟨δ, hδ, fun s hs hr G T G' T' hv hv' => (h s _ hs (by simpa [vlen, rdot] using hδ) hr tetra_regular_edge false false G G' T T' hv hv').1⟩

/-- C08, C06, C07, C48, C04, C05 for a station and two bodies -/
example : ∃ w : World ℝ, w.Ready ∧ ∃ G T G' s' w' w'', Call.onNew tetraP ⟨⟨2, 3, 5⟩, 2670, 1, false⟩ = .ok (G, T) ∧ 
    computeGravity (.list ([0, 1].map .poly)) 2670 1 false (Station.new ⟨2, 3, 5⟩) w = (.ok (), s', w') ∧
    computeGravity (.list ([1, 0].map .poly)) 2670 1 false (Station.new ⟨2, 3, 5⟩) w = (.ok (), s', w'') ∧
    s'.G = (V3.zeros.add G).add G' ∧ s'.coord = ⟨2, 3, 5⟩ ∧ s'.T = M3.zeros ∧ w'.poly = w.poly ∧ (∀ k, 1 < k → w'.mem k = w.mem k) ∧
    (computeGravity (.list [.poly 0, .other]) 2670 1 false (Station.new ⟨2, 3, 5⟩) w).1 = .error .typeError := by
  let P : Nat → Poly ℝ := fun k => if k = 0 then tetraP else octaP
  have hw : (World.new P).Ready := World.new_ready P (by
    intro k
    by_cases hk : k = 0
    · exact ⟨tetra, _, by simp only [P, hk]; exact tetraP_built⟩
    · exact ⟨octa, _, by simp only [P, if_neg hk]; exact octaP_built⟩)
  obtain ⟨G, T, -, hv⟩ := tetraP_answers 2670 1
  obtain ⟨G', T', hv'⟩ := C22_total octa_isHull octaP_built octa_out_corner 2670 1
  obtain ⟨w', h, -, hpoly⟩ := C06_station_accumulates (2670 : ℝ) 1 false [0, 1] (Station.new ⟨2, 3, 5⟩) (World.new P) hw [(G, M3.zeros), (G', T')] (by
    simp [World.new, P, Station.new, hv, hv'])
  obtain ⟨w'', h'⟩ := C08_order_of_bodies [0, 1] [1, 0] (.swap _ _ _) 2670 1 false _ _ _ _ hw h
  have h48 := C48_geometry_unmodified [0, 1] (2670 : ℝ) 1 false (Station.new ⟨2, 3, 5⟩) (World.new P)
  have h4 := C04_station_tensor_unchanged (fun a : ℝ => (add_zero a : a + 0 = a)) (.list ([0, 1].map .poly)) 2670 1 (Station.new ⟨2, 3, 5⟩) (World.new P)
  rw [h] at h48 h4
  refine ⟨World.new P, hw, G, M3.zeros, G', _, w', w'', hv, h, h', rfl, h48.1, h4, hpoly, fun k hk => h48.2.2 k (by simp; omega), ?_⟩
  rw [C07_wrong_argument _ (by simp [Acceptable])]

/-- C93: the station as it is shown after the query -/
example : ∃ G T, Call.onNew tetraP ⟨⟨2, 3, 5⟩, 2670, 1, true⟩ = .ok (G, T) ∧
    (Station.repr (computeGravity (.list ([0].map .poly)) 2670 1 true (Station.new ⟨2, 3, 5⟩) (World.new fun _ => tetraP)).2.1).1.console =
      .object "Station" [("coord", .array ⟨2, 3, 5⟩), ("G", .array (V3.zeros.add G))] := by
  obtain ⟨G, T, hv⟩ := tetraP_answer 2670 1
  exact ⟨G, T, hv, (C93_station (2670 : ℝ) 1 true [0] (Station.new ⟨2, 3, 5⟩) (World.new fun _ => tetraP)
    (World.new_ready _ fun _ => ⟨tetra, _, tetraP_built⟩) [(G, T)] (by simp [World.new, Station.new, hv])).1⟩

/-- the centre of mass of the tetrahedron is the point about which the first moment vanishes -/
example : ∫ q in tetra.body, rdot ((P3.toV q).sub (centreOfMass tetra.body)) ⟨1, 2, 3⟩ = 0 := centreOfMass_spec tetra_isHull _

end
end Geec
