import Verif.Lemmas.AlmostAll
import Verif.Props.Reaction
/-
C115: Gauss's law for the answers, and C114 for all stations, with a bound of the error.
-/
namespace Geec
open Arith MeasureTheory Metric Set Filter Topology
noncomputable section
variable {h h' : Hull ℝ} {inHull inHull' : V3 ℝ → Bool} {p p' : Poly ℝ} {ρ ρ' Gc : ℝ} {gr gr' : Bool}

theorem near_integral {X : Type} [MeasurableSpace X] {μ : Measure X} [IsFiniteMeasure μ] {f f' : X → ℝ} (hf : AEStronglyMeasurable f μ) (hf' : Integrable f' μ)
    {E : ℝ} (hE : ∀ᵐ x ∂μ, |f x - f' x| ≤ E) : |∫ x, f x ∂μ - ∫ x, f' x ∂μ| ≤ E * μ.real univ := by
  have h1 : Integrable (fun x => f x - f' x) μ := Integrable.of_bound (hf.sub hf'.aestronglyMeasurable) E hE
  have h2 : Integrable f μ := (h1.add hf').congr (Eventually.of_forall fun x => by simp)
  rw [← integral_sub h2 hf']
  exact norm_integral_le_of_norm_le_const (f := fun x => f x - f' x) (μ := μ) (C := E) hE

/-- the bound of C72 for the gravity of a body with density `ρ` -/
def answerError (h : Hull ℝ) (ρ Gc D : ℝ) : ℝ := |100000 * Gc * ρ| * h.simplices.length * (2 * Real.pi * repsilon + 3 * tubeError D)

theorem attraction_meas {B : Set P3} (hB : Decent B) (d : V3 ℝ) : Continuous fun q => rdot (attraction B (P3.toV q)) d := by
  simp only [rdot_attraction hB, toV_toP]
  exact kernel_continuous (k := pull d.toP) hB (pull_meas _) (pull_le _)

/-- the integral of the answers over the stations of a set, one component -/
theorem answers_integral (hh : h.IsHull) (hp : mkPoly h inHull = .ok p) {B : Set P3} (hB : Decent B) {D : ℝ} (hD : ∀ q ∈ B, h.Within (P3.toV q) D)
    {g : V3 ℝ → V3 ℝ} {T : V3 ℝ → M3 ℝ} (hv : ∀ q ∈ B, Call.onNew p ⟨P3.toV q, ρ, Gc, gr⟩ = .ok (g (P3.toV q), T (P3.toV q))) (d : V3 ℝ) :
    |(∫ q in B, rdot (g (P3.toV q)) d) - 100000 * Gc * ρ * ∫ q in B, rdot (attraction h.body (P3.toV q)) d| ≤ answerError h ρ Gc D * vlen d * volume.real B := by
  obtain ⟨F, hF, hg⟩ := answer_measurable hh hp ρ Gc gr
  have hfin : IsFiniteMeasure (volume.restrict B) := ⟨by rw [Measure.restrict_apply_univ]; exact hB.bdd.measure_lt_top⟩
  rw [← integral_const_mul, show volume.real B = (volume.restrict B).real univ by rw [measureReal_restrict_apply_univ]]
  refine near_integral (f := fun q => rdot (g (P3.toV q)) d) (f' := fun q => 100000 * Gc * ρ * rdot (attraction h.body (P3.toV q)) d) (μ := volume.restrict B) ?_ ?_ ?_
  · refine (hF.dot (MV.const d)).aestronglyMeasurable.congr ?_
    refine (ae_restrict_iff' hB.meas).mpr (Eventually.of_forall fun q hq => ?_)
    dsimp only
    rw [← hg q _ (hv q hq)]
  · exact (continuousOn_integrable hB (attraction_meas h.body_decent d)).const_mul _
  · filter_upwards [ordinary_space hB.meas hD, ae_restrict_mem hB.meas] with q hq hqB
    have h1 := C72_error hh hp hq (hv q hqB)
    have h2 := abs_rdot_le ((g (P3.toV q)).sub (V3.smul (100000 * Gc * ρ) (attraction h.body (P3.toV q)))) d
    have e : rdot (g (P3.toV q)) d - 100000 * Gc * ρ * rdot (attraction h.body (P3.toV q)) d =
        rdot ((g (P3.toV q)).sub (V3.smul (100000 * Gc * ρ) (attraction h.body (P3.toV q)))) d := by
      simp only [rdot, sub_x, sub_y, sub_z, smul_x, smul_y, smul_z]; ring
    rw [e]
    exact h2.trans (mul_le_mul_of_nonneg_right h1 (vlen_nonneg d))

theorem surface_point {P : Set P3} {n : ℕ} {A B C N : Fin n → V3 ℝ} (hS : Surface P A B C N) (k : Fin n) {w : ℝ × ℝ} (hw : w ∈ triParam) :
    (triPoint (A k) (B k) (C k) w).toP ∈ frontier P := by
  obtain ⟨h1, h2, h3⟩ := hw
  have hmem : (triPoint (A k) (B k) (C k) w).toP ∈ triangle (A k) (B k) (C k) := by
    refine mem_triangle.mpr ⟨1 - w.1 - w.2, w.1, w.2, by linarith, h1.le, h2.le, by ring, ?_⟩
    unfold triPoint V3.toP
    simp only [add_x, add_y, add_z, smul_x, smul_y, smul_z, sub_x, sub_y, sub_z, Prod.smul_mk, smul_eq_mul, Prod.mk_add_mk, Prod.mk.injEq]
    refine ⟨?_, ?_, ?_⟩ <;> ring
  refine ⟨subset_closure (hS.sub k hmem), fun hint => ?_⟩
  have hlt := hS.lt k _ hint
  have hn := hS.normal k
  rw [toP_toV] at hlt
  have e : rdot (N k) (triPoint (A k) (B k) (C k) w) = rdot (N k) (A k) + w.1 * rdot (N k) ((B k).sub (A k)) + w.2 * rdot (N k) ((C k).sub (A k)) := by
    unfold triPoint
    simp only [rdot, add_x, add_y, add_z, smul_x, smul_y, smul_z]; ring
  rw [e, hn.ortho1, hn.ortho2] at hlt
  linarith

/-- the flux of the answers through one triangle -/
theorem answers_triangle (hh : h.IsHull) (hp : mkPoly h inHull = .ok p) {n a b c : V3 ℝ} (hn : IsNormal n a b c) {D : ℝ}
    (hD : ∀ w ∈ triParam, h.Within (triPoint a b c w) D) {g : V3 ℝ → V3 ℝ} {T : V3 ℝ → M3 ℝ}
    (hv : ∀ w ∈ triParam, Call.onNew p ⟨triPoint a b c w, ρ, Gc, gr⟩ = .ok (g (triPoint a b c w), T (triPoint a b c w))) :
    |surfaceIntegral a b c (fun x => rdot (g x) n) - 100000 * Gc * ρ * surfaceIntegral a b c (fun x => rdot (attraction h.body x) n)| ≤
      answerError h ρ Gc D * surfaceIntegral a b c (fun _ => 1) := by
  obtain ⟨F, hF, hg⟩ := answer_measurable hh hp ρ Gc gr
  have hfin : IsFiniteMeasure (volume.restrict triParam) :=
    ⟨by rw [Measure.restrict_apply_univ]; exact (isBounded_closedBall.subset triParam_bdd).measure_lt_top⟩
  have hun : vlen n = 1 := by
    have h1 := vlen_sq n
    rw [hn.unit] at h1
    nlinarith [vlen_nonneg n]
  have hcr : cross (b.sub a) (c.sub a) ≠ V3.zeros := by
    intro h0
    have := hn.pos
    rw [h0, rdot_zeros] at this
    exact lt_irrefl _ this
  have key : |(∫ w in triParam, rdot (g (triPoint a b c w)) n) - ∫ w in triParam, 100000 * Gc * ρ * rdot (attraction h.body (triPoint a b c w)) n| ≤
      answerError h ρ Gc D * (volume.restrict triParam).real univ := by
    refine near_integral ?_ ?_ ?_
    · refine ((hF.comp (triPoint_continuous a b c).measurable).dot (MV.const n)).aestronglyMeasurable.congr ?_
      refine (ae_restrict_iff' triParam_meas).mpr (Eventually.of_forall fun w hw => ?_)
      dsimp only
      have := hg (triPoint a b c w).toP _ (by rw [toP_toV]; exact hv w hw)
      rw [← this]
    · have := triParam_integrable ((attraction_meas h.body_decent n).comp (triPoint_continuous a b c))
      simp only [Function.comp_def, toP_toV] at this
      exact this.const_mul _
    · filter_upwards [ordinary_triangle hcr hD, ae_restrict_mem triParam_meas] with w hw hwt
      have h1 := C72_error hh hp hw (hv w hwt)
      have h2 := abs_rdot_le ((g (triPoint a b c w)).sub (V3.smul (100000 * Gc * ρ) (attraction h.body (triPoint a b c w)))) n
      have e : rdot (g (triPoint a b c w)) n - 100000 * Gc * ρ * rdot (attraction h.body (triPoint a b c w)) n =
          rdot ((g (triPoint a b c w)).sub (V3.smul (100000 * Gc * ρ) (attraction h.body (triPoint a b c w)))) n := by
        simp only [rdot, sub_x, sub_y, sub_z, smul_x, smul_y, smul_z]; ring
      rw [e]
      rw [hun, mul_one] at h2
      exact h2.trans h1
  rw [integral_const_mul] at key
  have h0 := vlen_nonneg (cross (b.sub a) (c.sub a))
  have e1 : surfaceIntegral a b c (fun x => rdot (g x) n) - 100000 * Gc * ρ * surfaceIntegral a b c (fun x => rdot (attraction h.body x) n) =
      vlen (cross (b.sub a) (c.sub a)) * ((∫ w in triParam, rdot (g (triPoint a b c w)) n) - 100000 * Gc * ρ * ∫ w in triParam, rdot (attraction h.body (triPoint a b c w)) n) := by
    unfold surfaceIntegral
    change vlen _ * (∫ w in triParam, rdot (g (triPoint a b c w)) n) - 100000 * Gc * ρ * (vlen _ * ∫ w in triParam, rdot (attraction h.body (triPoint a b c w)) n) = _
    ring
  have e2 : surfaceIntegral a b c (fun _ => 1) = vlen (cross (b.sub a) (c.sub a)) * (volume.restrict triParam).real univ := by
    unfold surfaceIntegral
    rw [integral_const, smul_eq_mul, mul_one]
  rw [e1, e2, abs_mul, abs_of_nonneg h0]
  calc _ ≤ vlen (cross (b.sub a) (c.sub a)) * (answerError h ρ Gc D * (volume.restrict triParam).real univ) := mul_le_mul_of_nonneg_left key h0
    _ = _ := by ring

/-- **C115** Gauss's law: integrate the component of the answers along the outer normal over the surface of a convex polyhedron `K`
(`Surface`: triangles with outer normals). The result is `-4π G` times the mass that the body has inside `K`, up to the error of
C72 times the area. Stations on the surface are to be farther than `eps` from the corners of the body; they may lie on its faces
and edges, and inside of it. -/
theorem C115_flux (hh : h.IsHull) (hp : mkPoly h inHull = .ok p) {K : Set P3} {n : ℕ} {A B C N : Fin n → V3 ℝ} (hS : Surface K A B C N) {D : ℝ}
    (hD : ∀ q ∈ frontier K, h.Within (P3.toV q) D) {g : V3 ℝ → V3 ℝ} {T : V3 ℝ → M3 ℝ}
    (hv : ∀ q ∈ frontier K, Call.onNew p ⟨P3.toV q, ρ, Gc, gr⟩ = .ok (g (P3.toV q), T (P3.toV q))) :
    |∑ k, surfaceIntegral (A k) (B k) (C k) (fun x => rdot (g x) (N k)) + 4 * Real.pi * (100000 * Gc) * (ρ * volume.real (h.body ∩ K))| ≤
      |100000 * Gc * ρ| * h.simplices.length * (2 * Real.pi * repsilon + 3 * tubeError D) * ∑ k, surfaceIntegral (A k) (B k) (C k) (fun _ => 1) := by
  have hG := attraction_flux h.body_decent hS
  have hk : ∀ k, |surfaceIntegral (A k) (B k) (C k) (fun x => rdot (g x) (N k)) - 100000 * Gc * ρ * surfaceIntegral (A k) (B k) (C k) (fun x => rdot (attraction h.body x) (N k))| ≤
      answerError h ρ Gc D * surfaceIntegral (A k) (B k) (C k) (fun _ => 1) := by
    intro k
    refine answers_triangle (T := T) (gr := gr) hh hp (hS.normal k) (fun w hw => ?_) (fun w hw => ?_)
    · have := hD _ (surface_point hS k hw)
      rwa [toP_toV] at this
    · have := hv _ (surface_point hS k hw)
      rwa [toP_toV] at this
  have e : ∑ k, surfaceIntegral (A k) (B k) (C k) (fun x => rdot (g x) (N k)) + 4 * Real.pi * (100000 * Gc) * (ρ * volume.real (h.body ∩ K)) =
      ∑ k, (surfaceIntegral (A k) (B k) (C k) (fun x => rdot (g x) (N k)) - 100000 * Gc * ρ * surfaceIntegral (A k) (B k) (C k) (fun x => rdot (attraction h.body x) (N k))) := by
    rw [Finset.sum_sub_distrib, ← Finset.mul_sum, hG]
    unfold Measure.real
    ring
  rw [e]
  calc _ ≤ ∑ k, |surfaceIntegral (A k) (B k) (C k) (fun x => rdot (g x) (N k)) - 100000 * Gc * ρ * surfaceIntegral (A k) (B k) (C k) (fun x => rdot (attraction h.body x) (N k))| :=
        Finset.abs_sum_le_sum_abs _ _
    _ ≤ ∑ k, answerError h ρ Gc D * surfaceIntegral (A k) (B k) (C k) (fun _ => 1) := Finset.sum_le_sum fun k _ => hk k
    _ = _ := by rw [← Finset.mul_sum]; rfl

/-- **C115** for the surface of a second body: weighing a body by a survey around it. -/
theorem C115_mass (hh : h.IsHull) (hp : mkPoly h inHull = .ok p) (hh' : h'.IsHull) (hp' : mkPoly h' inHull' = .ok p') (hsub : h.body ⊆ h'.body) {D : ℝ}
    (hD : ∀ q ∈ frontier h'.body, h.Within (P3.toV q) D) {g : V3 ℝ → V3 ℝ} {T : V3 ℝ → M3 ℝ}
    (hv : ∀ q ∈ frontier h'.body, Call.onNew p ⟨P3.toV q, ρ, Gc, gr⟩ = .ok (g (P3.toV q), T (P3.toV q))) :
    |∑ k : Fin p'.faces.length, surfaceIntegral (p'.faces[k]).pa (p'.faces[k]).pb (p'.faces[k]).pc (fun x => rdot (g x) (p'.faces[k]).un) +
        4 * Real.pi * (100000 * Gc) * (ρ * volume.real h.body)| ≤
      |100000 * Gc * ρ| * h.simplices.length * (2 * Real.pi * repsilon + 3 * tubeError D) *
        ∑ k : Fin p'.faces.length, surfaceIntegral (p'.faces[k]).pa (p'.faces[k]).pb (p'.faces[k]).pc (fun _ => 1) := by
  have := C115_flux hh hp (hull_surface hh' hp') hD hv
  rwa [inter_eq_left.mpr hsub] at this

/-- **C115**, no mass inside: the flux out of a body that the attracting body does not touch. -/
theorem C115_empty (hh : h.IsHull) (hp : mkPoly h inHull = .ok p) (hh' : h'.IsHull) (hp' : mkPoly h' inHull' = .ok p') (hdis : Disjoint h.body h'.body) {D : ℝ}
    (hD : ∀ q ∈ frontier h'.body, h.Within (P3.toV q) D) {g : V3 ℝ → V3 ℝ} {T : V3 ℝ → M3 ℝ}
    (hv : ∀ q ∈ frontier h'.body, Call.onNew p ⟨P3.toV q, ρ, Gc, gr⟩ = .ok (g (P3.toV q), T (P3.toV q))) :
    |∑ k : Fin p'.faces.length, surfaceIntegral (p'.faces[k]).pa (p'.faces[k]).pb (p'.faces[k]).pc (fun x => rdot (g x) (p'.faces[k]).un)| ≤
      |100000 * Gc * ρ| * h.simplices.length * (2 * Real.pi * repsilon + 3 * tubeError D) *
        ∑ k : Fin p'.faces.length, surfaceIntegral (p'.faces[k]).pa (p'.faces[k]).pb (p'.faces[k]).pc (fun _ => 1) := by
  have := C115_flux hh hp (hull_surface hh' hp') hD hv
  rw [hdis.inter_eq] at this
  simpa using this

/-- **C114** with the error of the thin places: action and reaction for all stations that are farther than `eps` from the corners. -/
theorem C114_force_error (hh : h.IsHull) (hp : mkPoly h inHull = .ok p) (hh' : h'.IsHull) (hp' : mkPoly h' inHull' = .ok p') {D D' : ℝ}
    (hD : ∀ q ∈ h'.body, h.Within (P3.toV q) D) (hD' : ∀ q ∈ h.body, h'.Within (P3.toV q) D') {g g' : V3 ℝ → V3 ℝ} {T T' : V3 ℝ → M3 ℝ}
    (hv : ∀ q ∈ h'.body, Call.onNew p ⟨P3.toV q, ρ, Gc, gr⟩ = .ok (g (P3.toV q), T (P3.toV q)))
    (hv' : ∀ q ∈ h.body, Call.onNew p' ⟨P3.toV q, ρ', Gc, gr'⟩ = .ok (g' (P3.toV q), T' (P3.toV q))) (d : V3 ℝ) :
    |ρ' * (∫ q in h'.body, rdot (g (P3.toV q)) d) + ρ * ∫ q in h.body, rdot (g' (P3.toV q)) d| ≤
      vlen d * (|ρ'| * volume.real h'.body * (|100000 * Gc * ρ| * h.simplices.length * (2 * Real.pi * repsilon + 3 * tubeError D)) +
        |ρ| * volume.real h.body * (|100000 * Gc * ρ'| * h'.simplices.length * (2 * Real.pi * repsilon + 3 * tubeError D'))) := by
  have h1 := answers_integral hh hp h'.body_decent hD hv d
  have h2 := answers_integral hh' hp' h.body_decent hD' hv' d
  have h3 := attraction_reaction h'.body_decent h.body_decent d
  set I := ∫ q in h'.body, rdot (g (P3.toV q)) d
  set I' := ∫ q in h.body, rdot (g' (P3.toV q)) d
  rw [h3] at h1
  set J := ∫ q in h.body, rdot (attraction h'.body (P3.toV q)) d
  have e : ρ' * I + ρ * I' = ρ' * (I - 100000 * Gc * ρ * -J) + ρ * (I' - 100000 * Gc * ρ' * J) := by ring
  rw [e]
  calc _ ≤ |ρ' * (I - 100000 * Gc * ρ * -J)| + |ρ * (I' - 100000 * Gc * ρ' * J)| := abs_add_le _ _
    _ = |ρ'| * |I - 100000 * Gc * ρ * -J| + |ρ| * |I' - 100000 * Gc * ρ' * J| := by rw [abs_mul, abs_mul]
    _ ≤ |ρ'| * (answerError h ρ Gc D * vlen d * volume.real h'.body) + |ρ| * (answerError h' ρ' Gc D' * vlen d * volume.real h.body) :=
        add_le_add (mul_le_mul_of_nonneg_left h1 (abs_nonneg _)) (mul_le_mul_of_nonneg_left h2 (abs_nonneg _))
    _ = _ := by unfold answerError; ring

/-- **C114**, the mean over a ball, for all stations that are farther than `eps` from the corners. -/
theorem C114_mean_error (hh : h.IsHull) (hp : mkPoly h inHull = .ok p) {s : V3 ℝ} {r D : ℝ} (hr : 0 < r) (hout : ∀ q ∈ h.body, r ≤ dist3 q s)
    (hD : ∀ q, dist3 q s ≤ r → h.Within (P3.toV q) D) {g : V3 ℝ → V3 ℝ} {T : V3 ℝ → M3 ℝ}
    (hv : ∀ q, dist3 q s ≤ r → Call.onNew p ⟨P3.toV q, ρ, Gc, gr⟩ = .ok (g (P3.toV q), T (P3.toV q))) (hs : h.Ordinary s D) (d : V3 ℝ) :
    |(∫ q in {q | dist3 q s ≤ r}, rdot (g (P3.toV q)) d) / (4 / 3 * Real.pi * r ^ 3) - rdot (g s) d| ≤
      2 * vlen d * (|100000 * Gc * ρ| * h.simplices.length * (2 * Real.pi * repsilon + 3 * tubeError D)) := by
  have h1 := answers_integral hh hp (B := eball s r) (eball_decent s r) hD hv d
  have hmean := attraction_mean h.body_decent s d hr fun q hq => by rw [rad_toV, ← dist3_eq_rad]; exact hout q hq
  have hself : dist3 s.toP s ≤ r := by simp [dist3, V3.toP, hr.le]
  have h0 := hv _ hself
  rw [toP_toV] at h0
  have h2 := C72_error hh hp hs h0
  have h3 := abs_rdot_le ((g s).sub (V3.smul (100000 * Gc * ρ) (attraction h.body s))) d
  have e3 : rdot ((g s).sub (V3.smul (100000 * Gc * ρ) (attraction h.body s))) d = rdot (g s) d - 100000 * Gc * ρ * rdot (attraction h.body s) d := by
    simp only [rdot, sub_x, sub_y, sub_z, smul_x, smul_y, smul_z]; ring
  rw [e3] at h3
  have h4 := h3.trans (mul_le_mul_of_nonneg_right h2 (vlen_nonneg d))
  have hV : volume.real (eball s r) = 4 / 3 * Real.pi * r ^ 3 := eball_volume hr.le s
  have hpos : (0 : ℝ) < 4 / 3 * Real.pi * r ^ 3 := by have := Real.pi_pos; positivity
  rw [hmean, hV] at h1
  set I := ∫ q in eball s r, rdot (g (P3.toV q)) d
  change |I / _ - _| ≤ _
  set V := 4 / 3 * Real.pi * r ^ 3
  set a := rdot (attraction h.body s) d
  have h5 : |I / V - 100000 * Gc * ρ * a| ≤ answerError h ρ Gc D * vlen d := by
    have : I / V - 100000 * Gc * ρ * a = (I - 100000 * Gc * ρ * (V * a)) / V := by field_simp
    rw [this, abs_div, abs_of_pos hpos, div_le_iff₀ hpos]
    exact h1
  have h6 : I / V - rdot (g s) d = (I / V - 100000 * Gc * ρ * a) - (rdot (g s) d - 100000 * Gc * ρ * a) := by ring
  rw [h6]
  calc _ ≤ |I / V - 100000 * Gc * ρ * a| + |rdot (g s) d - 100000 * Gc * ρ * a| := abs_sub _ _
    _ ≤ answerError h ρ Gc D * vlen d + answerError h ρ Gc D * vlen d := add_le_add h5 h4
    _ = _ := by unfold answerError; ring

/-! ### The hypotheses can be met: the tetrahedron inside a larger one -/

theorem within_of_bounds {h : Hull ℝ} {s : V3 ℝ} (hb : ∀ t ∈ h.simplices, ∀ i, Corner t i → 1 / 4 ≤ rdot ((h.pt i).sub s) ((h.pt i).sub s) ∧
    rdot ((h.pt i).sub s) ((h.pt i).sub s) ≤ 100 ∧ ∀ j, Corner t j → rdot ((h.pt j).sub (h.pt i)) ((h.pt j).sub (h.pt i)) ≤ 4) : h.Within s 12 := by
  intro t ht i hi
  obtain ⟨h1, h2, h3⟩ := hb t ht i hi
  rw [← vlen_sq] at h1 h2
  have h0 := vlen_nonneg ((h.pt i).sub s)
  constructor
  · have : repsilon < 1 / 2 := by unfold repsilon; norm_num
    nlinarith
  · intro j hj
    have h4 := h3 j hj
    rw [← vlen_sq] at h4
    have h5 := vlen_nonneg ((h.pt j).sub (h.pt i))
    have h6 : vlen ((h.pt i).sub s) ≤ 10 := by nlinarith
    have h7 : vlen ((h.pt j).sub (h.pt i)) ≤ 2 := by nlinarith
    linarith

theorem tetra_within {s : V3 ℝ} (h1 : ∀ i < 4, 1 / 4 ≤ rdot ((tetra.pt i).sub s) ((tetra.pt i).sub s)) (h2 : ∀ i < 4, rdot ((tetra.pt i).sub s) ((tetra.pt i).sub s) ≤ 100) :
    tetra.Within s 12 := by
  refine within_of_bounds fun t ht i hi => ?_
  have hi4 : i < 4 := tetra_isHull.cornerIndex t ht i hi
  refine ⟨h1 i hi4, h2 i hi4, fun j hj => ?_⟩
  have hj4 : j < 4 := tetra_isHull.cornerIndex t ht j hj
  interval_cases i <;> interval_cases j <;> norm_num [tetra_pt0, tetra_pt1, tetra_pt2, tetra_pt3, rdot]

/-- the tetrahedron five times as large, moved by (-1, -1, -1) -/
def tetraBig : Hull ℝ := tetra.affine (similarLin 1 ⟨⟨5, 0, 0⟩, ⟨0, 5, 0⟩, ⟨0, 0, 5⟩⟩) (-1, -1, -1)

theorem tetraBig_isHull : tetraBig.IsHull := by
  apply affine_rows tetra_isHull _ ⟨⟨1 / 5, 0, 0⟩, ⟨0, 1 / 5, 0⟩, ⟨0, 0, 1 / 5⟩⟩
  all_goals intro a; refine V3.ext' ?_ ?_ ?_ <;> simp [M3.apply, rdot]

theorem tetraBig_body : tetraBig.body = {q : P3 | -1 ≤ q.1 ∧ -1 ≤ q.2.1 ∧ -1 ≤ q.2.2 ∧ q.1 + q.2.1 + q.2.2 ≤ 2} := by
  unfold tetraBig
  rw [affine_body, tetra_body]
  ext ⟨x, y, z⟩
  simp only [Set.mem_image, Set.mem_ofPred_eq, similarLin, rowForm_apply, rdot, P3.toV, ContinuousLinearMap.prod_apply, smul_apply, smul_eq_mul,
    Prod.mk_add_mk, Prod.mk.injEq, Prod.exists]
  constructor
  · rintro ⟨a, b, c, ⟨h1, h2, h3, h4⟩, rfl, rfl, rfl⟩
    refine ⟨?_, ?_, ?_, ?_⟩ <;> linarith
  · rintro ⟨h1, h2, h3, h4⟩
    exact ⟨(x + 1) / 5, (y + 1) / 5, (z + 1) / 5, ⟨by linarith, by linarith, by linarith, by linarith⟩, by ring, by ring, by ring⟩

theorem far_enough {a b c : ℝ} (h : 1 ≤ a ∨ 1 ≤ b ∨ 1 ≤ c ∨ a + b + c ≤ -1) : 1 / 4 ≤ a * a + b * b + c * c := by
  rcases h with h | h | h | h
  · nlinarith [sq_nonneg b, sq_nonneg c]
  · nlinarith [sq_nonneg a, sq_nonneg c]
  · nlinarith [sq_nonneg a, sq_nonneg b]
  · nlinarith [sq_nonneg (a - b), sq_nonneg (a - c), sq_nonneg (b - c)]

theorem tetraBig_frontier {q : P3} (hq : q ∈ frontier tetraBig.body) : tetra.Within (P3.toV q) 12 := by
  have hc : q ∈ tetraBig.body := tetraBig.body_compact.isClosed.frontier_subset hq
  have hni : q ∉ interior tetraBig.body := hq.2
  rw [tetraBig_body] at hc hni
  obtain ⟨h1, h2, h3, h4⟩ := hc
  have hor : q.1 = -1 ∨ q.2.1 = -1 ∨ q.2.2 = -1 ∨ q.1 + q.2.1 + q.2.2 = 2 := by
    by_contra hne
    push Not at hne
    obtain ⟨n1, n2, n3, n4⟩ := hne
    apply hni
    have ho : IsOpen {q : P3 | -1 < q.1 ∧ -1 < q.2.1 ∧ -1 < q.2.2 ∧ q.1 + q.2.1 + q.2.2 < 2} := by
      have c1 : Continuous fun q : P3 => q.1 := by fun_prop
      have c2 : Continuous fun q : P3 => q.2.1 := by fun_prop
      have c3 : Continuous fun q : P3 => q.2.2 := by fun_prop
      exact (isOpen_lt continuous_const c1).inter ((isOpen_lt continuous_const c2).inter ((isOpen_lt continuous_const c3).inter
        (isOpen_lt ((c1.add c2).add c3) continuous_const)))
    exact mem_interior.mpr ⟨_, fun x hx => ⟨hx.1.le, hx.2.1.le, hx.2.2.1.le, hx.2.2.2.le⟩, ho,
      ⟨lt_of_le_of_ne h1 n1.symm, lt_of_le_of_ne h2 n2.symm, lt_of_le_of_ne h3 n3.symm, lt_of_le_of_ne h4 n4⟩⟩
  apply tetra_within
  · intro i hi
    interval_cases i <;> simp only [tetra_pt0, tetra_pt1, tetra_pt2, tetra_pt3, rdot, sub_x, sub_y, sub_z, P3.toV] <;>
      apply far_enough <;> rcases hor with e | e | e | e <;> first | (left; linarith) | (right; left; linarith) | (right; right; left; linarith) | (right; right; right; linarith)
  · intro i hi
    have u1 : q.1 ≤ 4 := by linarith
    have u2 : q.2.1 ≤ 4 := by linarith
    have u3 : q.2.2 ≤ 4 := by linarith
    interval_cases i <;> simp only [tetra_pt0, tetra_pt1, tetra_pt2, tetra_pt3, rdot, sub_x, sub_y, sub_z, P3.toV] <;>
      nlinarith

/-- any set of stations away from the corners has answers -/
theorem answers_exist {h : Hull ℝ} (hh : h.IsHull) {inHull : V3 ℝ → Bool} {p : Poly ℝ} (hp : mkPoly h inHull = .ok p) (ρ Gc D : ℝ) {B : Set P3}
    (hD : ∀ q ∈ B, h.Within (P3.toV q) D) : ∃ (g : V3 ℝ → V3 ℝ) (T : V3 ℝ → M3 ℝ), ∀ q ∈ B, Call.onNew p ⟨P3.toV q, ρ, Gc, false⟩ = .ok (g (P3.toV q), T (P3.toV q)) := by
  have h1 : ∀ s : V3 ℝ, ∃ r : V3 ℝ × M3 ℝ, s.toP ∈ B → Call.onNew p ⟨s, ρ, Gc, false⟩ = .ok r := fun s => by
    by_cases hs : s.toP ∈ B
    · have hw := hD _ hs
      rw [toP_toV] at hw
      obtain ⟨G, T, hv⟩ := C22_total hh hp (obs := s) (fun t ht i hi he => by
        have := (hw t ht i hi).1
        rw [he, show s.sub s = V3.zeros by refine V3.ext' ?_ ?_ ?_ <;> simp [V3.zeros]] at this
        have h0 : vlen (V3.zeros : V3 ℝ) = 0 := by simp [vlen, rdot, V3.zeros]
        rw [h0] at this
        exact absurd this (not_lt.mpr repsilon_pos.le)) ρ Gc
      exact ⟨_, fun _ => hv⟩
    · exact ⟨(V3.zeros, M3.zeros), fun h => absurd h hs⟩
  choose r hr using h1
  exact ⟨fun s => (r s).1, fun s => (r s).2, fun q hq => hr _ (by rwa [toV_toP])⟩

/-- the tetrahedron is weighed by the answers on the faces of the larger one, whose planes are parallel to its own -/
example : ∃ (p' : Poly ℝ) (g : V3 ℝ → V3 ℝ) (T : V3 ℝ → M3 ℝ), mkPoly tetraBig (fun _ => true) = .ok p' ∧
    (∀ q ∈ frontier tetraBig.body, Call.onNew tetraP ⟨P3.toV q, 2, 1, false⟩ = .ok (g (P3.toV q), T (P3.toV q))) ∧
    |∑ k : Fin p'.faces.length, surfaceIntegral (p'.faces[k]).pa (p'.faces[k]).pb (p'.faces[k]).pc (fun x => rdot (g x) (p'.faces[k]).un) +
        4 * Real.pi * (100000 * 1) * (2 * volume.real tetra.body)| ≤
      |100000 * 1 * 2| * tetra.simplices.length * (2 * Real.pi * repsilon + 3 * tubeError 12) *
        ∑ k : Fin p'.faces.length, surfaceIntegral (p'.faces[k]).pa (p'.faces[k]).pb (p'.faces[k]).pc (fun _ => 1) := by
  obtain ⟨p', hp'⟩ := hull_mkPoly_ok tetraBig_isHull (fun _ => true)
  obtain ⟨g, T, hv⟩ := answers_exist tetra_isHull tetraP_built 2 1 12 (B := frontier tetraBig.body) fun q hq => tetraBig_frontier hq
  refine ⟨p', g, T, hp', hv, C115_mass tetra_isHull tetraP_built tetraBig_isHull hp' ?_ (fun q hq => tetraBig_frontier hq) hv⟩
  rw [tetra_body, tetraBig_body]
  rintro q ⟨h1, h2, h3, h4⟩
  exact ⟨by linarith, by linarith, by linarith, by linarith⟩

theorem tetraFar_within {q : P3} (hq : q ∈ tetraFar.body) : tetra.Within (P3.toV q) 12 := by
  rw [tetraFar_body] at hq
  obtain ⟨h1, h2, h3, h4⟩ := hq
  apply tetra_within <;> intro i hi <;>
    interval_cases i <;> simp only [tetra_pt0, tetra_pt1, tetra_pt2, tetra_pt3, rdot, sub_x, sub_y, sub_z, P3.toV] <;> nlinarith

/-- no mass of the tetrahedron in its copy -/
example : ∃ (p' : Poly ℝ) (g : V3 ℝ → V3 ℝ), mkPoly tetraFar (fun _ => true) = .ok p' ∧
    |∑ k : Fin p'.faces.length, surfaceIntegral (p'.faces[k]).pa (p'.faces[k]).pb (p'.faces[k]).pc (fun x => rdot (g x) (p'.faces[k]).un)| ≤
      |100000 * 1 * 2| * tetra.simplices.length * (2 * Real.pi * repsilon + 3 * tubeError 12) *
        ∑ k : Fin p'.faces.length, surfaceIntegral (p'.faces[k]).pa (p'.faces[k]).pb (p'.faces[k]).pc (fun _ => 1) := by
  obtain ⟨p', hp'⟩ := hull_mkPoly_ok tetraFar_isHull (fun _ => true)
  have hw : ∀ q ∈ frontier tetraFar.body, tetra.Within (P3.toV q) 12 := fun q hq => tetraFar_within (tetraFar.body_compact.isClosed.frontier_subset hq)
  obtain ⟨g, T, hv⟩ := answers_exist tetra_isHull tetraP_built 2 1 12 (B := frontier tetraFar.body) hw
  refine ⟨p', g, hp', C115_empty tetra_isHull tetraP_built tetraFar_isHull hp' ?_ hw hv⟩
  rw [Set.disjoint_left, tetra_body, tetraFar_body]
  rintro q ⟨h1, h2, h3, h4⟩ ⟨h5, h6, h7, h8⟩
  linarith

/-- a station that is clear of the edges is not on the surfaces where the code switches -/
theorem ordinary_of_clear {h : Hull ℝ} {s : V3 ℝ} {D : ℝ} (hw : h.Within s D)
    (hc : ∀ t ∈ h.simplices, ∀ i j, Corner t i → Corner t j → i ≠ j → cross ((h.pt i).sub s) ((h.pt j).sub (h.pt i)) ≠ V3.zeros ∧ ClearOf (h.pt i) (h.pt j) s) :
    h.Ordinary s D := by
  intro t ht i j hi hj hne
  obtain ⟨h0, h1 | ⟨c, -, h1, -⟩ | ⟨c, -, h1, -⟩⟩ := hc t ht i j hi hj hne
  · exact ⟨(hw t ht i hi).1, (hw t ht i hi).2 j hj, h1.2.ne'⟩
  · rw [h1] at h0
    refine absurd (V3.ext' ?_ ?_ ?_) h0 <;> simp only [cross_x, cross_y, cross_z, smul_x, smul_y, smul_z, V3.zeros, r_zero] <;> ring
  · have e : (h.pt i).sub s = V3.smul (-1 - c) ((h.pt j).sub (h.pt i)) := by
      have hx := congrArg V3.x h1
      have hy := congrArg V3.y h1
      have hz := congrArg V3.z h1
      simp only [sub_x, sub_y, sub_z, smul_x, smul_y, smul_z] at hx hy hz
      refine V3.ext' ?_ ?_ ?_ <;> simp only [sub_x, sub_y, sub_z, smul_x, smul_y, smul_z] <;> linarith
    rw [e] at h0
    refine absurd (V3.ext' ?_ ?_ ?_) h0 <;> simp only [cross_x, cross_y, cross_z, smul_x, smul_y, smul_z, V3.zeros, r_zero] <;> ring

theorem tetra_ball_within {q : P3} (hq : dist3 q ⟨2, 2, 1 / 2⟩ ≤ 1) : tetra.Within (P3.toV q) 12 := by
  have h1 : (q.1 - 2) ^ 2 + (q.2.1 - 2) ^ 2 + (q.2.2 - 1 / 2) ^ 2 ≤ 1 := by
    unfold dist3 at hq
    rw [Real.sqrt_le_left (by norm_num)] at hq
    simpa using hq
  have a1 := abs_le.mp (abs_le_of_sq_le_sq (show (q.1 - 2) ^ 2 ≤ 1 ^ 2 by nlinarith [sq_nonneg (q.2.1 - 2), sq_nonneg (q.2.2 - 1 / 2)]) (by norm_num))
  have a2 := abs_le.mp (abs_le_of_sq_le_sq (show (q.2.1 - 2) ^ 2 ≤ 1 ^ 2 by nlinarith [sq_nonneg (q.1 - 2), sq_nonneg (q.2.2 - 1 / 2)]) (by norm_num))
  have a3 := abs_le.mp (abs_le_of_sq_le_sq (show (q.2.2 - 1 / 2) ^ 2 ≤ 1 ^ 2 by nlinarith [sq_nonneg (q.1 - 2), sq_nonneg (q.2.1 - 2)]) (by norm_num))
  apply tetra_within <;> intro i hi <;>
    interval_cases i <;> simp only [tetra_pt0, tetra_pt1, tetra_pt2, tetra_pt3, rdot, sub_x, sub_y, sub_z, P3.toV] <;> nlinarith

/-- the mean over the ball of radius 1 around (2, 2, 1/2), which the plane z = 0 of a face cuts -/
example : ∃ (g : V3 ℝ → V3 ℝ) (T : V3 ℝ → M3 ℝ), (∀ q, dist3 q ⟨2, 2, 1 / 2⟩ ≤ 1 → Call.onNew tetraP ⟨P3.toV q, 2, 1, false⟩ = .ok (g (P3.toV q), T (P3.toV q))) ∧
    ∀ d : V3 ℝ, |(∫ q in {q | dist3 q ⟨2, 2, 1 / 2⟩ ≤ 1}, rdot (g (P3.toV q)) d) / (4 / 3 * Real.pi * 1 ^ 3) - rdot (g ⟨2, 2, 1 / 2⟩) d| ≤
      2 * vlen d * (|100000 * 1 * 2| * tetra.simplices.length * (2 * Real.pi * repsilon + 3 * tubeError 12)) := by
  obtain ⟨g, T, hv⟩ := answers_exist tetra_isHull tetraP_built 2 1 12 (B := {q | dist3 q ⟨2, 2, 1 / 2⟩ ≤ 1}) fun q hq => tetra_ball_within hq
  refine ⟨g, T, hv, C114_mean_error tetra_isHull tetraP_built one_pos ?_ (fun q hq => tetra_ball_within hq) hv ?_⟩
  · rw [tetra_body]
    rintro q ⟨h1, h2, h3, h4⟩
    unfold dist3
    rw [Real.one_le_sqrt]
    simp only
    nlinarith
  · have hw : tetra.Within ⟨2, 2, 1 / 2⟩ 12 := by
      have := tetra_ball_within (q := (2, 2, 1 / 2)) (by simp [dist3])
      simpa [P3.toV] using this
    refine ordinary_of_clear hw fun t ht i j hi hj hne => ?_
    have hi4 : i < 4 := tetra_isHull.cornerIndex t ht i hi
    have hj4 : j < 4 := tetra_isHull.cornerIndex t ht j hj
    have h3 : 1 / 1000 ≤ rdot (cross ((tetra.pt i).sub ⟨2, 2, 1 / 2⟩) ((tetra.pt j).sub (tetra.pt i))) (cross ((tetra.pt i).sub ⟨2, 2, 1 / 2⟩) ((tetra.pt j).sub (tetra.pt i))) := by
      interval_cases i <;> interval_cases j <;> first | exact absurd rfl hne | norm_num [tetra_pt0, tetra_pt1, tetra_pt2, tetra_pt3, rdot, cross_x, cross_y, cross_z]
    refine ⟨fun h0 => ?_, clearOf_bounds ?_ ?_ h3⟩
    · rw [h0, rdot_zeros] at h3
      norm_num at h3
    · interval_cases i <;> norm_num [tetra_pt0, tetra_pt1, tetra_pt2, tetra_pt3, rdot]
    · interval_cases i <;> interval_cases j <;> norm_num [tetra_pt0, tetra_pt1, tetra_pt2, tetra_pt3, rdot]

theorem far_within {q : P3} (hq : q ∈ tetra.body) : tetraFar.Within (P3.toV q) 12 := by
  rw [tetra_body] at hq
  obtain ⟨h1, h2, h3, h4⟩ := hq
  have hpt : ∀ i < 4, tetraFar.pt i = (tetra.pt i).add ⟨2, 2, 2⟩ := by
    intro i hi
    unfold tetraFar
    rw [rigid_pt hi]
    unfold rigid
    rw [one_apply]
  refine within_of_bounds fun t ht i hi => ?_
  have hi4 : i < 4 := tetra_isHull.cornerIndex t ht i hi
  refine ⟨?_, ?_, fun j hj => ?_⟩
  · rw [hpt i hi4]
    interval_cases i <;> simp only [tetra_pt0, tetra_pt1, tetra_pt2, tetra_pt3, rdot, sub_x, sub_y, sub_z, add_x, add_y, add_z, P3.toV] <;> nlinarith
  · rw [hpt i hi4]
    interval_cases i <;> simp only [tetra_pt0, tetra_pt1, tetra_pt2, tetra_pt3, rdot, sub_x, sub_y, sub_z, add_x, add_y, add_z, P3.toV] <;> nlinarith
  · have hj4 : j < 4 := tetra_isHull.cornerIndex t ht j hj
    rw [hpt i hi4, hpt j hj4]
    interval_cases i <;> interval_cases j <;> norm_num [tetra_pt0, tetra_pt1, tetra_pt2, tetra_pt3, rdot]

/-- the forces between the tetrahedron and its copy -/
example : ∃ (p' : Poly ℝ) (g g' : V3 ℝ → V3 ℝ), mkPoly tetraFar (fun _ => true) = .ok p' ∧ ∀ d : V3 ℝ,
    |5 * (∫ q in tetraFar.body, rdot (g (P3.toV q)) d) + 2 * ∫ q in tetra.body, rdot (g' (P3.toV q)) d| ≤
      vlen d * (|5| * volume.real tetraFar.body * (|100000 * 1 * 2| * tetra.simplices.length * (2 * Real.pi * repsilon + 3 * tubeError 12)) +
        |2| * volume.real tetra.body * (|100000 * 1 * 5| * tetraFar.simplices.length * (2 * Real.pi * repsilon + 3 * tubeError 12))) := by
  obtain ⟨p', hp'⟩ := hull_mkPoly_ok tetraFar_isHull (fun _ => true)
  obtain ⟨g, T, hv⟩ := answers_exist tetra_isHull tetraP_built 2 1 12 (B := tetraFar.body) fun q hq => tetraFar_within hq
  obtain ⟨g', T', hv'⟩ := answers_exist tetraFar_isHull hp' 5 1 12 (B := tetra.body) fun q hq => far_within hq
  exact ⟨p', g, g', hp', C114_force_error tetra_isHull tetraP_built tetraFar_isHull hp' (fun q hq => tetraFar_within hq) (fun q hq => far_within hq) hv hv'⟩

end
end Geec
