import Verif.Lemmas.HullSurface
import Verif.Props.Station
import Verif.Props.Failure
import Verif.Spec.Motion
import Verif.Spec.Examples
import Mathlib.Analysis.Convex.Measure
/-
C16: Newton's law, and what follows from it for the field of convex bodies (exact arithmetic).
-/
namespace Geec
open Arith MeasureTheory
noncomputable section

theorem kernelAt_x (s : V3 ℝ) : kernelAt s ⟨1, 0, 0⟩ = fun q => (q.1 - s.x) / dist3 q s ^ 3 := by
  funext q; simp only [kernelAt, rdot, vlen, dist3, P3.toV, sub_x, sub_y, sub_z, mul_one, mul_zero, add_zero, ← pow_two]
theorem kernelAt_y (s : V3 ℝ) : kernelAt s ⟨0, 1, 0⟩ = fun q => (q.2.1 - s.y) / dist3 q s ^ 3 := by
  funext q; simp only [kernelAt, rdot, vlen, dist3, P3.toV, sub_x, sub_y, sub_z, mul_one, mul_zero, add_zero, zero_add, ← pow_two]
theorem kernelAt_z (s : V3 ℝ) : kernelAt s ⟨0, 0, 1⟩ = fun q => (q.2.2 - s.z) / dist3 q s ^ 3 := by
  funext q; simp only [kernelAt, rdot, vlen, dist3, P3.toV, sub_x, sub_y, sub_z, mul_one, mul_zero, zero_add, ← pow_two]

/-- **C16** Newton's law: whatever `get_gravity` returns as `G` at a regular station, outside, inside or on the surface
of the body, is `1e5 Gc ρ` times the attraction of the body, and the integrals that define the attraction converge. -/
theorem C16_newton {h : Hull ℝ} (hh : h.IsHull) {inHull : V3 ℝ → Bool} {p : Poly ℝ} (hp : mkPoly h inHull = .ok p)
    {s : V3 ℝ} (hs : h.Regular s) {ρ Gc : ℝ} {gr : Bool} {G : V3 ℝ} {T : M3 ℝ} (hv : Call.onNew p ⟨s, ρ, Gc, gr⟩ = .ok (G, T)) :
    G = V3.smul (100000 * Gc * ρ) (attraction h.body s) ∧
    IntegrableOn (fun q => (q.1 - s.x) / dist3 q s ^ 3) h.body ∧ IntegrableOn (fun q => (q.2.1 - s.y) / dist3 q s ^ 3) h.body ∧
    IntegrableOn (fun q => (q.2.2 - s.z) / dist3 q s ^ 3) h.body := by
  obtain ⟨ix, hx⟩ := newton_direction hh hp hs hv ⟨1, 0, 0⟩
  obtain ⟨iy, hy⟩ := newton_direction hh hp hs hv ⟨0, 1, 0⟩
  obtain ⟨iz, hz⟩ := newton_direction hh hp hs hv ⟨0, 0, 1⟩
  rw [kernelAt_x] at ix hx
  rw [kernelAt_y] at iy hy
  rw [kernelAt_z] at iz hz
  refine ⟨V3.ext' ?_ ?_ ?_, ix, iy, iz⟩
  · simp only [rdot, mul_one, mul_zero, add_zero] at hx
    exact hx
  · simp only [rdot, mul_one, mul_zero, add_zero, zero_add] at hy
    exact hy
  · simp only [rdot, mul_one, mul_zero, zero_add] at hz
    exact hz

/-- **C16**, with the answer: without gradient every regular station that is not a corner gets Newton's value. -/
theorem C16_newton_returned {h : Hull ℝ} (hh : h.IsHull) {inHull : V3 ℝ → Bool} {p : Poly ℝ} (hp : mkPoly h inHull = .ok p)
    {s : V3 ℝ} (hs : h.Regular s) (hc : ∀ t ∈ h.simplices, ∀ i, Corner t i → h.pt i ≠ s) (ρ Gc : ℝ) :
    ∃ T, Call.onNew p ⟨s, ρ, Gc, false⟩ = .ok (V3.smul (100000 * Gc * ρ) (attraction h.body s), T) := by
  obtain ⟨G, T, hv⟩ := C22_total hh hp hc ρ Gc
  exact ⟨T, by rw [hv, (C16_newton hh hp hs hv).1]⟩

/-! ### C17 -/

/-- **C17** A body on one side of a plane through the station attracts the station towards that side. -/
theorem C17_towards {h : Hull ℝ} (hh : h.IsHull) {inHull : V3 ℝ → Bool} {p : Poly ℝ} (hp : mkPoly h inHull = .ok p)
    {s : V3 ℝ} (hs : h.Regular s) {ρ Gc : ℝ} (hρ : 0 < ρ) (hG : 0 < Gc) {gr : Bool} {G : V3 ℝ} {T : M3 ℝ}
    (hv : Call.onNew p ⟨s, ρ, Gc, gr⟩ = .ok (G, T)) {n : V3 ℝ} (hn : n ≠ V3.zeros)
    (hsep : ∀ q ∈ h.body, rdot n s ≤ rdot n (P3.toV q)) : 0 < rdot n G := by
  obtain ⟨hi, hx⟩ := newton_direction hh hp hs hv n
  rw [rdot_comm]
  show 0 < rdot (G, T).1 n
  rw [hx]
  apply mul_pos (by positivity)
  have hm : MeasurableSet h.body := h.body_compact.isClosed.measurableSet
  rw [setIntegral_pos_iff_support_of_nonneg_ae _ hi]
  · -- the kernel does not vanish in the interior, apart from the plane through the station
    have hpos : 0 < volume (interior h.body) := isOpen_interior.measure_pos volume hh.solid
    have hsub : (interior h.body ∩ {q | rdot n (P3.toV q) ≠ rdot n s} : Set P3) ⊆ Function.support (kernelAt s n) ∩ h.body := by
      rintro q ⟨hq, hne⟩
      refine ⟨?_, interior_subset hq⟩
      rw [Function.mem_support]
      unfold kernelAt
      have h0 : rdot ((P3.toV q).sub s) n ≠ 0 := by
        rw [rdot_comm, rdot_sub]; exact sub_ne_zero.mpr hne
      apply div_ne_zero h0
      apply pow_ne_zero
      apply (vlen_pos _).ne'
      intro hz
      rw [hz, rdot_comm, rdot_zeros] at h0
      exact h0 rfl
    refine lt_of_lt_of_le ?_ (measure_mono hsub)
    have hnull : volume ({q | rdot n (P3.toV q) ≠ rdot n s}ᶜ : Set P3) = 0 := plane_null hn (rdot n s)
    rw [← measure_inter_add_sdiff₀ (interior h.body) (t := {q | rdot n (P3.toV q) ≠ rdot n s})
      (NullMeasurableSet.compl_iff.mp (NullMeasurableSet.of_null hnull))] at hpos
    have : volume (interior h.body \ {q | rdot n (P3.toV q) ≠ rdot n s}) = 0 :=
      measure_mono_null (fun q hq => hq.2) hnull
    rwa [this, add_zero] at hpos
  · filter_upwards [ae_restrict_mem hm] with q hq
    unfold kernelAt
    apply div_nonneg
    · rw [rdot_comm, rdot_sub]; linarith [hsep q hq]
    · exact pow_nonneg (vlen_nonneg _) 3

/-! ### C51 -/

theorem abs_rdot_le (a b : V3 ℝ) : |rdot a b| ≤ vlen a * vlen b := by
  have h1 := rdot_self_nonneg (cross a b)
  rw [lagrange, rdot_comm b a] at h1
  apply abs_le_of_sq_le_sq
  · have := vlen_sq a
    have := vlen_sq b
    nlinarith
  · exact mul_nonneg (vlen_nonneg _) (vlen_nonneg _)

/-- **C51** The field of a body at distance at least `d` from the station is bounded by the field of its mass at
distance `d`. -/
theorem C51_bound {h : Hull ℝ} (hh : h.IsHull) {inHull : V3 ℝ → Bool} {p : Poly ℝ} (hp : mkPoly h inHull = .ok p)
    {s : V3 ℝ} (hs : h.Regular s) {ρ Gc : ℝ} (hρ : 0 ≤ ρ) (hG : 0 ≤ Gc) {gr : Bool} {G : V3 ℝ} {T : M3 ℝ}
    (hv : Call.onNew p ⟨s, ρ, Gc, gr⟩ = .ok (G, T)) {d : ℝ} (hd : 0 < d) (hdist : ∀ q ∈ h.body, d ≤ dist3 q s) :
    vlen G ≤ 100000 * Gc * ρ * (volume h.body).toReal / d ^ 2 := by
  obtain ⟨hi, hx⟩ := newton_direction hh hp hs hv G
  have hm : MeasurableSet h.body := h.body_compact.isClosed.measurableSet
  have hfin : volume h.body ≠ ⊤ := h.body_compact.measure_ne_top
  have hK : 0 ≤ 100000 * Gc * ρ := by positivity
  have hbound : ∫ q in h.body, kernelAt s G q ≤ ∫ q in h.body, vlen G / d ^ 2 := by
    apply setIntegral_mono_on hi (integrableOn_const hfin) hm
    intro q hq
    have h1 : d ≤ vlen ((P3.toV q).sub s) := by
      have := hdist q hq
      unfold dist3 at this
      unfold vlen
      simpa only [rdot, P3.toV, sub_x, sub_y, sub_z, ← pow_two] using this
    set r := vlen ((P3.toV q).sub s)
    have hr : 0 < r := by linarith
    have hcs : rdot ((P3.toV q).sub s) G ≤ r * vlen G := (le_abs_self _).trans (abs_rdot_le _ _)
    unfold kernelAt
    calc rdot ((P3.toV q).sub s) G / r ^ 3 ≤ r * vlen G / r ^ 3 := by gcongr
      _ = vlen G / r ^ 2 := by field_simp
      _ ≤ vlen G / d ^ 2 := by
          have := vlen_nonneg G
          gcongr
  rw [setIntegral_const, smul_eq_mul] at hbound
  have hGG : vlen G * vlen G ≤ 100000 * Gc * ρ * (volume.real h.body * (vlen G / d ^ 2)) := by
    rw [vlen_sq]
    calc rdot G G = _ := hx
      _ ≤ _ := mul_le_mul_of_nonneg_left hbound hK
  rcases eq_or_lt_of_le (vlen_nonneg G) with h0 | h0
  · rw [← h0]; positivity
  · have e : 100000 * Gc * ρ * (volume.real h.body * (vlen G / d ^ 2)) = vlen G * (100000 * Gc * ρ * (volume h.body).toReal / d ^ 2) := by
      rw [measureReal_def]; ring
    rw [e] at hGG
    exact le_of_mul_le_mul_left hGG h0

/-! ### similar bodies: C11, C10, C12, C50, and the same body triangulated in another way -/

/-- the rows of `R` are orthonormal: a rotation or a rotation followed by a reflection -/
structure IsOrthogonal (R : M3 ℝ) : Prop where
  n0 : rdot R.r0 R.r0 = 1
  n1 : rdot R.r1 R.r1 = 1
  n2 : rdot R.r2 R.r2 = 1
  o01 : rdot R.r0 R.r1 = 0
  o02 : rdot R.r0 R.r2 = 0
  o12 : rdot R.r1 R.r2 = 0

/-- the similarity `a ↦ k R a + t` -/
def similar (k : ℝ) (R : M3 ℝ) (t a : V3 ℝ) : V3 ℝ := (V3.smul k (R.apply a)).add t

/-- determinant of an orthogonal matrix -/
theorem IsOrthogonal.det {R : M3 ℝ} (h : IsOrthogonal R) : det3 R.r0 R.r1 R.r2 ^ 2 = 1 := by
  have e : det3 R.r0 R.r1 R.r2 ^ 2 = rdot R.r0 R.r0 * (rdot R.r1 R.r1 * rdot R.r2 R.r2 - rdot R.r1 R.r2 ^ 2) -
      rdot R.r0 R.r1 * (rdot R.r0 R.r1 * rdot R.r2 R.r2 - rdot R.r0 R.r2 * rdot R.r1 R.r2) +
      rdot R.r0 R.r2 * (rdot R.r0 R.r1 * rdot R.r1 R.r2 - rdot R.r1 R.r1 * rdot R.r0 R.r2) := by
    simp [det3, rdot]; ring
  rw [e, h.n0, h.n1, h.n2, h.o01, h.o02, h.o12]; ring

theorem IsOrthogonal.rdot_apply {R : M3 ℝ} (h : IsOrthogonal R) (a : V3 ℝ) : rdot (R.apply a) (R.apply a) = rdot a a := by
  have hd := h.det
  -- the rows span the space
  have hx : V3.smul (det3 R.r0 R.r1 R.r2) a = ((V3.smul (rdot R.r0 a) (cross R.r1 R.r2)).add (V3.smul (rdot R.r1 a) (cross R.r2 R.r0))).add
      (V3.smul (rdot R.r2 a) (cross R.r0 R.r1)) := by
    refine V3.ext' ?_ ?_ ?_ <;> simp [det3, rdot] <;> ring
  have h2 := congrArg (fun w => rdot w w) hx
  rw [smul_rdot, rdot_smul, ← mul_assoc, ← pow_two, hd, one_mul] at h2
  rw [h2]
  have c1 : rdot (cross R.r1 R.r2) (cross R.r1 R.r2) = 1 := by rw [lagrange, h.n1, h.n2, rdot_comm R.r2, h.o12]; ring
  have c2 : rdot (cross R.r2 R.r0) (cross R.r2 R.r0) = 1 := by rw [lagrange, h.n2, h.n0, rdot_comm R.r2, h.o02]; ring
  have c3 : rdot (cross R.r0 R.r1) (cross R.r0 R.r1) = 1 := by rw [lagrange, h.n0, h.n1, rdot_comm R.r1, h.o01]; ring
  have c4 : rdot (cross R.r1 R.r2) (cross R.r2 R.r0) = 0 := by rw [lagrange, h.o12, h.n2, rdot_comm R.r1 R.r0, h.o01, rdot_comm R.r2 R.r0, h.o02]; ring
  have c5 : rdot (cross R.r1 R.r2) (cross R.r0 R.r1) = 0 := by rw [lagrange, rdot_comm R.r1 R.r0, h.o01, rdot_comm R.r2 R.r0, h.o02, rdot_comm R.r2 R.r1, h.o12]; ring
  have c6 : rdot (cross R.r2 R.r0) (cross R.r0 R.r1) = 0 := by rw [lagrange, rdot_comm R.r2 R.r0, h.o02, rdot_comm R.r2 R.r1, h.o12, h.o01]; ring
  simp only [M3.apply]
  generalize rdot R.r0 a = x
  generalize rdot R.r1 a = y
  generalize rdot R.r2 a = z
  generalize cross R.r1 R.r2 = u at *
  generalize cross R.r2 R.r0 = v at *
  generalize cross R.r0 R.r1 = w at *
  have : rdot (((V3.smul x u).add (V3.smul y v)).add (V3.smul z w)) (((V3.smul x u).add (V3.smul y v)).add (V3.smul z w)) =
      x * x * rdot u u + y * y * rdot v v + z * z * rdot w w + 2 * x * y * rdot u v + 2 * x * z * rdot u w + 2 * y * z * rdot v w := by
    simp [rdot]; ring
  rw [this, c1, c2, c3, c4, c5, c6]
  simp [rdot]

/-- the similarity as a map of space -/
def similarMap (k : ℝ) (R : M3 ℝ) (t : V3 ℝ) (q : P3) : P3 := (similar k R t (P3.toV q)).toP

def rowForm (r : V3 ℝ) : P3 →L[ℝ] ℝ :=
  r.x • ContinuousLinearMap.fst ℝ ℝ (ℝ × ℝ) + (r.y • (ContinuousLinearMap.fst ℝ ℝ ℝ).comp (ContinuousLinearMap.snd ℝ ℝ (ℝ × ℝ)) +
    r.z • (ContinuousLinearMap.snd ℝ ℝ ℝ).comp (ContinuousLinearMap.snd ℝ ℝ (ℝ × ℝ)))

theorem rowForm_apply (r : V3 ℝ) (q : P3) : rowForm r q = rdot r (P3.toV q) := by
  simp [rowForm, rdot, P3.toV]; ring

def similarLin (k : ℝ) (R : M3 ℝ) : P3 →L[ℝ] P3 :=
  (k • rowForm R.r0).prod ((k • rowForm R.r1).prod (k • rowForm R.r2))

theorem similarMap_eq (k : ℝ) (R : M3 ℝ) (t : V3 ℝ) (q : P3) : similarMap k R t q = similarLin k R q + t.toP := by
  simp [similarMap, similar, similarLin, rowForm_apply, V3.toP, M3.apply]

theorem integral_similar {k : ℝ} (hk : 0 < k) {R : M3 ℝ} (hR : IsOrthogonal R) (t : V3 ℝ) {B : Set P3} (hB : MeasurableSet B) (g : P3 → ℝ) :
    ∫ q in similarMap k R t '' B, g q = k ^ 3 * ∫ q in B, g (similarMap k R t q) := by
  have hder : ∀ q ∈ B, HasFDerivWithinAt (similarMap k R t) (similarLin k R) B q := by
    intro q _
    have : HasFDerivAt (fun q => similarLin k R q + t.toP) (similarLin k R) q := (similarLin k R).hasFDerivAt.add_const _
    exact (this.congr_of_eventuallyEq (Filter.Eventually.of_forall fun q => similarMap_eq k R t q)).hasFDerivWithinAt
  have hdet : (similarLin k R).det = k ^ 3 * det3 R.r0 R.r1 R.r2 := by
    rw [det_prod3]
    simp [similarLin, rowForm_apply, rdot, P3.toV, det3]
    ring
  have habs : |(similarLin k R).det| = k ^ 3 := by
    have : |det3 R.r0 R.r1 R.r2| = 1 := by rw [← sq_eq_sq₀ (abs_nonneg _) zero_le_one, sq_abs, hR.det, one_pow]
    rw [hdet, abs_mul, this, mul_one, abs_of_pos (pow_pos hk 3)]
  have hinj : Set.InjOn (similarMap k R t) B := by
    intro a _ b _ hab
    rw [similarMap_eq, similarMap_eq] at hab
    have h1 : similarLin k R (a - b) = 0 := by rw [map_sub, sub_eq_zero]; exact add_right_cancel hab
    have h2 : rdot (R.apply (P3.toV (a - b))) (R.apply (P3.toV (a - b))) = 0 := by
      have e0 := congrArg Prod.fst h1
      have e1 := congrArg (fun z => z.2.1) h1
      have e2 := congrArg (fun z => z.2.2) h1
      simp only [similarLin, ContinuousLinearMap.prod_apply, smul_apply, rowForm_apply, smul_eq_mul, Prod.fst_zero, Prod.snd_zero] at e0 e1 e2
      simp only [M3.apply, rdot] at *
      have f0 := (mul_eq_zero.mp e0).resolve_left hk.ne'
      have f1 := (mul_eq_zero.mp e1).resolve_left hk.ne'
      have f2 := (mul_eq_zero.mp e2).resolve_left hk.ne'
      rw [f0, f1, f2]; simp
    rw [hR.rdot_apply] at h2
    have h3 : P3.toV (a - b) = V3.zeros := by
      by_contra hne
      exact (rdot_self_pos hne).ne' h2
    have := congrArg V3.toP h3
    rw [toV_toP] at this
    exact sub_eq_zero.mp (this.trans (by simp [V3.toP]))
  rw [integral_image_eq_integral_abs_det_fderiv_smul volume hB hder hinj, habs, integral_smul, smul_eq_mul]

/-- the kernel at similar points -/
theorem kernelAt_similar {k : ℝ} (hk : 0 < k) {R : M3 ℝ} (hR : IsOrthogonal R) (t s e : V3 ℝ) (q : P3) :
    kernelAt (similar k R t s) e (similarMap k R t q) = (1 / k ^ 2) *
      kernelAt s (((V3.smul e.x R.r0).add (V3.smul e.y R.r1)).add (V3.smul e.z R.r2)) q := by
  unfold kernelAt similarMap
  rw [toP_toV]
  have e1 : (similar k R t (P3.toV q)).sub (similar k R t s) = V3.smul k (R.apply ((P3.toV q).sub s)) := by
    refine V3.ext' ?_ ?_ ?_ <;> simp [similar, M3.apply, rdot] <;> ring
  have e2 : vlen (V3.smul k (R.apply ((P3.toV q).sub s))) = k * vlen ((P3.toV q).sub s) := by
    rw [vlen_smul, abs_of_pos hk]; congr 1; unfold vlen; rw [hR.rdot_apply]
  rw [e1, e2]
  have e3 : rdot (V3.smul k (R.apply ((P3.toV q).sub s))) e = k * rdot ((P3.toV q).sub s) (((V3.smul e.x R.r0).add (V3.smul e.y R.r1)).add (V3.smul e.z R.r2)) := by
    simp [M3.apply, rdot]; ring
  rw [e3]
  have := hk.ne'
  by_cases hr : vlen ((P3.toV q).sub s) = 0
  · rw [hr]; simp
  · field_simp

/-- **Similar bodies** give similar fields, whatever the triangulations the hull library returns for them. -/
theorem similar_bodies {h h' : Hull ℝ} (hh : h.IsHull) (hh' : h'.IsHull) {inHull inHull' : V3 ℝ → Bool} {p p' : Poly ℝ}
    (hp : mkPoly h inHull = .ok p) (hp' : mkPoly h' inHull' = .ok p') {k : ℝ} (hk : 0 < k) {R : M3 ℝ} (hR : IsOrthogonal R) (t : V3 ℝ)
    (hbody : h'.body = similarMap k R t '' h.body) {s : V3 ℝ} (hs : h.Regular s) (hs' : h'.Regular (similar k R t s)) {ρ Gc : ℝ} {gr gr' : Bool}
    {G G' : V3 ℝ} {T T' : M3 ℝ} (hv : Call.onNew p ⟨s, ρ, Gc, gr⟩ = .ok (G, T))
    (hv' : Call.onNew p' ⟨similar k R t s, ρ, Gc, gr'⟩ = .ok (G', T')) : G' = V3.smul k (R.apply G) := by
  have key : ∀ e : V3 ℝ, rdot G' e = k * rdot G (((V3.smul e.x R.r0).add (V3.smul e.y R.r1)).add (V3.smul e.z R.r2)) := by
    intro e
    obtain ⟨-, h1⟩ := newton_direction hh hp hs hv (((V3.smul e.x R.r0).add (V3.smul e.y R.r1)).add (V3.smul e.z R.r2))
    obtain ⟨-, h2⟩ := newton_direction hh' hp' hs' hv' e
    simp only at h1 h2
    rw [h1, h2, hbody, integral_similar hk hR t h.body_compact.isClosed.measurableSet]
    simp only [kernelAt_similar hk hR]
    rw [integral_const_mul]
    have := hk.ne'
    field_simp
  have kx := key ⟨1, 0, 0⟩
  have ky := key ⟨0, 1, 0⟩
  have kz := key ⟨0, 0, 1⟩
  simp only [rdot, add_x, add_y, add_z, smul_x, smul_y, smul_z] at kx ky kz
  refine V3.ext' ?_ ?_ ?_ <;> simp only [smul_x, smul_y, smul_z, M3.apply, rdot] <;> linarith

/-- the identity -/
def unitM3 : M3 ℝ := ⟨⟨1, 0, 0⟩, ⟨0, 1, 0⟩, ⟨0, 0, 1⟩⟩

theorem unitM3_orthogonal : IsOrthogonal unitM3 := by constructor <;> simp [unitM3, rdot]

theorem unitM3_apply (a : V3 ℝ) : unitM3.apply a = a := by
  refine V3.ext' ?_ ?_ ?_ <;> simp [unitM3, M3.apply, rdot]

/-- **C11** Scaling body and station by `k` multiplies `G` by `k`. -/
theorem C11_scaling {h h' : Hull ℝ} (hh : h.IsHull) (hh' : h'.IsHull) {inHull inHull' : V3 ℝ → Bool} {p p' : Poly ℝ}
    (hp : mkPoly h inHull = .ok p) (hp' : mkPoly h' inHull' = .ok p') {k : ℝ} (hk : 0 < k)
    (hpts : h'.points = h.points.map (V3.smul k)) {s : V3 ℝ} (hs : h.Regular s) (hs' : h'.Regular (V3.smul k s)) {ρ Gc : ℝ} {gr gr' : Bool}
    {G G' : V3 ℝ} {T T' : M3 ℝ} (hv : Call.onNew p ⟨s, ρ, Gc, gr⟩ = .ok (G, T))
    (hv' : Call.onNew p' ⟨V3.smul k s, ρ, Gc, gr'⟩ = .ok (G', T')) : G' = V3.smul k G := by
  have hap : ∀ a, similar k unitM3 V3.zeros a = V3.smul k a := by
    intro a; unfold similar; rw [unitM3_apply]; refine V3.ext' ?_ ?_ ?_ <;> simp
  have hbody : h'.body = similarMap k unitM3 V3.zeros '' h.body := by
    have hfun : similarMap k unitM3 V3.zeros = (similarLin k unitM3 : P3 →ₗ[ℝ] P3) := by
      funext q; rw [similarMap_eq]; simp [V3.toP]
    rw [hfun]
    unfold Hull.body
    rw [LinearMap.image_convexHull]
    congr 1
    rw [← hfun]
    ext q
    constructor
    · rintro ⟨a, ha, rfl⟩
      rw [hpts, List.mem_map] at ha
      obtain ⟨b, hb, rfl⟩ := ha
      exact ⟨b.toP, ⟨b, hb, rfl⟩, by unfold similarMap; rw [toP_toV, hap]⟩
    · rintro ⟨_, ⟨b, hb, rfl⟩, rfl⟩
      exact ⟨V3.smul k b, by rw [hpts]; exact List.mem_map_of_mem hb, by unfold similarMap; rw [toP_toV, hap]⟩
  have := similar_bodies hh hh' hp hp' hk unitM3_orthogonal V3.zeros hbody hs (by rw [hap]; exact hs') hv (by rw [hap]; exact hv')
  rw [this, unitM3_apply]

/-- **C50** At the centre of a centrally symmetric body the field is zero. -/
theorem C50_centre {h : Hull ℝ} (hh : h.IsHull) {inHull : V3 ℝ → Bool} {p : Poly ℝ} (hp : mkPoly h inHull = .ok p)
    {s : V3 ℝ} (hs : h.Regular s) (hsym : ∀ q ∈ h.body, s.toP + s.toP - q ∈ h.body) {ρ Gc : ℝ} {gr : Bool}
    {G : V3 ℝ} {T : M3 ℝ} (hv : Call.onNew p ⟨s, ρ, Gc, gr⟩ = .ok (G, T)) : G = V3.zeros := by
  let R : M3 ℝ := ⟨⟨-1, 0, 0⟩, ⟨0, -1, 0⟩, ⟨0, 0, -1⟩⟩
  have hR : IsOrthogonal R := by constructor <;> simp [R, rdot]
  have hap : ∀ a : V3 ℝ, similar 1 R (s.add s) a = (s.add s).sub a := by
    intro a; refine V3.ext' ?_ ?_ ?_ <;> simp [similar, R, M3.apply, rdot] <;> ring
  have hmap : ∀ q, similarMap 1 R (s.add s) q = s.toP + s.toP - q := by
    intro q; unfold similarMap; rw [hap]; simp [V3.toP, P3.toV]
    rfl
  have hfix : similar 1 R (s.add s) s = s := by rw [hap]; refine V3.ext' ?_ ?_ ?_ <;> simp
  have hbody : h.body = similarMap 1 R (s.add s) '' h.body := by
    ext q
    constructor
    · intro hq
      exact ⟨_, hsym q hq, by rw [hmap]; abel⟩
    · rintro ⟨q', hq', rfl⟩
      rw [hmap]; exact hsym q' hq'
  have := similar_bodies hh hh hp hp one_pos hR (s.add s) hbody hs (by rw [hfix]; exact hs) hv (by rw [hfix]; exact hv)
  have hx := congrArg V3.x this
  have hy := congrArg V3.y this
  have hz := congrArg V3.z this
  simp [R, M3.apply, rdot] at hx hy hz
  exact V3.ext' (by simp; linarith) (by simp; linarith) (by simp; linarith)

/-! ### C18 -/

/-- the sum of the fields of bodies without common interior points is Newton's integral over their union -/
theorem tiles_integral (H : Nat → Hull ℝ) {s e : V3 ℝ}
    (ids : List Nat) (hi : ∀ k ∈ ids, IntegrableOn (kernelAt s e) (H k).body)
    (hdis : ids.Pairwise fun i j => Disjoint (interior (H i).body) (interior (H j).body)) :
    IntegrableOn (kernelAt s e) {q | ∃ k ∈ ids, q ∈ (H k).body} ∧ MeasurableSet {q | ∃ k ∈ ids, q ∈ (H k).body} ∧
    ∫ q in {q | ∃ k ∈ ids, q ∈ (H k).body}, kernelAt s e q = (ids.map fun k => ∫ q in (H k).body, kernelAt s e q).sum := by
  induction ids with
  | nil => simp
  | cons k ids ih =>
    obtain ⟨h1, h2⟩ := List.pairwise_cons.mp hdis
    obtain ⟨a1, a2, a3⟩ := ih (fun j hj => hi j (List.mem_cons_of_mem _ hj)) h2
    have hm : ∀ k, MeasurableSet (H k).body := fun k => (H k).body_compact.isClosed.measurableSet
    have hset : {q | ∃ j ∈ k :: ids, q ∈ (H j).body} = (H k).body ∪ {q | ∃ j ∈ ids, q ∈ (H j).body} := by
      ext q; simp
    have hfr : ∀ j, volume (frontier (H j).body) = 0 := fun j => (convex_convexHull ℝ _).addHaar_frontier volume
    have hd : AEDisjoint volume (H k).body {q | ∃ j ∈ ids, q ∈ (H j).body} := by
      have hsub : (H k).body ∩ {q | ∃ j ∈ ids, q ∈ (H j).body} ⊆ frontier (H k).body ∪ ⋃ j, frontier (H j).body := by
        rintro q ⟨hq, j, hj, hqj⟩
        by_contra hc
        rw [Set.mem_union, Set.mem_iUnion, not_or, not_exists] at hc
        have i1 : q ∈ interior (H k).body := by
          by_contra hn; exact hc.1 ⟨subset_closure hq, hn⟩
        have i2 : q ∈ interior (H j).body := by
          by_contra hn; exact hc.2 j ⟨subset_closure hqj, hn⟩
        exact Set.disjoint_left.mp (h1 j hj) i1 i2
      exact measure_mono_null hsub (measure_union_null (hfr k) (measure_iUnion_null hfr))
    rw [hset]
    have hik := hi k List.mem_cons_self
    refine ⟨hik.union a1, (hm k).union a2, ?_⟩
    rw [setIntegral_union₀ hd a2.nullMeasurableSet hik a1, a3, List.map_cons, List.sum_cons]

theorem accumulate_G (rs : List (V3 ℝ × M3 ℝ)) : ∀ (s : Station ℝ) (e : V3 ℝ),
    rdot (accumulate s rs).G e = rdot s.G e + (rs.map fun r => rdot r.1 e).sum := by
  induction rs with
  | nil => intro s e; simp [accumulate]
  | cons r rs ih =>
    intro s e
    obtain ⟨G, T⟩ := r
    simp only [accumulate, ih, List.map_cons, List.sum_cons]
    rw [rdot_comm (s.G.add G), rdot_add, rdot_comm e, rdot_comm e]; ring

/-- **C18** If the bodies of a list tile a body, `compute_gravity` on the list adds to the station the field of the whole. -/
theorem C18_tiling (H : Nat → Hull ℝ) {w : World ℝ} (hw : w.Ready) {inHull : Nat → V3 ℝ → Bool} (ids : List Nat)
    (hH : ∀ k ∈ ids, (H k).IsHull) (hp : ∀ k ∈ ids, mkPoly (H k) (inHull k) = .ok (w.poly k))
    (hdis : ids.Pairwise fun i j => Disjoint (interior (H i).body) (interior (H j).body))
    {h : Hull ℝ} (hh : h.IsHull) {inHull' : V3 ℝ → Bool} {p : Poly ℝ} (hp' : mkPoly h inHull' = .ok p)
    (htile : h.body = {q | ∃ k ∈ ids, q ∈ (H k).body}) {s : Station ℝ} (hr : ∀ k ∈ ids, (H k).Regular s.coord) (hr' : h.Regular s.coord)
    {ρ Gc : ℝ} {gr gr' : Bool} {rs : List (V3 ℝ × M3 ℝ)}
    (hrs : ids.map (fun k => (Call.mk s.coord ρ Gc gr).onNew (w.poly k)) = rs.map .ok)
    {G : V3 ℝ} {T : M3 ℝ} (hv : Call.onNew p ⟨s.coord, ρ, Gc, gr'⟩ = .ok (G, T)) :
    ∃ s' w', computeGravity (.list (ids.map .poly)) ρ Gc gr s w = (.ok (), s', w') ∧ s'.G = s.G.add G := by
  obtain ⟨w', h1, -, -⟩ := C06_station_accumulates ρ Gc gr ids s w hw rs hrs
  refine ⟨_, w', h1, ?_⟩
  have key : ∀ e, rdot (accumulate s rs).G e = rdot (s.G.add G) e := by
    intro e
    rw [accumulate_G, rdot_comm (s.G.add G), rdot_add, rdot_comm e, rdot_comm e]
    congr 1
    have hG := (newton_direction hh hp' hr' hv e).2
    simp only at hG
    have hi : ∀ k ∈ ids, IntegrableOn (kernelAt s.coord e) (H k).body :=
      fun k hk => (newton_faces (hull_surface (hH k hk) (hp k hk)) s.coord e).1
    rw [hG, htile, (tiles_integral H ids hi hdis).2.2]
    clear h1 htile hdis hG hi
    induction ids generalizing rs with
    | nil =>
      rcases rs with _ | ⟨r, rs⟩
      · simp
      · simp at hrs
    | cons k ids ih =>
      rcases rs with _ | ⟨r, rs⟩
      · simp at hrs
      · simp only [List.map_cons, List.cons.injEq] at hrs
        rw [List.map_cons, List.sum_cons, List.map_cons, List.sum_cons, ih (fun j hj => hH j (.tail _ hj)) (fun j hj => hp j (.tail _ hj)) (fun j hj => hr j (.tail _ hj)) hrs.2,
          (newton_direction (hH k (.head _)) (hp k (.head _)) (hr k (.head _)) hrs.1 e).2]
        ring
  have kx := key ⟨1, 0, 0⟩
  have ky := key ⟨0, 1, 0⟩
  have kz := key ⟨0, 0, 1⟩
  simp only [rdot, mul_one, mul_zero, add_zero, zero_add] at kx ky kz
  exact V3.ext' kx ky kz

/-! ### C56, C57 -/

/-- **C56** The field depends only on the body: two hulls with the same body (points listed in another order, points that are
not corners, faces cut into triangles in another way) give the same `G`. -/
theorem C56_triangulation {h h' : Hull ℝ} (hh : h.IsHull) (hh' : h'.IsHull) {inHull inHull' : V3 ℝ → Bool} {p p' : Poly ℝ}
    (hp : mkPoly h inHull = .ok p) (hp' : mkPoly h' inHull' = .ok p') (hbody : h'.body = h.body) {s : V3 ℝ} (hs : h.Regular s)
    (hs' : h'.Regular s) {ρ Gc : ℝ} {gr gr' : Bool} {G G' : V3 ℝ} {T T' : M3 ℝ} (hv : Call.onNew p ⟨s, ρ, Gc, gr⟩ = .ok (G, T))
    (hv' : Call.onNew p' ⟨s, ρ, Gc, gr'⟩ = .ok (G', T')) : G' = G := by
  rw [(C16_newton hh hp hs hv).1, (C16_newton hh' hp' hs' hv').1, hbody]

/-- **C57** Moving, turning and mirroring the points and the station does the same to `G`, whatever triangles the hull library
returns for the moved points. -/
theorem C57_congruent {h h' : Hull ℝ} (hh : h.IsHull) (hh' : h'.IsHull) {inHull inHull' : V3 ℝ → Bool} {p p' : Poly ℝ}
    (hp : mkPoly h inHull = .ok p) (hp' : mkPoly h' inHull' = .ok p') {R : M3 ℝ} (hR : IsOrthogonal R) (t : V3 ℝ)
    (hpts : ∀ a, a ∈ h'.points ↔ ∃ b ∈ h.points, a = (R.apply b).add t) {s : V3 ℝ} (hs : h.Regular s)
    (hs' : h'.Regular ((R.apply s).add t)) {ρ Gc : ℝ} {gr gr' : Bool} {G G' : V3 ℝ} {T T' : M3 ℝ}
    (hv : Call.onNew p ⟨s, ρ, Gc, gr⟩ = .ok (G, T)) (hv' : Call.onNew p' ⟨(R.apply s).add t, ρ, Gc, gr'⟩ = .ok (G', T')) :
    G' = R.apply G := by
  have hap : ∀ a, similar 1 R t a = (R.apply a).add t := by
    intro a; unfold similar; congr 1; refine V3.ext' ?_ ?_ ?_ <;> simp
  have hbody : h'.body = similarMap 1 R t '' h.body := by
    have e : (fun q => similarLin 1 R q + t.toP) = similarMap 1 R t := funext fun q => (similarMap_eq 1 R t q).symm
    rw [← e, ← affine_body]
    unfold Hull.body
    congr 1
    ext q
    constructor
    · rintro ⟨a, ha, rfl⟩
      obtain ⟨b, hb, rfl⟩ := (hpts a).mp ha
      refine ⟨_, List.mem_map_of_mem hb, ?_⟩
      unfold affV
      rw [← similarMap_eq, toV_toP]
      unfold similarMap
      rw [toP_toV, hap]
    · rintro ⟨_, ha, rfl⟩
      obtain ⟨b, hb, rfl⟩ := List.mem_map.mp ha
      refine ⟨(R.apply b).add t, (hpts _).mpr ⟨b, hb, rfl⟩, ?_⟩
      unfold affV
      rw [← similarMap_eq, toV_toP]
      unfold similarMap
      rw [toP_toV, hap]
  have := similar_bodies hh hh' hp hp' one_pos hR t hbody hs (by rw [hap]; exact hs') hv (by rw [hap]; exact hv')
  rw [this]; refine V3.ext' ?_ ?_ ?_ <;> simp

/-! ### Concrete cases -/

/-- C16, C17, C51: the tetrahedron answers with Newton's value from outside, inside, and from a point of an edge. -/
example : ∃ p, mkPoly tetra (fun _ => true) = .ok p ∧
    (∃ T, Call.onNew p ⟨⟨2, 3, 5⟩, 2670, 1, false⟩ = .ok (V3.smul (100000 * 1 * 2670) (attraction tetra.body ⟨2, 3, 5⟩), T)) ∧
    (∃ T, Call.onNew p ⟨⟨1 / 2, 1 / 8, 1 / 4⟩, 2670, 1, false⟩ = .ok (V3.smul (100000 * 1 * 2670) (attraction tetra.body ⟨1 / 2, 1 / 8, 1 / 4⟩), T)) ∧
    (∃ T, Call.onNew p ⟨⟨1 / 2, 0, 0⟩, 2670, 1, false⟩ = .ok (V3.smul (100000 * 1 * 2670) (attraction tetra.body ⟨1 / 2, 0, 0⟩), T)) := by
  obtain ⟨p, hp⟩ := hull_mkPoly_ok tetra_isHull (fun _ => true)
  have hc : ∀ s : V3 ℝ, s ≠ tetra.pt 0 → s ≠ tetra.pt 1 → s ≠ tetra.pt 2 → s ≠ tetra.pt 3 → ∀ t ∈ tetra.simplices, ∀ i, Corner t i → tetra.pt i ≠ s := by
    intro s h0 h1 h2 h3 t ht i hi
    have : i < 4 := tetra_isHull.cornerIndex t ht i hi
    interval_cases i
    · exact h0.symm
    · exact h1.symm
    · exact h2.symm
    · exact h3.symm
  refine ⟨p, hp, ?_, ?_, ?_⟩
  · refine C16_newton_returned tetra_isHull hp tetra_regular_out (hc _ ?_ ?_ ?_ ?_) _ _ <;> simp [tetra_pt0, tetra_pt1, tetra_pt2, tetra_pt3]
  · refine C16_newton_returned tetra_isHull hp tetra_regular_in (hc _ ?_ ?_ ?_ ?_) _ _ <;> simp [tetra_pt0, tetra_pt1, tetra_pt2, tetra_pt3]
  · refine C16_newton_returned tetra_isHull hp tetra_regular_edge (hc _ ?_ ?_ ?_ ?_) _ _ <;> simp [tetra_pt0, tetra_pt1, tetra_pt2, tetra_pt3]

theorem tetra_out_corner : ∀ t ∈ tetra.simplices, ∀ i, Corner t i → tetra.pt i ≠ ⟨2, 3, 5⟩ := by
  intro t ht i hi
  have : i < 4 := tetra_isHull.cornerIndex t ht i hi
  interval_cases i <;> simp [tetra_pt0, tetra_pt1, tetra_pt2, tetra_pt3]

/-- C17: the tetrahedron lies below the station (2,3,5), in the sense of the direction (-1,-1,-1), and attracts it downwards. -/
example {p : Poly ℝ} (hp : mkPoly tetra (fun _ => true) = .ok p) :
    ∃ G T, Call.onNew p ⟨⟨2, 3, 5⟩, 2670, 1, false⟩ = .ok (G, T) ∧ 0 < rdot ⟨-1, -1, -1⟩ G := by
  obtain ⟨G, T, hv⟩ := C22_total tetra_isHull hp tetra_out_corner 2670 1
  refine ⟨G, T, hv, C17_towards tetra_isHull hp tetra_regular_out (by norm_num) (by norm_num) hv
    (fun h => by have := congrArg V3.x h; norm_num at this) ?_⟩
  intro q hq
  rw [tetra_body] at hq
  obtain ⟨h1, h2, h3, h4⟩ := hq
  simp only [rdot, P3.toV]
  linarith

/-- C51: the tetrahedron is at distance at least 4 from the station (2,3,5). -/
example {p : Poly ℝ} (hp : mkPoly tetra (fun _ => true) = .ok p) :
    ∃ G T, Call.onNew p ⟨⟨2, 3, 5⟩, 2670, 1, false⟩ = .ok (G, T) ∧ vlen G ≤ 100000 * 1 * 2670 * (volume tetra.body).toReal / 4 ^ 2 := by
  obtain ⟨G, T, hv⟩ := C22_total tetra_isHull hp tetra_out_corner 2670 1
  refine ⟨G, T, hv, C51_bound tetra_isHull hp tetra_regular_out (by norm_num) (by norm_num) hv (by norm_num) ?_⟩
  intro q hq
  rw [tetra_body] at hq
  obtain ⟨h1, h2, h3, h4⟩ := hq
  apply Real.le_sqrt_of_sq_le
  nlinarith [sq_nonneg (q.1 - 2), sq_nonneg (q.2.1 - 3)]

/-- the hull of the images of the points under an invertible matrix -/
theorem affine_rows {h : Hull ℝ} (hh : h.IsHull) (M N : M3 ℝ) (hMN : ∀ a, M.apply (N.apply a) = a) (hNM : ∀ a, N.apply (M.apply a) = a) (t : P3) :
    (h.affine (similarLin 1 M) t).IsHull := by
  have e : ∀ (M : M3 ℝ) q, similarLin 1 M q = (M.apply (P3.toV q)).toP := by
    intro M q; simp [similarLin, rowForm_apply, V3.toP, M3.apply]
  apply hh.affine (B := similarLin 1 N)
  · intro q; rw [e, e, toP_toV, hMN, toV_toP]
  · intro q; rw [e, e, toP_toV, hNM, toV_toP]

theorem affine_rows_pt {h : Hull ℝ} (M : M3 ℝ) {i : Nat} (hi : i < h.points.length) (t : P3) :
    (h.affine (similarLin 1 M) t).pt i = (M.apply (h.pt i)).add (P3.toV t) := by
  rw [affine_pt hi]
  refine V3.ext' ?_ ?_ ?_ <;> simp [affV, similarLin, rowForm_apply, P3.toV, V3.toP, M3.apply]

/-- the tetrahedron with corners at distance 2 on the axes -/
def tetra2 : Hull ℝ := tetra.affine (similarLin 1 ⟨⟨2, 0, 0⟩, ⟨0, 2, 0⟩, ⟨0, 0, 2⟩⟩) (0, 0, 0)

theorem tetra2_isHull : tetra2.IsHull := by
  apply affine_rows tetra_isHull _ ⟨⟨1 / 2, 0, 0⟩, ⟨0, 1 / 2, 0⟩, ⟨0, 0, 1 / 2⟩⟩
  all_goals intro a; refine V3.ext' ?_ ?_ ?_ <;> simp [M3.apply, rdot]

theorem tetra2_pt {i : Nat} (hi : i < 4) : tetra2.pt i = V3.smul 2 (tetra.pt i) := by
  unfold tetra2; rw [affine_rows_pt _ hi]; refine V3.ext' ?_ ?_ ?_ <;> simp [M3.apply, rdot, P3.toV]

theorem tetra2_pt0 : tetra2.pt 0 = ⟨0, 0, 0⟩ := by rw [tetra2_pt (by norm_num), tetra_pt0]; refine V3.ext' ?_ ?_ ?_ <;> simp
theorem tetra2_pt1 : tetra2.pt 1 = ⟨2, 0, 0⟩ := by rw [tetra2_pt (by norm_num), tetra_pt1]; refine V3.ext' ?_ ?_ ?_ <;> simp
theorem tetra2_pt2 : tetra2.pt 2 = ⟨0, 2, 0⟩ := by rw [tetra2_pt (by norm_num), tetra_pt2]; refine V3.ext' ?_ ?_ ?_ <;> simp
theorem tetra2_pt3 : tetra2.pt 3 = ⟨0, 0, 2⟩ := by rw [tetra2_pt (by norm_num), tetra_pt3]; refine V3.ext' ?_ ?_ ?_ <;> simp

theorem tetra2_regular : tetra2.Regular ⟨1, 1 / 4, 1 / 2⟩ := by
  apply regular_bounds
  intro t ht
  simp only [tetra2, Hull.affine, tetra, List.mem_cons, List.not_mem_nil, or_false] at ht
  right
  rcases ht with rfl | rfl | rfl | rfl
  all_goals
    refine ⟨?_, ?_, ?_⟩
    · simp only [tetra2_pt0, tetra2_pt1, tetra2_pt2, tetra2_pt3, rdot, cross_x, cross_y, cross_z, sub_x, sub_y, sub_z]; norm_num
    · simp only [tetra2_pt0, tetra2_pt1, tetra2_pt2, tetra2_pt3, rdot, cross_x, cross_y, cross_z, sub_x, sub_y, sub_z]; norm_num
    · intro i j hi hj hne
      rcases hi with rfl | rfl | rfl <;> rcases hj with rfl | rfl | rfl <;> first | exact absurd rfl hne | skip
      all_goals
        apply clearOf_bounds <;> simp only [rdot, cross_x, cross_y, cross_z, sub_x, sub_y, sub_z, tetra2_pt0, tetra2_pt1, tetra2_pt2, tetra2_pt3] <;> norm_num

/-- C11: the tetrahedron and its double, seen from an inner point -/
example : ∃ p p', mkPoly tetra (fun _ => true) = .ok p ∧ mkPoly tetra2 (fun _ => true) = .ok p' ∧ tetra2.points = tetra.points.map (V3.smul 2) ∧
    ∀ v v', Call.onNew p ⟨⟨1 / 2, 1 / 8, 1 / 4⟩, 2670, 1, true⟩ = .ok v → Call.onNew p' ⟨⟨1, 1 / 4, 1 / 2⟩, 2670, 1, true⟩ = .ok v' →
    v'.1 = V3.smul 2 v.1 := by
  obtain ⟨p, hp⟩ := hull_mkPoly_ok tetra_isHull (fun _ => true)
  obtain ⟨p', hp'⟩ := hull_mkPoly_ok tetra2_isHull (fun _ => true)
  have hpts : tetra2.points = tetra.points.map (V3.smul 2) := by
    simp only [tetra2, Hull.affine, tetra, List.map_cons, List.map_nil, affV]
    refine List.cons_eq_cons.mpr ⟨?_, List.cons_eq_cons.mpr ⟨?_, List.cons_eq_cons.mpr ⟨?_, List.cons_eq_cons.mpr ⟨?_, rfl⟩⟩⟩⟩ <;>
      refine V3.ext' ?_ ?_ ?_ <;> simp [similarLin, rowForm_apply, rdot, P3.toV, V3.toP]
  refine ⟨p, p', hp, hp', hpts, fun v v' hv hv' => ?_⟩
  have e : (⟨1, 1 / 4, 1 / 2⟩ : V3 ℝ) = V3.smul 2 ⟨1 / 2, 1 / 8, 1 / 4⟩ := by refine V3.ext' ?_ ?_ ?_ <;> simp <;> norm_num
  have hr := tetra2_regular
  rw [e] at hr hv'
  exact C11_scaling tetra_isHull tetra2_isHull hp hp' two_pos hpts tetra_regular_in hr hv hv'

/-- C50: the octahedron seen from its centre -/
example : ∃ p, mkPoly octa (fun _ => true) = .ok p ∧ ∃ T, Call.onNew p ⟨⟨0, 0, 0⟩, 2670, 1, false⟩ = .ok (V3.zeros, T) := by
  obtain ⟨p, hp⟩ := hull_mkPoly_ok octa_isHull (fun _ => true)
  have hc : ∀ t ∈ octa.simplices, ∀ i, Corner t i → octa.pt i ≠ ⟨0, 0, 0⟩ := by
    intro t ht i hi
    have : i < 6 := octa_isHull.cornerIndex t ht i hi
    interval_cases i <;> simp [octa_pt0, octa_pt1, octa_pt2, octa_pt3, octa_pt4, octa_pt5]
  obtain ⟨G, T, hv⟩ := C22_total octa_isHull hp hc 2670 1
  have := C50_centre octa_isHull hp octa_regular_centre (by
    intro q hq
    rw [octa_body] at hq ⊢
    have e : (⟨0, 0, 0⟩ : V3 ℝ).toP + (⟨0, 0, 0⟩ : V3 ℝ).toP - q = -q := by simp [V3.toP]
    rw [e]
    show l1 (-q) ≤ 1
    have hq : l1 q ≤ 1 := hq
    unfold l1 at *
    simpa using hq) hv
  exact ⟨p, hp, T, by rw [hv, this]⟩

/-- The half of the tetrahedron where `y ≤ x` -/
def halfA : Hull ℝ := tetra.affine (similarLin 1 ⟨⟨1, 1 / 2, 0⟩, ⟨0, 1 / 2, 0⟩, ⟨0, 0, 1⟩⟩) (0, 0, 0)
/-- The half of the tetrahedron where `x ≤ y` -/
def halfB : Hull ℝ := tetra.affine (similarLin 1 ⟨⟨1 / 2, 0, 0⟩, ⟨1 / 2, 1, 0⟩, ⟨0, 0, 1⟩⟩) (0, 0, 0)

theorem halfA_isHull : halfA.IsHull := by
  apply affine_rows tetra_isHull _ ⟨⟨1, -1, 0⟩, ⟨0, 2, 0⟩, ⟨0, 0, 1⟩⟩
  all_goals intro a; refine V3.ext' ?_ ?_ ?_ <;> simp [M3.apply, rdot]
theorem halfB_isHull : halfB.IsHull := by
  apply affine_rows tetra_isHull _ ⟨⟨2, 0, 0⟩, ⟨-1, 1, 0⟩, ⟨0, 0, 1⟩⟩
  all_goals intro a; refine V3.ext' ?_ ?_ ?_ <;> simp [M3.apply, rdot]

theorem halfA_body : halfA.body = {q : P3 | 0 ≤ q.2.1 ∧ q.2.1 ≤ q.1 ∧ 0 ≤ q.2.2 ∧ q.1 + q.2.1 + q.2.2 ≤ 1} := by
  unfold halfA
  rw [affine_body, tetra_body]
  ext ⟨x, y, z⟩
  simp only [Set.mem_image, Set.mem_ofPred_eq, similarLin, rowForm_apply, rdot, P3.toV, ContinuousLinearMap.prod_apply, smul_apply, smul_eq_mul,
    Prod.mk_add_mk, Prod.mk.injEq, Prod.exists]
  constructor
  · rintro ⟨a, b, c, ⟨h1, h2, h3, h4⟩, rfl, rfl, rfl⟩
    refine ⟨?_, ?_, ?_, ?_⟩ <;> linarith
  · rintro ⟨h1, h2, h3, h4⟩
    exact ⟨x - y, 2 * y, z, ⟨by linarith, by linarith, by linarith, by linarith⟩, by ring, by ring, by ring⟩
theorem halfB_body : halfB.body = {q : P3 | 0 ≤ q.1 ∧ q.1 ≤ q.2.1 ∧ 0 ≤ q.2.2 ∧ q.1 + q.2.1 + q.2.2 ≤ 1} := by
  unfold halfB
  rw [affine_body, tetra_body]
  ext ⟨x, y, z⟩
  simp only [Set.mem_image, Set.mem_ofPred_eq, similarLin, rowForm_apply, rdot, P3.toV, ContinuousLinearMap.prod_apply, smul_apply, smul_eq_mul,
    Prod.mk_add_mk, Prod.mk.injEq, Prod.exists]
  constructor
  · rintro ⟨a, b, c, ⟨h1, h2, h3, h4⟩, rfl, rfl, rfl⟩
    refine ⟨?_, ?_, ?_, ?_⟩ <;> linarith
  · rintro ⟨h1, h2, h3, h4⟩
    exact ⟨2 * x, y - x, z, ⟨by linarith, by linarith, by linarith, by linarith⟩, by ring, by ring, by ring⟩

theorem halfA_pt {i : Nat} (hi : i < 4) : halfA.pt i = ⟨(tetra.pt i).x + (tetra.pt i).y / 2, (tetra.pt i).y / 2, (tetra.pt i).z⟩ := by
  unfold halfA; rw [affine_rows_pt _ hi]; refine V3.ext' ?_ ?_ ?_ <;> simp only [M3.apply, rdot, P3.toV, add_x, add_y, add_z] <;> ring
theorem halfB_pt {i : Nat} (hi : i < 4) : halfB.pt i = ⟨(tetra.pt i).x / 2, (tetra.pt i).x / 2 + (tetra.pt i).y, (tetra.pt i).z⟩ := by
  unfold halfB; rw [affine_rows_pt _ hi]; refine V3.ext' ?_ ?_ ?_ <;> simp only [M3.apply, rdot, P3.toV, add_x, add_y, add_z] <;> ring

theorem halfA_regular : halfA.Regular ⟨2, 3, 5⟩ := by
  apply regular_bounds
  intro t ht
  have h0 := halfA_pt (i := 0) (by norm_num)
  have h1 := halfA_pt (i := 1) (by norm_num)
  have h2 := halfA_pt (i := 2) (by norm_num)
  have h3 := halfA_pt (i := 3) (by norm_num)
  simp only [tetra_pt0, tetra_pt1, tetra_pt2, tetra_pt3] at h0 h1 h2 h3
  simp only [halfA, Hull.affine, tetra, List.mem_cons, List.not_mem_nil, or_false] at ht
  right
  rcases ht with rfl | rfl | rfl | rfl
  all_goals
    refine ⟨?_, ?_, ?_⟩
    · simp only [h0, h1, h2, h3, rdot, cross_x, cross_y, cross_z, sub_x, sub_y, sub_z]; norm_num
    · simp only [h0, h1, h2, h3, rdot, cross_x, cross_y, cross_z, sub_x, sub_y, sub_z]; norm_num
    · intro i j hi hj hne
      rcases hi with rfl | rfl | rfl <;> rcases hj with rfl | rfl | rfl <;> first | exact absurd rfl hne | skip
      all_goals
        apply clearOf_bounds <;> simp only [rdot, cross_x, cross_y, cross_z, sub_x, sub_y, sub_z, h0, h1, h2, h3] <;> norm_num
theorem halfB_regular : halfB.Regular ⟨2, 3, 5⟩ := by
  apply regular_bounds
  intro t ht
  have h0 := halfB_pt (i := 0) (by norm_num)
  have h1 := halfB_pt (i := 1) (by norm_num)
  have h2 := halfB_pt (i := 2) (by norm_num)
  have h3 := halfB_pt (i := 3) (by norm_num)
  simp only [tetra_pt0, tetra_pt1, tetra_pt2, tetra_pt3] at h0 h1 h2 h3
  simp only [halfB, Hull.affine, tetra, List.mem_cons, List.not_mem_nil, or_false] at ht
  right
  rcases ht with rfl | rfl | rfl | rfl
  all_goals
    refine ⟨?_, ?_, ?_⟩
    · simp only [h0, h1, h2, h3, rdot, cross_x, cross_y, cross_z, sub_x, sub_y, sub_z]; norm_num
    · simp only [h0, h1, h2, h3, rdot, cross_x, cross_y, cross_z, sub_x, sub_y, sub_z]; norm_num
    · intro i j hi hj hne
      rcases hi with rfl | rfl | rfl <;> rcases hj with rfl | rfl | rfl <;> first | exact absurd rfl hne | skip
      all_goals
        apply clearOf_bounds <;> simp only [rdot, cross_x, cross_y, cross_z, sub_x, sub_y, sub_z, h0, h1, h2, h3] <;> norm_num

/-- C18: the tetrahedron cut along the plane `x = y` -/
example : ∃ (w : World ℝ) (p : Poly ℝ) (s' : Station ℝ) (w' : World ℝ) (T : M3 ℝ),
    mkPoly halfA (fun _ => true) = .ok (w.poly 0) ∧ mkPoly halfB (fun _ => true) = .ok (w.poly 1) ∧
    mkPoly tetra (fun _ => true) = .ok p ∧
    computeGravity (.list ([0, 1].map .poly)) 2670 1 false ⟨⟨2, 3, 5⟩, V3.zeros, M3.zeros⟩ w = (.ok (), s', w') ∧
    Call.onNew p ⟨⟨2, 3, 5⟩, 2670, 1, false⟩ = .ok (s'.G, T) := by
  obtain ⟨pA, hA⟩ := hull_mkPoly_ok halfA_isHull (fun _ => true)
  obtain ⟨pB, hB⟩ := hull_mkPoly_ok halfB_isHull (fun _ => true)
  obtain ⟨p, hp⟩ := hull_mkPoly_ok tetra_isHull (fun _ => true)
  let poly : Nat → Poly ℝ := fun k => if k = 0 then pA else pB
  have hw : (World.new poly).Ready := World.new_ready poly (by
    intro k
    by_cases hk : k = 0
    · exact ⟨halfA, _, by simp only [poly, hk]; exact hA⟩
    · exact ⟨halfB, _, by simp only [poly, if_neg hk]; exact hB⟩)
  have hcA : ∀ t ∈ halfA.simplices, ∀ i, Corner t i → halfA.pt i ≠ ⟨2, 3, 5⟩ := by
    intro t ht i hi
    have : i < 4 := tetra_isHull.cornerIndex t ht i hi
    rw [halfA_pt this]
    interval_cases i <;> simp [tetra_pt0, tetra_pt1, tetra_pt2, tetra_pt3]
  have hcB : ∀ t ∈ halfB.simplices, ∀ i, Corner t i → halfB.pt i ≠ ⟨2, 3, 5⟩ := by
    intro t ht i hi
    have : i < 4 := tetra_isHull.cornerIndex t ht i hi
    rw [halfB_pt this]
    interval_cases i <;> simp [tetra_pt0, tetra_pt1, tetra_pt2, tetra_pt3]
  obtain ⟨GA, TA, hvA⟩ := C22_total halfA_isHull hA hcA 2670 1
  obtain ⟨GB, TB, hvB⟩ := C22_total halfB_isHull hB hcB 2670 1
  obtain ⟨G, T, hv⟩ := C22_total tetra_isHull hp tetra_out_corner 2670 1
  let H : Nat → Hull ℝ := fun k => if k = 0 then halfA else halfB
  have two : ∀ P : Nat → Prop, P 0 → P 1 → ∀ k ∈ [0, 1], P k := by
    intro P h0 h1 k hk
    simp only [List.mem_cons, List.not_mem_nil, or_false] at hk
    rcases hk with rfl | rfl
    · exact h0
    · exact h1
  obtain ⟨s', w', hc, hG⟩ := C18_tiling H hw (inHull := fun _ _ => true) [0, 1] (two _ halfA_isHull halfB_isHull) (two _ hA hB)
    (by
      rw [List.pairwise_pair]
      rw [Set.disjoint_left]
      intro q (hq : q ∈ interior halfA.body) (hq' : q ∈ interior halfB.body)
      obtain ⟨t, ht, h1⟩ := exists_step hq (-1, 0, 0)
      have h2 := interior_subset hq'
      rw [halfA_body] at h1
      rw [halfB_body] at h2
      have h1 := h1.2.1
      have h2 := h2.2.1
      simp only [Prod.fst_add, Prod.snd_add, Prod.smul_fst, Prod.smul_snd, smul_eq_mul] at h1 h2
      linarith) tetra_isHull hp
    (by
      have e : {q | ∃ k ∈ [0, 1], q ∈ (H k).body} = halfA.body ∪ halfB.body := by ext q; simp [H]
      rw [e, halfA_body, halfB_body, tetra_body]
      ext q
      simp only [Set.mem_ofPred_eq, Set.mem_union]
      constructor
      · rintro ⟨h1, h2, h3, h4⟩
        rcases le_total q.1 q.2.1 with h | h
        · right; refine ⟨?_, ?_, ?_, ?_⟩ <;> linarith
        · left; refine ⟨?_, ?_, ?_, ?_⟩ <;> linarith
      · rintro (⟨h1, h2, h3, h4⟩ | ⟨h1, h2, h3, h4⟩) <;> refine ⟨?_, ?_, ?_, ?_⟩ <;> linarith)
    (s := ⟨⟨2, 3, 5⟩, V3.zeros, M3.zeros⟩) (two _ halfA_regular halfB_regular) tetra_regular_out (rs := [(GA, TA), (GB, TB)])
    (by show [_, _] = [_, _]; rw [← hvA, ← hvB]; rfl) hv
  refine ⟨World.new poly, p, s', w', T, hA, hB, hp, hc, ?_⟩
  rw [hv, hG]
  congr 2
  refine V3.ext' ?_ ?_ ?_ <;> simp

/-- the same tetrahedron with its corners in another order -/
def tetraC : Hull ℝ := tetra.affine (similarLin 1 ⟨⟨0, 1, 0⟩, ⟨0, 0, 1⟩, ⟨1, 0, 0⟩⟩) (0, 0, 0)
theorem tetraC_isHull : tetraC.IsHull := by
  apply affine_rows tetra_isHull _ ⟨⟨0, 0, 1⟩, ⟨1, 0, 0⟩, ⟨0, 1, 0⟩⟩
  all_goals intro a; refine V3.ext' ?_ ?_ ?_ <;> simp [M3.apply, rdot]
theorem tetraC_pt {i : Nat} (hi : i < 4) : tetraC.pt i = ⟨(tetra.pt i).y, (tetra.pt i).z, (tetra.pt i).x⟩ := by
  unfold tetraC; rw [affine_rows_pt _ hi]; refine V3.ext' ?_ ?_ ?_ <;> simp only [M3.apply, rdot, P3.toV, add_x, add_y, add_z] <;> ring
theorem tetraC_body : tetraC.body = tetra.body := by
  unfold tetraC
  rw [affine_body, tetra_body]
  ext ⟨x, y, z⟩
  simp only [Set.mem_image, Set.mem_ofPred_eq, similarLin, rowForm_apply, rdot, P3.toV, ContinuousLinearMap.prod_apply, smul_apply, smul_eq_mul,
    Prod.mk_add_mk, Prod.mk.injEq, Prod.exists]
  constructor
  · rintro ⟨a, b, c, ⟨h1, h2, h3, h4⟩, rfl, rfl, rfl⟩
    refine ⟨?_, ?_, ?_, ?_⟩ <;> linarith
  · rintro ⟨h1, h2, h3, h4⟩
    exact ⟨z, x, y, ⟨by linarith, by linarith, by linarith, by linarith⟩, by ring, by ring, by ring⟩

theorem tetraC_regular : tetraC.Regular ⟨2, 3, 5⟩ := by
  apply regular_bounds
  intro t ht
  have h0 := tetraC_pt (i := 0) (by norm_num)
  have h1 := tetraC_pt (i := 1) (by norm_num)
  have h2 := tetraC_pt (i := 2) (by norm_num)
  have h3 := tetraC_pt (i := 3) (by norm_num)
  simp only [tetra_pt0, tetra_pt1, tetra_pt2, tetra_pt3] at h0 h1 h2 h3
  simp only [tetraC, Hull.affine, tetra, List.mem_cons, List.not_mem_nil, or_false] at ht
  right
  rcases ht with rfl | rfl | rfl | rfl
  all_goals
    refine ⟨?_, ?_, ?_⟩
    · simp only [h0, h1, h2, h3, rdot, cross_x, cross_y, cross_z, sub_x, sub_y, sub_z]; norm_num
    · simp only [h0, h1, h2, h3, rdot, cross_x, cross_y, cross_z, sub_x, sub_y, sub_z]; norm_num
    · intro i j hi hj hne
      rcases hi with rfl | rfl | rfl <;> rcases hj with rfl | rfl | rfl <;> first | exact absurd rfl hne | skip
      all_goals
        apply clearOf_bounds <;> simp only [rdot, cross_x, cross_y, cross_z, sub_x, sub_y, sub_z, h0, h1, h2, h3] <;> norm_num

/-- C56: the two orders of the corners -/
example {p p' : Poly ℝ} (hp : mkPoly tetra (fun _ => true) = .ok p) (hp' : mkPoly tetraC (fun _ => true) = .ok p') {G G' : V3 ℝ} {T T' : M3 ℝ}
    (hv : Call.onNew p ⟨⟨2, 3, 5⟩, 2670, 1, true⟩ = .ok (G, T)) (hv' : Call.onNew p' ⟨⟨2, 3, 5⟩, 2670, 1, true⟩ = .ok (G', T')) : G' = G :=
  C56_triangulation tetra_isHull tetraC_isHull hp hp' tetraC_body tetra_regular_out tetraC_regular hv hv'

/-- the mirror image of the tetrahedron in the plane `x = 0` -/
def tetraM : Hull ℝ := tetra.affine (similarLin 1 ⟨⟨-1, 0, 0⟩, ⟨0, 1, 0⟩, ⟨0, 0, 1⟩⟩) (0, 0, 0)
theorem tetraM_isHull : tetraM.IsHull := by
  apply affine_rows tetra_isHull _ ⟨⟨-1, 0, 0⟩, ⟨0, 1, 0⟩, ⟨0, 0, 1⟩⟩
  all_goals intro a; refine V3.ext' ?_ ?_ ?_ <;> simp [M3.apply, rdot]
theorem tetraM_pt {i : Nat} (hi : i < 4) : tetraM.pt i = ⟨-(tetra.pt i).x, (tetra.pt i).y, (tetra.pt i).z⟩ := by
  unfold tetraM; rw [affine_rows_pt _ hi]; refine V3.ext' ?_ ?_ ?_ <;> simp only [M3.apply, rdot, P3.toV, add_x, add_y, add_z] <;> ring

theorem tetraM_regular : tetraM.Regular ⟨-2, 3, 5⟩ := by
  apply regular_bounds
  intro t ht
  have h0 := tetraM_pt (i := 0) (by norm_num)
  have h1 := tetraM_pt (i := 1) (by norm_num)
  have h2 := tetraM_pt (i := 2) (by norm_num)
  have h3 := tetraM_pt (i := 3) (by norm_num)
  simp only [tetra_pt0, tetra_pt1, tetra_pt2, tetra_pt3] at h0 h1 h2 h3
  simp only [tetraM, Hull.affine, tetra, List.mem_cons, List.not_mem_nil, or_false] at ht
  right
  rcases ht with rfl | rfl | rfl | rfl
  all_goals
    refine ⟨?_, ?_, ?_⟩
    · simp only [h0, h1, h2, h3, rdot, cross_x, cross_y, cross_z, sub_x, sub_y, sub_z]; norm_num
    · simp only [h0, h1, h2, h3, rdot, cross_x, cross_y, cross_z, sub_x, sub_y, sub_z]; norm_num
    · intro i j hi hj hne
      rcases hi with rfl | rfl | rfl <;> rcases hj with rfl | rfl | rfl <;> first | exact absurd rfl hne | skip
      all_goals
        apply clearOf_bounds <;> simp only [rdot, cross_x, cross_y, cross_z, sub_x, sub_y, sub_z, h0, h1, h2, h3] <;> norm_num

/-- C57: the mirror image is attracted in the mirrored direction -/
example {p p' : Poly ℝ} (hp : mkPoly tetra (fun _ => true) = .ok p) (hp' : mkPoly tetraM (fun _ => true) = .ok p') {G G' : V3 ℝ} {T T' : M3 ℝ}
    (hv : Call.onNew p ⟨⟨2, 3, 5⟩, 2670, 1, true⟩ = .ok (G, T)) (hv' : Call.onNew p' ⟨⟨-2, 3, 5⟩, 2670, 1, true⟩ = .ok (G', T')) :
    G' = ⟨-G.x, G.y, G.z⟩ := by
  have e : (⟨-2, 3, 5⟩ : V3 ℝ) = ((⟨⟨-1, 0, 0⟩, ⟨0, 1, 0⟩, ⟨0, 0, 1⟩⟩ : M3 ℝ).apply ⟨2, 3, 5⟩).add V3.zeros := by
    refine V3.ext' ?_ ?_ ?_ <;> simp [M3.apply, rdot]
  have hr := tetraM_regular
  rw [e] at hr hv'
  have := C57_congruent tetra_isHull tetraM_isHull hp hp' (by constructor <;> simp [rdot]) V3.zeros (by
    intro a
    simp only [tetraM, Hull.affine, List.mem_map]
    have key : ∀ b, affV (similarLin 1 ⟨⟨-1, 0, 0⟩, ⟨0, 1, 0⟩, ⟨0, 0, 1⟩⟩) (0, 0, 0) b = ((⟨⟨-1, 0, 0⟩, ⟨0, 1, 0⟩, ⟨0, 0, 1⟩⟩ : M3 ℝ).apply b).add V3.zeros := by
      intro b; refine V3.ext' ?_ ?_ ?_ <;> simp [affV, similarLin, rowForm_apply, P3.toV, V3.toP, M3.apply]
    constructor
    · rintro ⟨b, hb, rfl⟩; exact ⟨b, hb, key b⟩
    · rintro ⟨b, hb, rfl⟩; exact ⟨b, hb, key b⟩) tetra_regular_out hr hv hv'
  rw [this]
  refine V3.ext' ?_ ?_ ?_ <;> simp [M3.apply, rdot]

end
end Geec
