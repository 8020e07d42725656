import Mathlib.Analysis.Convex.Integral
import Verif.Props.FarField
import Verif.Lemmas.Potential
/-
C91: far from the body the field is that of its mass in the centre of mass, to second order.
-/
namespace Geec
open Arith MeasureTheory Set
noncomputable section

/-- Taylor's formula with remainder of second order -/
theorem taylor_two {f f' f'' : ℝ → ℝ} {C : ℝ} (h1 : ∀ t ∈ Icc (0 : ℝ) 1, HasDerivAt f (f' t) t) (h2 : ∀ t ∈ Icc (0 : ℝ) 1, HasDerivAt f' (f'' t) t)
    (h3 : ∀ t ∈ Icc (0 : ℝ) 1, |f'' t| ≤ C) : |f 1 - f 0 - f' 0| ≤ C / 2 := by
  have k1 : ∀ t ∈ Icc (0 : ℝ) 1, ‖f' t - f' 0‖ ≤ C * t := by
    have := image_norm_le_of_norm_deriv_right_le_deriv_boundary (f := fun t => f' t - f' 0) (f' := f'') (a := 0) (b := 1) (B := fun t => C * t) (B' := fun _ => C)
      (fun t ht => ((h2 t ht).sub_const _).continuousAt.continuousWithinAt)
      (fun t ht => ((h2 t ⟨ht.1, ht.2.le⟩).sub_const _).hasDerivWithinAt) (by simp) (fun t => by simpa using (hasDerivAt_id t).const_mul C)
      (fun t ht => by rw [Real.norm_eq_abs]; exact h3 t ⟨ht.1, ht.2.le⟩)
    exact fun t ht => this ht
  have k2 := image_norm_le_of_norm_deriv_right_le_deriv_boundary (f := fun t => f t - f 0 - f' 0 * t) (f' := fun t => f' t - f' 0) (a := 0) (b := 1)
    (B := fun t => C / 2 * t ^ 2) (B' := fun t => C * t)
    (fun t ht => (((h1 t ht).sub_const _).sub ((hasDerivAt_id t).const_mul _)).continuousAt.continuousWithinAt)
    (fun t ht => ((((h1 t ⟨ht.1, ht.2.le⟩).sub_const (f 0)).sub ((hasDerivAt_id t).const_mul (f' 0))).congr_deriv (by simp)).hasDerivWithinAt) (by simp)
    (fun t => by
      have := ((hasDerivAt_id t).pow 2).const_mul (C / 2)
      refine this.congr_deriv ?_
      simp; ring)
    (fun t ht => k1 t ⟨ht.1, ht.2.le⟩) (x := 1) (by simp)
  simpa [Real.norm_eq_abs] using k2

/-- the derivative of the kernel at `x` in direction `h`, in direction `e` -/
def kernelSlope (x e : V3 ℝ) : V3 ℝ := (V3.smul (1 / vlen x ^ 3) e).sub (V3.smul (3 * rdot x e / vlen x ^ 5) x)

/-- the kernel of Newton's law is linear up to `12 |h|² / m⁴`, as long as the segment stays outside of the ball of radius `m` -/
theorem newton_kernel_second {x y : V3 ℝ} {m : ℝ} (hm : 0 < m) (hx : ∀ t ∈ Icc (0 : ℝ) 1, m ≤ vlen (x.add (V3.smul t y))) (e : V3 ℝ) :
    |rdot (x.add y) e / vlen (x.add y) ^ 3 - rdot x e / vlen x ^ 3 - rdot y (kernelSlope x e)| ≤ 12 * vlen y ^ 2 / m ^ 4 * vlen e := by
  set r : ℝ → V3 ℝ := fun t => x.add (V3.smul t y) with hr
  have hpos : ∀ t ∈ Icc (0 : ℝ) 1, 0 < vlen (r t) := fun t ht => hm.trans_le (hx t ht)
  -- derivatives of the pieces
  have dlin : ∀ (w : V3 ℝ) (t : ℝ), HasDerivAt (fun t => rdot (r t) w) (rdot y w) t := by
    intro w t
    have : (fun t => rdot (r t) w) = fun t => rdot x w + t * rdot y w := by
      funext t; simp only [hr, rdot, add_x, add_y, add_z, smul_x, smul_y, smul_z]; ring
    rw [this]
    simpa using ((hasDerivAt_id t).mul_const (rdot y w)).const_add (rdot x w)
  have dlen : ∀ t ∈ Icc (0 : ℝ) 1, HasDerivAt (fun t => vlen (r t)) (rdot (r t) y / vlen (r t)) t := by
    intro t ht
    have h0 := hpos t ht
    have hq : HasDerivAt (fun t => rdot (r t) (r t)) (2 * rdot (r t) y) t := by
      have : (fun t => rdot (r t) (r t)) = fun t => rdot x x + t * (2 * rdot x y) + t ^ 2 * rdot y y := by
        funext t; simp only [hr, rdot, add_x, add_y, add_z, smul_x, smul_y, smul_z]; ring
      rw [this]
      have := (((hasDerivAt_id t).mul_const (2 * rdot x y)).const_add (rdot x x)).add (((hasDerivAt_id t).pow 2).mul_const (rdot y y))
      refine this.congr_deriv ?_
      simp only [hr, rdot, add_x, add_y, add_z, smul_x, smul_y, smul_z, id]; ring
    have hne : rdot (r t) (r t) ≠ 0 := by rw [← vlen_sq]; positivity
    refine (hq.sqrt hne).congr_deriv ?_
    show 2 * rdot (r t) y / (2 * vlen (r t)) = _
    rw [mul_div_mul_left _ _ two_ne_zero]
  have dpow : ∀ (n : ℕ), ∀ t ∈ Icc (0 : ℝ) 1, HasDerivAt (fun t => 1 / vlen (r t) ^ n) (-(n * rdot (r t) y) / vlen (r t) ^ (n + 2)) t := by
    intro n t ht
    have h0 := (hpos t ht).ne'
    have := ((dlen t ht).pow n).inv (pow_ne_zero n h0)
    simp only [Pi.pow_apply, ← one_div] at this
    refine (this.congr_deriv ?_)
    cases n with
    | zero => simp
    | succ k =>
      simp only [Nat.add_sub_cancel]
      field_simp
      ring
  have d1 : ∀ t ∈ Icc (0 : ℝ) 1, HasDerivAt (fun t => rdot (r t) e * (1 / vlen (r t) ^ 3))
      (rdot y e * (1 / vlen (r t) ^ 3) - 3 * (rdot (r t) e * rdot (r t) y * (1 / vlen (r t) ^ 5))) t := by
    intro t ht
    refine ((dlin e t).mul (dpow 3 t ht)).congr_deriv ?_
    push_cast; ring
  have d2 : ∀ t ∈ Icc (0 : ℝ) 1, HasDerivAt (fun t => rdot y e * (1 / vlen (r t) ^ 3) - 3 * (rdot (r t) e * rdot (r t) y * (1 / vlen (r t) ^ 5)))
      (-(6 * (rdot y e * rdot (r t) y / vlen (r t) ^ 5)) - 3 * (rdot (r t) e * rdot y y / vlen (r t) ^ 5) +
        15 * (rdot (r t) e * rdot (r t) y ^ 2 / vlen (r t) ^ 7)) t := by
    intro t ht
    refine (((dpow 3 t ht).const_mul (rdot y e)).sub ((((dlin e t).mul (dlin y t)).mul (dpow 5 t ht)).const_mul 3)).congr_deriv ?_
    push_cast
    simp only [Pi.mul_apply]
    ring
  have hb : ∀ t ∈ Icc (0 : ℝ) 1, |-(6 * (rdot y e * rdot (r t) y / vlen (r t) ^ 5)) - 3 * (rdot (r t) e * rdot y y / vlen (r t) ^ 5) +
        15 * (rdot (r t) e * rdot (r t) y ^ 2 / vlen (r t) ^ 7)| ≤ 24 * vlen y ^ 2 / m ^ 4 * vlen e := by
    intro t ht
    have h0 := hpos t ht
    set R := vlen (r t) with hR
    have he := vlen_nonneg e
    have hy := vlen_nonneg y
    have c1 := abs_rdot_le y e
    have c2 := abs_rdot_le (r t) y
    have c3 := abs_rdot_le (r t) e
    have c4 : |rdot y y| ≤ vlen y * vlen y := abs_rdot_le y y
    rw [← hR] at c2 c3
    have q1 : |rdot y e * rdot (r t) y / R ^ 5| ≤ vlen y ^ 2 * vlen e / R ^ 4 := by
      rw [abs_div, abs_mul, abs_of_pos (pow_pos h0 5)]
      calc _ ≤ (vlen y * vlen e) * (R * vlen y) / R ^ 5 := by gcongr
        _ = _ := by field_simp
    have q2 : |rdot (r t) e * rdot y y / R ^ 5| ≤ vlen y ^ 2 * vlen e / R ^ 4 := by
      rw [abs_div, abs_mul, abs_of_pos (pow_pos h0 5)]
      calc _ ≤ (R * vlen e) * (vlen y * vlen y) / R ^ 5 := by gcongr
        _ = _ := by field_simp
    have q3 : |rdot (r t) e * rdot (r t) y ^ 2 / R ^ 7| ≤ vlen y ^ 2 * vlen e / R ^ 4 := by
      rw [abs_div, abs_mul, abs_pow, abs_of_pos (pow_pos h0 7)]
      calc _ ≤ (R * vlen e) * (R * vlen y) ^ 2 / R ^ 7 := by gcongr
        _ = _ := by field_simp
    have q4 : vlen y ^ 2 * vlen e / R ^ 4 ≤ vlen y ^ 2 * vlen e / m ^ 4 := by
      have := hx t ht
      gcongr
    have q5 : 24 * vlen y ^ 2 / m ^ 4 * vlen e = 24 * (vlen y ^ 2 * vlen e / m ^ 4) := by ring
    rw [q5]
    rw [abs_le] at q1 q2 q3 ⊢
    constructor <;> linarith [q1.1, q1.2, q2.1, q2.2, q3.1, q3.2]
  have key := taylor_two d1 d2 hb
  have e0 : r 0 = x := by simp only [hr]; refine V3.ext' ?_ ?_ ?_ <;> simp
  have e1 : r 1 = x.add y := by simp only [hr]; refine V3.ext' ?_ ?_ ?_ <;> simp
  rw [e0, e1] at key
  refine le_trans (le_of_eq ?_) (key.trans (le_of_eq (by ring)))
  congr 1
  have : rdot y (kernelSlope x e) = rdot y e * (1 / vlen x ^ 3) - 3 * (rdot x e * rdot x y * (1 / vlen x ^ 5)) := by
    simp only [kernelSlope, rdot, sub_x, sub_y, sub_z, smul_x, smul_y, smul_z]; ring
  rw [this]
  ring

/-- The centre of mass of a homogeneous body: the mean of its points. -/
def centreOfMass (B : Set P3) : V3 ℝ :=
  ⟨(∫ q in B, q.1) / (volume B).toReal, (∫ q in B, q.2.1) / (volume B).toReal, (∫ q in B, q.2.2) / (volume B).toReal⟩

theorem volume_pos_of_hull {h : Hull ℝ} (hh : h.IsHull) : 0 < (volume h.body).toReal := by
  apply ENNReal.toReal_pos _ h.body_compact.measure_ne_top
  have := hh.solid
  exact ((isOpen_interior.measure_pos volume this).trans_le (measure_mono interior_subset)).ne'

theorem coord_integrable (h : Hull ℝ) (w : V3 ℝ) (k : ℝ) : IntegrableOn (fun q : P3 => rdot (P3.toV q) w - k) h.body := by
  apply ContinuousOn.integrableOn_compact h.body_compact
  apply Continuous.continuousOn
  simp only [rdot, P3.toV]
  fun_prop

/-- the linear term cancels -/
theorem centreOfMass_spec {h : Hull ℝ} (hh : h.IsHull) (w : V3 ℝ) : ∫ q in h.body, rdot ((P3.toV q).sub (centreOfMass h.body)) w = 0 := by
  have hV := volume_pos_of_hull hh
  have hfin : volume h.body ≠ ⊤ := h.body_compact.measure_ne_top
  have i : ∀ f : P3 → ℝ, Continuous f → IntegrableOn f h.body := fun f hf => hf.continuousOn.integrableOn_compact h.body_compact
  have e : ∀ q : P3, rdot ((P3.toV q).sub (centreOfMass h.body)) w = (q.1 * w.x + q.2.1 * w.y + q.2.2 * w.z) - rdot (centreOfMass h.body) w := by
    intro q; simp only [rdot, P3.toV, sub_x, sub_y, sub_z]; ring
  simp only [e]
  rw [integral_sub (i _ (by fun_prop)) (integrableOn_const hfin), integral_add (i _ (by fun_prop)) (i _ (by fun_prop)),
    integral_add (i _ (by fun_prop)) (i _ (by fun_prop)), integral_mul_const, integral_mul_const, integral_mul_const, setIntegral_const, measureReal_def]
  simp only [centreOfMass, rdot, smul_eq_mul]
  field_simp
  ring

/-- **C91** Far from the body the field is that of its whole mass in its centre of mass `c`, to second order: for a body within distance `D` of `c`
and a station at distance `d > D` of `c`, the returned field differs from it by at most `12 D² / (d - D)⁴` of `1e5 G` times the mass. -/
theorem C91_centre_of_mass {h : Hull ℝ} (hh : h.IsHull) {inHull : V3 ℝ → Bool} {p : Poly ℝ} (hp : mkPoly h inHull = .ok p)
    {s : V3 ℝ} (hs : h.Regular s) {ρ Gc : ℝ} {gr : Bool} {G : V3 ℝ} {T : M3 ℝ} (hv : Call.onNew p ⟨s, ρ, Gc, gr⟩ = .ok (G, T))
    {D : ℝ} (hc : ∀ q ∈ h.body, dist3 q (centreOfMass h.body) ≤ D) (hd : D < vlen ((centreOfMass h.body).sub s)) :
    vlen (G.sub (V3.smul (100000 * Gc * ρ * (volume h.body).toReal / vlen ((centreOfMass h.body).sub s) ^ 3) ((centreOfMass h.body).sub s))) ≤
      |100000 * Gc * ρ| * (volume h.body).toReal * (12 * D ^ 2 / (vlen ((centreOfMass h.body).sub s) - D) ^ 4) := by
  set c := centreOfMass h.body with hcdef
  have hD : 0 ≤ D := by
    obtain ⟨q, hq⟩ := hh.solid
    exact (Real.sqrt_nonneg _).trans (hc q (interior_subset hq))
  set V := (volume h.body).toReal with hV
  set m := vlen (c.sub s) - D with hm
  have hm0 : 0 < m := by rw [hm]; linarith
  set X := G.sub (V3.smul (100000 * Gc * ρ * V / vlen (c.sub s) ^ 3) (c.sub s)) with hX
  have hfin : volume h.body ≠ ⊤ := h.body_compact.measure_ne_top
  obtain ⟨hi, hx⟩ := newton_direction hh hp hs hv X
  have hl : ∀ Y, rdot X Y = rdot G Y - 100000 * Gc * ρ * V / vlen (c.sub s) ^ 3 * rdot (c.sub s) Y := by
    intro Y; rw [hX]; simp only [rdot, sub_x, sub_y, sub_z, smul_x, smul_y, smul_z]; ring
  have hw := centreOfMass_spec hh (kernelSlope (c.sub s) X)
  have iw : IntegrableOn (fun q : P3 => rdot ((P3.toV q).sub c) (kernelSlope (c.sub s) X)) h.body := by
    apply ContinuousOn.integrableOn_compact h.body_compact
    apply Continuous.continuousOn
    simp only [rdot, P3.toV, sub_x, sub_y, sub_z]
    fun_prop
  have hXX : vlen X * vlen X = 100000 * Gc * ρ * ∫ q in h.body,
      (kernelAt s X q - rdot (c.sub s) X / vlen (c.sub s) ^ 3 - rdot ((P3.toV q).sub c) (kernelSlope (c.sub s) X)) := by
    have hi2 : IntegrableOn (fun q => kernelAt s X q - rdot (c.sub s) X / vlen (c.sub s) ^ 3) h.body := hi.sub (integrableOn_const hfin)
    rw [integral_sub hi2 iw, hw, sub_zero, integral_sub hi (integrableOn_const hfin), setIntegral_const, smul_eq_mul, mul_sub,
      ← hx, vlen_sq, measureReal_def, ← hV]
    rw [hl X]
    ring
  have hbd : ‖∫ q in h.body, (kernelAt s X q - rdot (c.sub s) X / vlen (c.sub s) ^ 3 - rdot ((P3.toV q).sub c) (kernelSlope (c.sub s) X))‖ ≤
      12 * D ^ 2 / m ^ 4 * vlen X * volume.real h.body := by
    apply norm_setIntegral_le_of_norm_le_const (lt_top_iff_ne_top.mpr hfin)
    intro q hq
    have hqc : vlen ((P3.toV q).sub c) ≤ D := by
      have := hc q hq
      unfold dist3 at this
      unfold vlen
      simpa only [rdot, P3.toV, sub_x, sub_y, sub_z, ← pow_two] using this
    have hseg : ∀ t ∈ Icc (0 : ℝ) 1, m ≤ vlen ((c.sub s).add (V3.smul t ((P3.toV q).sub c))) := by
      intro t ht
      have h1 := vlen_add_le ((c.sub s).add (V3.smul t ((P3.toV q).sub c))) (V3.smul (-t) ((P3.toV q).sub c))
      rw [show ((c.sub s).add (V3.smul t ((P3.toV q).sub c))).add (V3.smul (-t) ((P3.toV q).sub c)) = c.sub s by
        refine V3.ext' ?_ ?_ ?_ <;> simp, vlen_smul, abs_neg, abs_of_nonneg ht.1] at h1
      have h2 : t * vlen ((P3.toV q).sub c) ≤ 1 * D := mul_le_mul ht.2 hqc (vlen_nonneg _) zero_le_one
      rw [hm]; linarith
    have := newton_kernel_second hm0 hseg X
    rw [show (c.sub s).add ((P3.toV q).sub c) = (P3.toV q).sub s by refine V3.ext' ?_ ?_ ?_ <;> simp] at this
    refine this.trans ?_
    have := vlen_nonneg X
    have := vlen_nonneg ((P3.toV q).sub c)
    gcongr
  have hb : vlen X * vlen X ≤ |100000 * Gc * ρ| * (12 * D ^ 2 / m ^ 4 * vlen X * V) := by
    rw [hXX]
    refine (le_abs_self _).trans ?_
    rw [abs_mul]
    exact mul_le_mul_of_nonneg_left hbd (abs_nonneg _)
  rcases eq_or_lt_of_le (vlen_nonneg X) with h0 | h0
  · rw [← h0]; positivity
  · apply le_of_mul_le_mul_right _ h0
    calc _ ≤ _ := hb
      _ = _ := by ring

/-- the centre of mass belongs to the body -/
theorem centreOfMass_mem {h : Hull ℝ} (hh : h.IsHull) : (centreOfMass h.body).toP ∈ h.body := by
  have hV := volume_pos_of_hull hh
  have hfin : volume h.body ≠ ⊤ := h.body_compact.measure_ne_top
  have h0 : volume h.body ≠ 0 := fun e => by rw [e] at hV; simp at hV
  have i : IntegrableOn (fun q : P3 => q) h.body := continuous_id.continuousOn.integrableOn_compact h.body_compact
  have hm := (convex_convexHull ℝ {q | ∃ p ∈ h.points, q = p.toP}).set_average_mem (μ := volume) (t := h.body) (f := fun q => q) h.body_compact.isClosed h0 hfin
    (ae_restrict_of_forall_mem h.body_compact.isClosed.measurableSet fun q hq => hq) i
  refine (congrArg (· ∈ h.body) ?_).mpr hm
  rw [setAverage_eq, measureReal_def]
  have i1 : IntegrableOn (fun q : P3 => q.1) h.body := i.fst
  have i2 : IntegrableOn (fun q : P3 => q.2) h.body := i.snd
  have e1 : (∫ q in h.body, (q : P3)).1 = ∫ q in h.body, q.1 := fst_integral i
  have e2 : (∫ q in h.body, (q : P3)).2 = ∫ q in h.body, q.2 := snd_integral i
  have e3 : (∫ q in h.body, q.2).1 = ∫ q in h.body, q.2.1 := fst_integral i2
  have e4 : (∫ q in h.body, q.2).2 = ∫ q in h.body, q.2.2 := snd_integral i2
  refine Prod.ext ?_ (Prod.ext ?_ ?_)
  · simp only [Prod.smul_fst, e1, centreOfMass, V3.toP, smul_eq_mul]; ring
  · simp only [Prod.smul_fst, Prod.smul_snd, e2, e3, centreOfMass, V3.toP, smul_eq_mul]; ring
  · simp only [Prod.smul_snd, e2, e4, centreOfMass, V3.toP, smul_eq_mul]; ring

/-- C91: the unit tetrahedron, seen from (2, 3, 5). -/
example {p : Poly ℝ} (hp : mkPoly tetra (fun _ => true) = .ok p) :
    ∃ G T, Call.onNew p ⟨⟨2, 3, 5⟩, 2670, 1, false⟩ = .ok (G, T) ∧
      vlen (G.sub (V3.smul (100000 * 1 * 2670 * (volume tetra.body).toReal / vlen ((centreOfMass tetra.body).sub ⟨2, 3, 5⟩) ^ 3)
        ((centreOfMass tetra.body).sub ⟨2, 3, 5⟩))) ≤
        |100000 * 1 * 2670| * (volume tetra.body).toReal * (12 * (3 / 2) ^ 2 / (vlen ((centreOfMass tetra.body).sub ⟨2, 3, 5⟩) - 3 / 2) ^ 4) := by
  obtain ⟨G, T, hv⟩ := C22_total tetra_isHull hp tetra_out_corner 2670 1
  have hm := centreOfMass_mem tetra_isHull
  have key := C91_centre_of_mass tetra_isHull hp tetra_regular_out hv (D := 3 / 2)
  generalize centreOfMass tetra.body = c at hm key ⊢
  rw [tetra_body] at hm
  obtain ⟨m1, m2, m3, m4⟩ := hm
  simp only [V3.toP] at m1 m2 m3 m4
  refine ⟨G, T, hv, key ?_ ?_⟩
  · intro q hq
    rw [tetra_body] at hq
    obtain ⟨h1, h2, h3, h4⟩ := hq
    apply Real.sqrt_le_iff.mpr
    constructor
    · norm_num
    · nlinarith [mul_nonneg h1 m1, mul_nonneg h2 m2, mul_nonneg h3 m3]
  · apply Real.lt_sqrt_of_sq_lt
    simp only [rdot, sub_x, sub_y, sub_z]
    nlinarith

end
end Geec
