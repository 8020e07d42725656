import Verif.Props.Accuracy
/-
C73: far from the body the field is that of a point mass.
-/
namespace Geec
open Arith MeasureTheory
noncomputable section

/-- the kernel of Newton's law changes by at most `4 |x - y| / m³` outside of the ball of radius `m` -/
theorem newton_kernel_lipschitz {x y : V3 ℝ} {m : ℝ} (hm : 0 < m) (hx : m ≤ vlen x) (hy : m ≤ vlen y) (e : V3 ℝ) :
    |rdot x e / vlen x ^ 3 - rdot y e / vlen y ^ 3| ≤ 4 * vlen (x.sub y) / m ^ 3 * vlen e := by
  set a := vlen x
  set b := vlen y
  have ha : 0 < a := by linarith
  have hb : 0 < b := by linarith
  have hxy : |a - b| ≤ vlen (x.sub y) := by
    rw [abs_le]
    constructor
    · have := vlen_add_le (y.sub x) x
      rw [show (y.sub x).add x = y by refine V3.ext' ?_ ?_ ?_ <;> simp,
        show y.sub x = (x.sub y).neg by refine V3.ext' ?_ ?_ ?_ <;> simp, vlen_neg] at this
      simp only [a, b]; linarith
    · have := vlen_add_le (x.sub y) y
      rw [show (x.sub y).add y = x by refine V3.ext' ?_ ?_ ?_ <;> simp] at this
      simp only [a, b]; linarith
  have he := vlen_nonneg e
  have hd := vlen_nonneg (x.sub y)
  have h1 : rdot x e / a ^ 3 - rdot y e / b ^ 3 = rdot (x.sub y) e / a ^ 3 + rdot y e * ((b - a) * (1 / (a ^ 3 * b) + 1 / (a ^ 2 * b ^ 2) + 1 / (a * b ^ 3))) := by
    rw [rdot_comm (x.sub y), rdot_sub, rdot_comm e x, rdot_comm e y]
    field_simp
    ring
  have h2 : |rdot (x.sub y) e / a ^ 3| ≤ vlen (x.sub y) / m ^ 3 * vlen e := by
    rw [abs_div, abs_of_pos (by positivity : 0 < a ^ 3), div_mul_eq_mul_div]
    exact div_le_div₀ (by positivity) (abs_rdot_le _ _) (by positivity) (pow_le_pow_left₀ hm.le hx 3)
  have h3 : |rdot y e * ((b - a) * (1 / (a ^ 3 * b) + 1 / (a ^ 2 * b ^ 2) + 1 / (a * b ^ 3)))| ≤ 3 * vlen (x.sub y) / m ^ 3 * vlen e := by
    rw [abs_mul, abs_mul, abs_of_pos (by positivity : 0 < 1 / (a ^ 3 * b) + 1 / (a ^ 2 * b ^ 2) + 1 / (a * b ^ 3)), abs_sub_comm]
    have k1 : 1 / (a ^ 3 * b) + 1 / (a ^ 2 * b ^ 2) + 1 / (a * b ^ 3) = (1 / a ^ 3 + 1 / (a ^ 2 * b) + 1 / (a * b ^ 2)) / b := by field_simp
    have k2 : 1 / a ^ 3 + 1 / (a ^ 2 * b) + 1 / (a * b ^ 2) ≤ 3 / m ^ 3 := by
      have p1 : 1 / a ^ 3 ≤ 1 / m ^ 3 := one_div_le_one_div_of_le (by positivity) (pow_le_pow_left₀ hm.le hx 3)
      have p2 : 1 / (a ^ 2 * b) ≤ 1 / m ^ 3 := by
        apply one_div_le_one_div_of_le (by positivity)
        calc m ^ 3 = m ^ 2 * m := by ring
          _ ≤ a ^ 2 * b := mul_le_mul (pow_le_pow_left₀ hm.le hx 2) hy hm.le (by positivity)
      have p3 : 1 / (a * b ^ 2) ≤ 1 / m ^ 3 := by
        apply one_div_le_one_div_of_le (by positivity)
        calc m ^ 3 = m * m ^ 2 := by ring
          _ ≤ a * b ^ 2 := mul_le_mul hx (pow_le_pow_left₀ hm.le hy 2) (by positivity) (by positivity)
      have : (3 : ℝ) / m ^ 3 = 1 / m ^ 3 + 1 / m ^ 3 + 1 / m ^ 3 := by ring
      linarith
    rw [k1]
    calc |rdot y e| * (|a - b| * ((1 / a ^ 3 + 1 / (a ^ 2 * b) + 1 / (a * b ^ 2)) / b))
        ≤ (b * vlen e) * (vlen (x.sub y) * ((3 / m ^ 3) / b)) := by
          apply mul_le_mul (abs_rdot_le _ _) _ (by positivity) (by positivity)
          apply mul_le_mul hxy _ (by positivity) hd
          gcongr
      _ = 3 * vlen (x.sub y) / m ^ 3 * vlen e := by field_simp
  rw [h1]
  calc _ ≤ _ := abs_add_le _ _
    _ ≤ vlen (x.sub y) / m ^ 3 * vlen e + 3 * vlen (x.sub y) / m ^ 3 * vlen e := add_le_add h2 h3
    _ = _ := by ring

/-- **C73** Far from the body the field is the one of a point mass: for a body within distance `D` of a point `c`, and a station at
a distance `d > D` from `c`, the returned field differs from that of the whole mass concentrated in `c` by at most
`4 D / (d - D)³` of `1e5 G` times the mass. -/
theorem C73_point_mass {h : Hull ℝ} (hh : h.IsHull) {inHull : V3 ℝ → Bool} {p : Poly ℝ} (hp : mkPoly h inHull = .ok p)
    {s : V3 ℝ} (hs : h.Regular s) {ρ Gc : ℝ} {gr : Bool} {G : V3 ℝ} {T : M3 ℝ} (hv : Call.onNew p ⟨s, ρ, Gc, gr⟩ = .ok (G, T))
    {c : V3 ℝ} {D : ℝ} (hc : ∀ q ∈ h.body, dist3 q c ≤ D) (hd : D < vlen (c.sub s)) :
    vlen (G.sub (V3.smul (100000 * Gc * ρ * (volume h.body).toReal / vlen (c.sub s) ^ 3) (c.sub s))) ≤
      |100000 * Gc * ρ| * (volume h.body).toReal * (4 * D / (vlen (c.sub s) - D) ^ 3) := by
  have hD : 0 ≤ D := by
    obtain ⟨q, hq⟩ := hh.solid
    exact (Real.sqrt_nonneg _).trans (hc q (interior_subset hq))
  set V := (volume h.body).toReal with hV
  set m := vlen (c.sub s) - D with hm
  have hm0 : 0 < m := by rw [hm]; linarith
  set X := G.sub (V3.smul (100000 * Gc * ρ * V / vlen (c.sub s) ^ 3) (c.sub s)) with hX
  have hmeas : MeasurableSet h.body := h.body_compact.isClosed.measurableSet
  have hfin : volume h.body ≠ ⊤ := h.body_compact.measure_ne_top
  obtain ⟨hi, hx⟩ := newton_direction hh hp hs hv X
  have hl : ∀ Y, rdot X Y = rdot G Y - 100000 * Gc * ρ * V / vlen (c.sub s) ^ 3 * rdot (c.sub s) Y := by
    intro Y; rw [hX]; simp only [rdot, sub_x, sub_y, sub_z, smul_x, smul_y, smul_z]; ring
  have hXX : vlen X * vlen X = 100000 * Gc * ρ * ∫ q in h.body, (kernelAt s X q - rdot (c.sub s) X / vlen (c.sub s) ^ 3) := by
    rw [integral_sub hi (integrableOn_const hfin), setIntegral_const, smul_eq_mul, mul_sub, ← hx, vlen_sq, measureReal_def, ← hV]
    rw [hl X]
    ring
  have hbd : ‖∫ q in h.body, (kernelAt s X q - rdot (c.sub s) X / vlen (c.sub s) ^ 3)‖ ≤ 4 * D / m ^ 3 * vlen X * volume.real h.body := by
    apply norm_setIntegral_le_of_norm_le_const (lt_top_iff_ne_top.mpr hfin)
    intro q hq
    have hqc : vlen ((P3.toV q).sub c) ≤ D := by
      have := hc q hq
      unfold dist3 at this
      unfold vlen
      simpa only [rdot, P3.toV, sub_x, sub_y, sub_z, ← pow_two] using this
    have hxs : m ≤ vlen ((P3.toV q).sub s) := by
      have := vlen_add_le ((P3.toV q).sub s) (c.sub (P3.toV q))
      rw [show ((P3.toV q).sub s).add (c.sub (P3.toV q)) = c.sub s by refine V3.ext' ?_ ?_ ?_ <;> simp,
        show c.sub (P3.toV q) = ((P3.toV q).sub c).neg by refine V3.ext' ?_ ?_ ?_ <;> simp, vlen_neg] at this
      rw [hm]; linarith
    have hcs : m ≤ vlen (c.sub s) := by rw [hm]; linarith
    have := newton_kernel_lipschitz hm0 hxs hcs X
    rw [show ((P3.toV q).sub s).sub (c.sub s) = (P3.toV q).sub c by refine V3.ext' ?_ ?_ ?_ <;> simp] at this
    refine this.trans ?_
    have := vlen_nonneg X
    gcongr
  have hb : vlen X * vlen X ≤ |100000 * Gc * ρ| * (4 * D / m ^ 3 * vlen X * V) := by
    rw [hXX]
    refine (le_abs_self _).trans ?_
    rw [abs_mul]
    exact mul_le_mul_of_nonneg_left hbd (abs_nonneg _)
  rcases eq_or_lt_of_le (vlen_nonneg X) with h0 | h0
  · rw [← h0]; positivity
  · apply le_of_mul_le_mul_right _ h0
    calc _ ≤ _ := hb
      _ = _ := by ring

/-- C73: the tetrahedron is within distance 1 of the origin, the station is at distance √38. -/
example {p : Poly ℝ} (hp : mkPoly tetra (fun _ => true) = .ok p) :
    ∃ G T, Call.onNew p ⟨⟨2, 3, 5⟩, 2670, 1, false⟩ = .ok (G, T) ∧
      vlen (G.sub (V3.smul (100000 * 1 * 2670 * (volume tetra.body).toReal / vlen (V3.sub ⟨0, 0, 0⟩ ⟨2, 3, 5⟩) ^ 3) (V3.sub ⟨0, 0, 0⟩ ⟨2, 3, 5⟩))) ≤
        |100000 * 1 * 2670| * (volume tetra.body).toReal * (4 * 1 / (vlen (V3.sub ⟨0, 0, 0⟩ ⟨2, 3, 5⟩) - 1) ^ 3) := by
  obtain ⟨G, T, hv⟩ := C22_total tetra_isHull hp tetra_out_corner 2670 1
  refine ⟨G, T, hv, C73_point_mass tetra_isHull hp tetra_regular_out hv ?_ ?_⟩
  · intro q hq
    rw [tetra_body] at hq
    obtain ⟨h1, h2, h3, h4⟩ := hq
    apply Real.sqrt_le_iff.mpr
    constructor
    · norm_num
    · nlinarith
  · apply Real.lt_sqrt_of_sq_lt
    simp [rdot]; norm_num

end
end Geec
