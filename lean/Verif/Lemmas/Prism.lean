import Verif.Lemmas.Plate
import Mathlib.Analysis.SpecialFunctions.Trigonometric.ArctanDeriv
/-
The attraction of a rectangular block in closed form (Nagy's formula).
-/
namespace Geec
open Arith MeasureTheory Metric Set Filter Topology
noncomputable section

/-- distance of a point from the origin -/
def rad3 (a b c : ℝ) : ℝ := Real.sqrt (a ^ 2 + b ^ 2 + c ^ 2)

/-- the function of Nagy's formula; `c` is the coordinate in the direction of the component -/
def nagy (a b c : ℝ) : ℝ :=
  a * Real.log (b + rad3 a b c) + b * Real.log (a + rad3 a b c) - c * Real.arctan (a * b / (c * rad3 a b c))

/-- alternating sum of a function over the corners of a block -/
def corners (F : ℝ → ℝ → ℝ → ℝ) (x1 x2 y1 y2 z1 z2 : ℝ) : ℝ :=
  (F x2 y2 z2 - F x2 y1 z2 - F x2 y2 z1 + F x2 y1 z1) - (F x1 y2 z2 - F x1 y1 z2 - F x1 y2 z1 + F x1 y1 z1)

/-- the rectangular block with edges along the axes -/
def block (x1 x2 y1 y2 z1 z2 : ℝ) : Set P3 := Icc x1 x2 ×ˢ (Icc y1 y2 ×ˢ Icc z1 z2)

theorem rad3_sq (a b c : ℝ) : rad3 a b c ^ 2 = a ^ 2 + b ^ 2 + c ^ 2 := Real.sq_sqrt (by positivity)

theorem rad3_pos {a b c : ℝ} (hc : c ≠ 0) : 0 < rad3 a b c := Real.sqrt_pos.mpr (by positivity)

theorem rad3_nonneg (a b c : ℝ) : 0 ≤ rad3 a b c := Real.sqrt_nonneg _

theorem rad3_swap (a b c : ℝ) : rad3 a b c = rad3 b a c := by unfold rad3; congr 1; ring

/-- with one other coordinate different from zero a coordinate is smaller than the distance -/
theorem rad3_gt {a b c : ℝ} (h : a ≠ 0 ∨ c ≠ 0) : 0 < b + rad3 a b c := by
  have : |b| < rad3 a b c := by
    unfold rad3
    apply Real.lt_sqrt_of_sq_lt
    rw [sq_abs]
    rcases h with h | h <;> · have := pow_pos (abs_pos.mpr h) 2; rw [sq_abs] at this; nlinarith [sq_nonneg a, sq_nonneg c]
  linarith [neg_abs_le b]

theorem rad3_deriv_fst {a b c : ℝ} (hc : c ≠ 0) : HasDerivAt (fun a => rad3 a b c) (a / rad3 a b c) a := by
  have h1 : HasDerivAt (fun a : ℝ => a ^ 2 + b ^ 2 + c ^ 2) (2 * a) a := by
    simpa using ((hasDerivAt_pow 2 a).add_const (b ^ 2)).add_const (c ^ 2)
  have h2 := h1.sqrt (by positivity)
  refine h2.congr_deriv ?_
  have := (rad3_pos (a := a) (b := b) hc).ne'
  show 2 * a / (2 * rad3 a b c) = _
  field_simp

theorem rad3_deriv_snd {a b c : ℝ} (hc : c ≠ 0) : HasDerivAt (fun b => rad3 a b c) (b / rad3 a b c) b := by
  have h := rad3_deriv_fst (a := b) (b := a) hc
  simpa only [rad3_swap _ a c] using h

theorem rad3_deriv_trd {a b c : ℝ} (hc : c ≠ 0) : HasDerivAt (fun c => rad3 a b c) (c / rad3 a b c) c := by
  have h1 : HasDerivAt (fun c : ℝ => a ^ 2 + b ^ 2 + c ^ 2) (2 * c) c := by
    simpa using (hasDerivAt_pow 2 c).const_add (a ^ 2 + b ^ 2)
  have h2 := h1.sqrt (by positivity)
  refine h2.congr_deriv ?_
  have := (rad3_pos (a := a) (b := b) hc).ne'
  show 2 * c / (2 * rad3 a b c) = _
  field_simp

/-- `d/da nagy = log (b + r) + a² / (a² + c²)` -/
theorem nagy_deriv_fst {a b c : ℝ} (hc : c ≠ 0) :
    HasDerivAt (fun a => nagy a b c) (Real.log (b + rad3 a b c) + a ^ 2 / (a ^ 2 + c ^ 2)) a := by
  have hr := rad3_pos (a := a) (b := b) hc
  have h1 : 0 < b + rad3 a b c := rad3_gt (.inr hc)
  have h2 : 0 < a + rad3 a b c := by rw [rad3_swap]; exact rad3_gt (.inr hc)
  have hd := rad3_deriv_fst (a := a) (b := b) hc
  have d1 := (hasDerivAt_id a).mul ((hd.const_add b).log h1.ne')
  have d2 := (((hasDerivAt_id a).add hd).log h2.ne').const_mul b
  have d3 := ((((hasDerivAt_id a).mul_const b).div (hd.const_mul c) (by positivity)).arctan).const_mul c
  have d := (d1.add d2).sub d3
  refine d.congr_deriv ?_
  have hsq := rad3_sq a b c
  set r := rad3 a b c with hrdef
  have hac : 0 < a ^ 2 + c ^ 2 := by positivity
  have hbc : 0 < b ^ 2 + c ^ 2 := by positivity
  show 1 * Real.log (b + r) + a * (a / r / (b + r)) + b * ((1 + a / r) / (a + r)) -
    c * (1 / (1 + (a * b / (c * r)) ^ 2) * ((1 * b * (c * r) - a * b * (c * (a / r))) / (c * r) ^ 2)) = _
  have e1 : (1 + (a * b / (c * r)) ^ 2) = (a ^ 2 + c ^ 2) * (b ^ 2 + c ^ 2) / (c * r) ^ 2 := by
    field_simp
    rw [hsq]; ring
  have e2 : a * (a / r / (b + r)) = a ^ 2 * (r - b) / (r * (a ^ 2 + c ^ 2)) := by
    have : a ^ 2 + c ^ 2 = (r - b) * (b + r) := by nlinarith
    rw [this]
    have h3 : r - b ≠ 0 := by intro h; rw [h] at this; nlinarith
    field_simp
  have e3 : b * ((1 + a / r) / (a + r)) = b / r := by
    field_simp
    ring
  have e4 : c * (1 / (1 + (a * b / (c * r)) ^ 2) * ((1 * b * (c * r) - a * b * (c * (a / r))) / (c * r) ^ 2)) = c ^ 2 * b / (r * (a ^ 2 + c ^ 2)) := by
    rw [e1]
    field_simp
    rw [hsq]; ring
  rw [e4, e3, e2]
  field_simp
  ring

theorem mul_pos_ne {c r : ℝ} (hc : c ≠ 0) (hr : 0 < r) : c * r ≠ 0 := mul_ne_zero hc hr.ne'

/-- `d/dc nagy = - arctan (ab / (cr)) + c a / (a² + c²) + c b / (b² + c²)` -/
theorem nagy_deriv_trd {a b c : ℝ} (hc : c ≠ 0) :
    HasDerivAt (fun c => nagy a b c) (-Real.arctan (a * b / (c * rad3 a b c)) + c * a / (a ^ 2 + c ^ 2) + c * b / (b ^ 2 + c ^ 2)) c := by
  have hr := rad3_pos (a := a) (b := b) hc
  have h1 : 0 < b + rad3 a b c := rad3_gt (.inr hc)
  have h2 : 0 < a + rad3 a b c := by rw [rad3_swap]; exact rad3_gt (.inr hc)
  have hd := rad3_deriv_trd (a := a) (b := b) hc
  have d1 := ((hd.const_add b).log h1.ne').const_mul a
  have d2 := ((hd.const_add a).log h2.ne').const_mul b
  have d3 := (hasDerivAt_id c).mul (((hasDerivAt_const c (a * b)).div ((hasDerivAt_id c).mul hd) (mul_pos_ne hc hr)).arctan)
  have d := (d1.add d2).sub d3
  refine d.congr_deriv ?_
  have hsq := rad3_sq a b c
  set r := rad3 a b c with hrdef
  have hac : 0 < a ^ 2 + c ^ 2 := by positivity
  have hbc : 0 < b ^ 2 + c ^ 2 := by positivity
  show a * (c / r / (b + r)) + b * (c / r / (a + r)) -
    (1 * Real.arctan (a * b / (c * r)) + c * (1 / (1 + (a * b / (c * r)) ^ 2) * ((0 * (c * r) - a * b * (1 * r + c * (c / r))) / (c * r) ^ 2))) = _
  have e1 : (1 + (a * b / (c * r)) ^ 2) = (a ^ 2 + c ^ 2) * (b ^ 2 + c ^ 2) / (c * r) ^ 2 := by
    field_simp
    rw [hsq]; ring
  have e2 : a * (c / r / (b + r)) = a * c * (r - b) / (r * (a ^ 2 + c ^ 2)) := by
    have : a ^ 2 + c ^ 2 = (r - b) * (b + r) := by nlinarith
    rw [this]
    have h3 : r - b ≠ 0 := by intro h; rw [h] at this; nlinarith
    field_simp
  have e3 : b * (c / r / (a + r)) = b * c * (r - a) / (r * (b ^ 2 + c ^ 2)) := by
    have : b ^ 2 + c ^ 2 = (r - a) * (a + r) := by nlinarith
    rw [this]
    have h3 : r - a ≠ 0 := by intro h; rw [h] at this; nlinarith
    field_simp
  have e4 : c * (1 / (1 + (a * b / (c * r)) ^ 2) * ((0 * (c * r) - a * b * (1 * r + c * (c / r))) / (c * r) ^ 2)) =
      -(c * a * b * (r ^ 2 + c ^ 2)) / (r * ((a ^ 2 + c ^ 2) * (b ^ 2 + c ^ 2))) := by
    rw [e1]
    field_simp
    ring
  rw [e4, e3, e2]
  have : ∀ X : ℝ, 1 * X = X := one_mul
  rw [this]
  field_simp
  rw [show r ^ 2 = a ^ 2 + b ^ 2 + c ^ 2 from hsq]
  ring

theorem rad3_continuous {α : Type} [TopologicalSpace α] {f g k : α → ℝ} (hf : Continuous f) (hg : Continuous g) (hk : Continuous k) :
    Continuous fun t => rad3 (f t) (g t) (k t) := by
  unfold rad3; fun_prop

/-- the integral of the reciprocal distance over a rectangle in a plane that does not pass through the station -/
theorem rect_integral {a1 a2 b1 b2 c : ℝ} (ha : a1 ≤ a2) (hb : b1 ≤ b2) (hc : c ≠ 0) :
    ∫ p in Icc a1 a2 ×ˢ Icc b1 b2, 1 / rad3 p.1 p.2 c = nagy a2 b2 c - nagy a1 b2 c - nagy a2 b1 c + nagy a1 b1 c := by
  have hcont : Continuous fun p : ℝ × ℝ => 1 / rad3 p.1 p.2 c :=
    continuous_const.div (rad3_continuous continuous_fst continuous_snd continuous_const) fun p => (rad3_pos hc).ne'
  have hi : IntegrableOn (fun p : ℝ × ℝ => 1 / rad3 p.1 p.2 c) (Icc a1 a2 ×ˢ Icc b1 b2) (volume.prod volume) := by
    rw [← Measure.volume_eq_prod]
    exact hcont.continuousOn.integrableOn_compact (isCompact_Icc.prod isCompact_Icc)
  rw [Measure.volume_eq_prod, setIntegral_prod _ hi]
  have inner : ∀ a : ℝ, ∫ b in Icc b1 b2, 1 / rad3 a b c = Real.log (b2 + rad3 a b2 c) - Real.log (b1 + rad3 a b1 c) := by
    intro a
    rw [integral_Icc_eq_integral_Ioc, ← intervalIntegral.integral_of_le hb]
    refine intervalIntegral.integral_eq_sub_of_hasDerivAt (f := fun b => Real.log (b + rad3 a b c)) (fun b _ => ?_) ?_
    · have h1 : 0 < b + rad3 a b c := rad3_gt (.inr hc)
      have hr := rad3_pos (a := a) (b := b) hc
      have := ((hasDerivAt_id b).add (rad3_deriv_snd (a := a) hc)).log h1.ne'
      refine this.congr_deriv ?_
      show (1 + b / rad3 a b c) / (b + rad3 a b c) = 1 / rad3 a b c
      field_simp
      ring
    · exact (continuous_const.div (rad3_continuous continuous_const continuous_id continuous_const) fun p => (rad3_pos hc).ne').intervalIntegrable _ _
  simp only [inner]
  rw [integral_Icc_eq_integral_Ioc, ← intervalIntegral.integral_of_le ha]
  have hlog : ∀ b, Continuous fun a => Real.log (b + rad3 a b c) := fun b =>
    (continuous_const.add (rad3_continuous continuous_id continuous_const continuous_const)).log fun a => (rad3_gt (.inr hc)).ne'
  have hder : ∀ a ∈ uIcc a1 a2, HasDerivAt (fun a => nagy a b2 c - nagy a b1 c) (Real.log (b2 + rad3 a b2 c) - Real.log (b1 + rad3 a b1 c)) a := by
    intro a _
    refine ((nagy_deriv_fst hc).sub (nagy_deriv_fst hc)).congr_deriv ?_
    ring
  refine (intervalIntegral.integral_eq_sub_of_hasDerivAt hder (((hlog b2).sub (hlog b1)).intervalIntegrable _ _)).trans ?_
  ring

theorem block_measurable (x1 x2 y1 y2 z1 z2 : ℝ) : MeasurableSet (block x1 x2 y1 y2 z1 z2) :=
  measurableSet_Icc.prod (measurableSet_Icc.prod measurableSet_Icc)

theorem block_compact (x1 x2 y1 y2 z1 z2 : ℝ) : IsCompact (block x1 x2 y1 y2 z1 z2) :=
  isCompact_Icc.prod (isCompact_Icc.prod isCompact_Icc)

theorem block_convex (x1 x2 y1 y2 z1 z2 : ℝ) : Convex ℝ (block x1 x2 y1 y2 z1 z2) :=
  (convex_Icc _ _).prod ((convex_Icc _ _).prod (convex_Icc _ _))

theorem block_decent (x1 x2 y1 y2 z1 z2 : ℝ) : Decent (block x1 x2 y1 y2 z1 z2) :=
  ⟨block_measurable .., (block_compact ..).isBounded, (block_convex ..).addHaar_frontier volume⟩

/-- the first component at the origin, for a block on one side -/
theorem block_side {x1 x2 y1 y2 z1 z2 : ℝ} (hx : x1 ≤ x2) (hy : y1 ≤ y2) (hz : z1 ≤ z2) (h0 : 0 < x1 ∨ x2 < 0) :
    (attraction (block x1 x2 y1 y2 z1 z2) V3.zeros).x = -corners (fun x y z => nagy y z x) x1 x2 y1 y2 z1 z2 := by
  have hne : ∀ x ∈ Icc x1 x2, x ≠ 0 := by
    rintro x ⟨h1, h2⟩ rfl
    rcases h0 with h | h <;> linarith
  have hd : ∀ q : P3, dist3 q V3.zeros = rad3 q.2.1 q.2.2 q.1 := by
    intro q; unfold dist3 rad3; congr 1; simp; ring
  have hcont : ContinuousOn (fun q : P3 => q.1 / rad3 q.2.1 q.2.2 q.1 ^ 3) (block x1 x2 y1 y2 z1 z2) := by
    refine ContinuousOn.div continuousOn_fst ((rad3_continuous (by fun_prop) (by fun_prop) (by fun_prop)).pow 3).continuousOn fun q hq => ?_
    exact pow_ne_zero _ (rad3_pos (hne _ hq.1)).ne'
  have hi := hcont.integrableOn_compact (block_compact x1 x2 y1 y2 z1 z2) (μ := volume)
  unfold attraction
  simp only [zeros_x, sub_zero, hd]
  unfold block at hi ⊢
  rw [IntegrableOn, Measure.volume_eq_prod, ← Measure.prod_restrict] at hi
  rw [Measure.volume_eq_prod, ← Measure.prod_restrict, integral_prod_symm _ hi]
  have inner : ∀ p : ℝ × ℝ, ∫ x in Icc x1 x2, x / rad3 p.1 p.2 x ^ 3 = 1 / rad3 p.1 p.2 x1 - 1 / rad3 p.1 p.2 x2 := by
    intro p
    rw [integral_Icc_eq_integral_Ioc, ← intervalIntegral.integral_of_le hx]
    refine (intervalIntegral.integral_eq_sub_of_hasDerivAt (f := fun x => -(rad3 p.1 p.2 x)⁻¹) (fun x hx' => ?_) ?_).trans ?_
    · rw [uIcc_of_le hx] at hx'
      have hr := rad3_pos (a := p.1) (b := p.2) (hne x hx')
      refine ((rad3_deriv_trd (hne x hx')).inv hr.ne').neg.congr_deriv ?_
      field_simp
    · refine ContinuousOn.intervalIntegrable ?_
      rw [uIcc_of_le hx]
      refine ContinuousOn.div continuousOn_id ((rad3_continuous continuous_const continuous_const continuous_id).pow 3).continuousOn fun x hx' => ?_
      exact pow_ne_zero _ (rad3_pos (hne _ hx')).ne'
    · rw [one_div, one_div]; ring
  simp only [inner]
  have h1 := hne x1 ⟨le_rfl, hx⟩
  have h2 := hne x2 ⟨hx, le_rfl⟩
  have hint : ∀ c : ℝ, c ≠ 0 → IntegrableOn (fun p : ℝ × ℝ => 1 / rad3 p.1 p.2 c) (Icc y1 y2 ×ˢ Icc z1 z2) := fun c hc =>
    (continuous_const.div (rad3_continuous continuous_fst continuous_snd continuous_const) fun p => (rad3_pos hc).ne').continuousOn.integrableOn_compact
      (isCompact_Icc.prod isCompact_Icc)
  rw [integral_sub (hint x1 h1) (hint x2 h2), rect_integral hy hz h1, rect_integral hy hz h2]
  unfold corners
  ring

/-- moving the station is moving the block -/
theorem block_moved {R : M3 ℝ} (hR : IsOrthogonal R) (t e : V3 ℝ) {B B' : Set P3} (hB : Decent B) (hB' : Decent B')
    (hm : similarMap 1 R t '' B = B') : rdot (attraction B' t) e = rdot (attraction B V3.zeros) (R.tapply e) := by
  have hs : similar 1 R t V3.zeros = t := by
    unfold similar; refine V3.ext' ?_ ?_ ?_ <;> simp [M3.apply, rdot]
  have := attraction_moved hB hR t V3.zeros e (by rw [hm]; exact hB')
  rwa [hm, hs] at this

/-- Nagy's function is a continuous function of the coordinate in the direction of the component -/
theorem nagy_continuous (a b : ℝ) : Continuous fun c => nagy a b c := by
  have hr : Continuous fun c => rad3 a b c := rad3_continuous continuous_const continuous_const continuous_id
  have key : ∀ a b : ℝ, Continuous fun c => a * Real.log (b + rad3 a b c) := by
    intro a b
    by_cases ha : a = 0
    · simp only [ha, zero_mul]; exact continuous_const
    · exact continuous_const.mul ((continuous_const.add (rad3_continuous continuous_const continuous_const continuous_id)).log
        fun c => (rad3_gt (.inl ha)).ne')
  have h1 := key a b
  have h2 := key b a
  simp only [rad3_swap b a] at h2
  refine (h1.add h2).sub ?_
  rw [continuous_iff_continuousAt]
  intro c
  by_cases hc : c = 0
  · subst hc
    rw [ContinuousAt, zero_mul]
    refine squeeze_zero_norm (a := fun c : ℝ => |c| * (Real.pi / 2)) (fun c => ?_) ?_
    · rw [Real.norm_eq_abs, abs_mul]
      refine mul_le_mul_of_nonneg_left ?_ (abs_nonneg c)
      rw [abs_le]
      exact ⟨(Real.neg_pi_div_two_lt_arctan _).le, (Real.arctan_lt_pi_div_two _).le⟩
    · have : Continuous fun c : ℝ => |c| * (Real.pi / 2) := by fun_prop
      simpa using this.tendsto 0
  · refine continuousAt_id.mul (Real.continuous_arctan.continuousAt.comp ?_)
    exact continuousAt_const.div (continuousAt_id.mul hr.continuousAt) (mul_pos_ne hc (rad3_pos hc))

theorem corners_shift (F : ℝ → ℝ → ℝ → ℝ) (h : ∀ a b, Continuous fun c => F c a b) (x1 x2 y1 y2 z1 z2 : ℝ) :
    Continuous fun t => corners F (x1 - t) (x2 - t) y1 y2 z1 z2 := by
  have k : ∀ a b x, Continuous fun t => F (x - t) a b := fun a b x => (h a b).comp (continuous_const.sub continuous_id)
  unfold corners
  exact (((((k _ _ _).sub (k _ _ _)).sub (k _ _ _)).add (k _ _ _))).sub ((((k _ _ _).sub (k _ _ _)).sub (k _ _ _)).add (k _ _ _))

/-- the identity, and the cyclic permutations of the axes -/
def axes0 : M3 ℝ := ⟨⟨1, 0, 0⟩, ⟨0, 1, 0⟩, ⟨0, 0, 1⟩⟩
def axes1 : M3 ℝ := ⟨⟨0, 0, 1⟩, ⟨1, 0, 0⟩, ⟨0, 1, 0⟩⟩
def axes2 : M3 ℝ := ⟨⟨0, 1, 0⟩, ⟨0, 0, 1⟩, ⟨1, 0, 0⟩⟩

theorem axes0_ok : IsOrthogonal axes0 := by constructor <;> simp [axes0, rdot]
theorem axes1_ok : IsOrthogonal axes1 := by constructor <;> simp [axes1, rdot]
theorem axes2_ok : IsOrthogonal axes2 := by constructor <;> simp [axes2, rdot]

theorem block_axes0 (x1 x2 y1 y2 z1 z2 : ℝ) (s : V3 ℝ) :
    similarMap 1 axes0 s '' block (x1 - s.x) (x2 - s.x) (y1 - s.y) (y2 - s.y) (z1 - s.z) (z2 - s.z) = block x1 x2 y1 y2 z1 z2 := by
  ext ⟨a, b, c⟩
  constructor
  · rintro ⟨⟨u, v, w⟩, ⟨⟨h1, h2⟩, ⟨h3, h4⟩, h5, h6⟩, hq⟩
    simp [similarMap, similar, M3.apply, axes0, rdot, P3.toV, V3.toP] at hq h1 h2 h3 h4 h5 h6
    obtain ⟨rfl, rfl, rfl⟩ := hq
    exact ⟨⟨by linarith, by linarith⟩, ⟨by linarith, by linarith⟩, by show z1 ≤ w + s.z; linarith, by show w + s.z ≤ z2; linarith⟩
  · rintro ⟨⟨h1, h2⟩, ⟨h3, h4⟩, h5, h6⟩
    simp only at h1 h2 h3 h4 h5 h6
    refine ⟨(a - s.x, b - s.y, c - s.z), ⟨⟨by simpa using h1, by simpa using h2⟩, ⟨by simpa using h3, by simpa using h4⟩, by simpa using h5, by simpa using h6⟩, ?_⟩
    simp [similarMap, similar, M3.apply, axes0, rdot, P3.toV, V3.toP]

theorem block_axes1 (x1 x2 y1 y2 z1 z2 : ℝ) :
    similarMap 1 axes1 V3.zeros '' block y1 y2 z1 z2 x1 x2 = block x1 x2 y1 y2 z1 z2 := by
  ext ⟨a, b, c⟩
  constructor
  · rintro ⟨⟨u, v, w⟩, ⟨⟨h1, h2⟩, ⟨h3, h4⟩, h5, h6⟩, hq⟩
    simp [similarMap, similar, M3.apply, axes1, rdot, P3.toV, V3.toP] at hq h1 h2 h3 h4 h5 h6
    obtain ⟨rfl, rfl, rfl⟩ := hq
    exact ⟨⟨h5, h6⟩, ⟨h1, h2⟩, h3, h4⟩
  · rintro ⟨⟨h1, h2⟩, ⟨h3, h4⟩, h5, h6⟩
    refine ⟨(b, c, a), ⟨⟨h3, h4⟩, ⟨h5, h6⟩, h1, h2⟩, ?_⟩
    simp [similarMap, similar, M3.apply, axes1, rdot, P3.toV, V3.toP]

theorem block_axes2 (x1 x2 y1 y2 z1 z2 : ℝ) :
    similarMap 1 axes2 V3.zeros '' block z1 z2 x1 x2 y1 y2 = block x1 x2 y1 y2 z1 z2 := by
  ext ⟨a, b, c⟩
  constructor
  · rintro ⟨⟨u, v, w⟩, ⟨⟨h1, h2⟩, ⟨h3, h4⟩, h5, h6⟩, hq⟩
    simp [similarMap, similar, M3.apply, axes2, rdot, P3.toV, V3.toP] at hq h1 h2 h3 h4 h5 h6
    obtain ⟨rfl, rfl, rfl⟩ := hq
    exact ⟨⟨h3, h4⟩, ⟨h5, h6⟩, h1, h2⟩
  · rintro ⟨⟨h1, h2⟩, ⟨h3, h4⟩, h5, h6⟩
    refine ⟨(c, a, b), ⟨⟨h5, h6⟩, ⟨h1, h2⟩, h3, h4⟩, ?_⟩
    simp [similarMap, similar, M3.apply, axes2, rdot, P3.toV, V3.toP]

/-- the first component, for a block on one side of the station -/
theorem block_side_at {x1 x2 y1 y2 z1 z2 : ℝ} {s : V3 ℝ} (hx : x1 ≤ x2) (hy : y1 ≤ y2) (hz : z1 ≤ z2) (h0 : s.x < x1 ∨ x2 < s.x) :
    (attraction (block x1 x2 y1 y2 z1 z2) s).x =
      -corners (fun x y z => nagy y z x) (x1 - s.x) (x2 - s.x) (y1 - s.y) (y2 - s.y) (z1 - s.z) (z2 - s.z) := by
  have h := block_moved axes0_ok s ⟨1, 0, 0⟩ (block_decent ..) (block_decent ..) (block_axes0 x1 x2 y1 y2 z1 z2 s)
  have e : axes0.tapply ⟨1, 0, 0⟩ = ⟨1, 0, 0⟩ := by refine V3.ext' ?_ ?_ ?_ <;> simp [axes0, M3.tapply]
  rw [e] at h
  rw [← block_side (by linarith) (by linarith) (by linarith) (by rcases h0 with h | h; · left; linarith
                                                                 · right; linarith)]
  simpa [rdot] using h

/-- also if the station is in the plane of a face -/
theorem block_closed_side {x1 x2 y1 y2 z1 z2 : ℝ} {s : V3 ℝ} (hx : x1 ≤ x2) (hy : y1 ≤ y2) (hz : z1 ≤ z2) (h0 : s.x ≤ x1 ∨ x2 ≤ s.x) :
    (attraction (block x1 x2 y1 y2 z1 z2) s).x =
      -corners (fun x y z => nagy y z x) (x1 - s.x) (x2 - s.x) (y1 - s.y) (y2 - s.y) (z1 - s.z) (z2 - s.z) := by
  have hf : Continuous fun t : ℝ => (attraction (block x1 x2 y1 y2 z1 z2) ⟨t, s.y, s.z⟩).x := by
    have h := attraction_continuous (block_decent x1 x2 y1 y2 z1 z2) ⟨0, s.y, s.z⟩ ⟨1, 0, 0⟩ ⟨1, 0, 0⟩
    refine h.congr fun t => ?_
    have : (⟨0, s.y, s.z⟩ : V3 ℝ).add (V3.smul t ⟨1, 0, 0⟩) = ⟨t, s.y, s.z⟩ := by refine V3.ext' ?_ ?_ ?_ <;> simp
    rw [this]; simp [rdot]
  have hg := (corners_shift (fun x y z => nagy y z x) nagy_continuous x1 x2 (y1 - s.y) (y2 - s.y) (z1 - s.z) (z2 - s.z)).neg
  rcases h0 with h | h
  · have heq : EqOn (fun t : ℝ => (attraction (block x1 x2 y1 y2 z1 z2) ⟨t, s.y, s.z⟩).x)
        (fun t => -corners (fun x y z => nagy y z x) (x1 - t) (x2 - t) (y1 - s.y) (y2 - s.y) (z1 - s.z) (z2 - s.z)) (Iio x1) :=
      fun t ht => block_side_at (s := ⟨t, s.y, s.z⟩) hx hy hz (.inl ht)
    have := heq.closure hf hg
    rw [closure_Iio] at this
    exact this h
  · have heq : EqOn (fun t : ℝ => (attraction (block x1 x2 y1 y2 z1 z2) ⟨t, s.y, s.z⟩).x)
        (fun t => -corners (fun x y z => nagy y z x) (x1 - t) (x2 - t) (y1 - s.y) (y2 - s.y) (z1 - s.z) (z2 - s.z)) (Ioi x2) :=
      fun t ht => block_side_at (s := ⟨t, s.y, s.z⟩) hx hy hz (.inr ht)
    have := heq.closure hf hg
    rw [closure_Ioi] at this
    exact this h

/-- **Nagy's formula**, first component, for every station -/
theorem block_attraction_x {x1 x2 y1 y2 z1 z2 : ℝ} (hx : x1 ≤ x2) (hy : y1 ≤ y2) (hz : z1 ≤ z2) (s : V3 ℝ) :
    (attraction (block x1 x2 y1 y2 z1 z2) s).x =
      -corners (fun x y z => nagy y z x) (x1 - s.x) (x2 - s.x) (y1 - s.y) (y2 - s.y) (z1 - s.z) (z2 - s.z) := by
  by_cases h0 : s.x ≤ x1 ∨ x2 ≤ s.x
  · exact block_closed_side hx hy hz h0
  · rw [not_or, not_le, not_le] at h0
    obtain ⟨h1, h2⟩ := h0
    have hsplit : block x1 x2 y1 y2 z1 z2 = block x1 s.x y1 y2 z1 z2 ∪ block s.x x2 y1 y2 z1 z2 := by
      unfold block
      rw [← union_prod, Icc_union_Icc_eq_Icc h1.le h2.le]
    have hdis : AEDisjoint volume (block x1 s.x y1 y2 z1 z2) (block s.x x2 y1 y2 z1 z2) := by
      refine measure_mono_null (t := ({s.x} : Set ℝ) ×ˢ (univ : Set (ℝ × ℝ))) ?_ ?_
      · rintro q ⟨hq1, hq2⟩
        exact ⟨le_antisymm hq1.1.2 hq2.1.1, trivial⟩
      · rw [Measure.volume_eq_prod, Measure.prod_prod]; simp
    have hi : ∀ a b : ℝ, IntegrableOn (fun q : P3 => (q.1 - s.x) / dist3 q s ^ 3) (block a b y1 y2 z1 z2) := by
      intro a b
      have := kernel_integrable (block_decent a b y1 y2 z1 z2).meas (block_decent a b y1 y2 z1 z2).bdd (pull_meas (1, 0, 0)) (pull_le (1, 0, 0)) s.toP
      refine this.congr_fun (fun q _ => ?_) (block_decent a b y1 y2 z1 z2).meas
      simp [pull, dist3_eq_rad, V3.toP]
    have e1 := block_closed_side (x1 := x1) (x2 := s.x) (s := s) h1.le hy hz (.inr le_rfl)
    have e2 := block_closed_side (x1 := s.x) (x2 := x2) (s := s) h2.le hy hz (.inl le_rfl)
    have e3 : (attraction (block x1 x2 y1 y2 z1 z2) s).x = (attraction (block x1 s.x y1 y2 z1 z2) s).x + (attraction (block s.x x2 y1 y2 z1 z2) s).x := by
      unfold attraction
      simp only
      rw [hsplit]
      exact setIntegral_union₀ hdis (block_measurable ..).nullMeasurableSet (hi _ _) (hi _ _)
    rw [e3, e1, e2]
    unfold corners
    ring

/-- **Nagy's formula** -/
theorem block_attraction {x1 x2 y1 y2 z1 z2 : ℝ} (hx : x1 ≤ x2) (hy : y1 ≤ y2) (hz : z1 ≤ z2) (s : V3 ℝ) :
    attraction (block x1 x2 y1 y2 z1 z2) s =
      ⟨-corners (fun x y z => nagy y z x) (x1 - s.x) (x2 - s.x) (y1 - s.y) (y2 - s.y) (z1 - s.z) (z2 - s.z),
       -corners (fun x y z => nagy z x y) (x1 - s.x) (x2 - s.x) (y1 - s.y) (y2 - s.y) (z1 - s.z) (z2 - s.z),
       -corners (fun x y z => nagy x y z) (x1 - s.x) (x2 - s.x) (y1 - s.y) (y2 - s.y) (z1 - s.z) (z2 - s.z)⟩ := by
  refine V3.ext' (block_attraction_x hx hy hz s) ?_ ?_
  · have hm := block_axes1 x1 x2 y1 y2 z1 z2
    have key := attraction_moved (block_decent y1 y2 z1 z2 x1 x2) axes1_ok V3.zeros ⟨s.y, s.z, s.x⟩ ⟨0, 1, 0⟩ (by rw [hm]; exact block_decent ..)
    have e1 : similar 1 axes1 V3.zeros ⟨s.y, s.z, s.x⟩ = s := by refine V3.ext' ?_ ?_ ?_ <;> simp [similar, axes1, M3.apply, rdot]
    have e2 : axes1.tapply ⟨0, 1, 0⟩ = ⟨1, 0, 0⟩ := by refine V3.ext' ?_ ?_ ?_ <;> simp [axes1, M3.tapply]
    rw [hm, e1, e2] at key
    simp only [rdot, mul_zero, mul_one, add_zero, zero_add] at key
    rw [key, block_attraction_x hy hz hx]
    unfold corners; ring
  · have hm := block_axes2 x1 x2 y1 y2 z1 z2
    have key := attraction_moved (block_decent z1 z2 x1 x2 y1 y2) axes2_ok V3.zeros ⟨s.z, s.x, s.y⟩ ⟨0, 0, 1⟩ (by rw [hm]; exact block_decent ..)
    have e1 : similar 1 axes2 V3.zeros ⟨s.z, s.x, s.y⟩ = s := by refine V3.ext' ?_ ?_ ?_ <;> simp [similar, axes2, M3.apply, rdot]
    have e2 : axes2.tapply ⟨0, 0, 1⟩ = ⟨1, 0, 0⟩ := by refine V3.ext' ?_ ?_ ?_ <;> simp [axes2, M3.tapply]
    rw [hm, e1, e2] at key
    simp only [rdot, mul_zero, mul_one, add_zero, zero_add] at key
    rw [key, block_attraction_x hz hx hy]
    unfold corners; ring

end
end Geec
