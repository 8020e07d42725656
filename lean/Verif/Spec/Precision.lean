import Verif.Model.RealArith
import Verif.Lemmas.RealV3
import Mathlib.Order.Filter.Basic
import Mathlib.Analysis.SpecialFunctions.Trigonometric.Bounds
/-
Arithmetics on the real numbers that are accurate to a given tolerance: what is asked of floating point numbers when the
limit of increasing precision is taken.
-/
namespace Geec
noncomputable section

/-- all components of size at most `1 / u` -/
def InBox (u : ℝ) (v : V3 ℝ) : Prop := |v.x| ≤ 1 / u ∧ |v.y| ≤ 1 / u ∧ |v.z| ≤ 1 / u

/-- The arithmetic `A` is accurate to `u`: on numbers of size at most `1 / u` (and not closer than `u` to zero where division, square
root or logarithm break down) every operation has an absolute error of at most `u`, and comparisons are right for numbers that
differ by at least `u`.  Nothing is asked for larger numbers (overflow) or about the way numbers are rounded; only
`a == a` has to hold. -/
structure Accurate (A : Arith ℝ) (u : ℝ) : Prop where
  zero : |A.zero - 0| ≤ u
  one : |A.one - 1| ≤ u
  two : |A.two - 2| ≤ u
  negOne : |A.negOne - (-1)| ≤ u
  pi : |A.pi - Real.pi| ≤ u
  eps : |A.eps - repsilon| ≤ u
  k1e5 : |A.k1e5 - 100000| ≤ u
  k1e4 : |A.k1e4 - 10000| ≤ u
  ofNat : ∀ n : Nat, (n : ℝ) ≤ 1 / u → |A.ofNat n - n| ≤ u
  add : ∀ a b, |a| ≤ 1 / u → |b| ≤ 1 / u → |A.add a b - (a + b)| ≤ u
  sub : ∀ a b, |a| ≤ 1 / u → |b| ≤ 1 / u → |A.sub a b - (a - b)| ≤ u
  mul : ∀ a b, |a| ≤ 1 / u → |b| ≤ 1 / u → |A.mul a b - a * b| ≤ u
  div : ∀ a b, |a| ≤ 1 / u → u ≤ |b| → |b| ≤ 1 / u → |A.div a b - a / b| ≤ u
  neg : ∀ a, |a| ≤ 1 / u → |A.neg a - -a| ≤ u
  abs : ∀ a, |a| ≤ 1 / u → |A.abs a - (|a|)| ≤ u
  sqrt : ∀ a, u ≤ a → a ≤ 1 / u → |A.sqrt a - Real.sqrt a| ≤ u
  log : ∀ a, u ≤ a → a ≤ 1 / u → |A.log a - Real.log a| ≤ u
  acos : ∀ a, |a| ≤ 1 - u → |A.acos a - Real.arccos a| ≤ u
  lt_true : ∀ a b, |a| ≤ 1 / u → |b| ≤ 1 / u → a + u ≤ b → A.lt a b = true
  lt_false : ∀ a b, |a| ≤ 1 / u → |b| ≤ 1 / u → b + u ≤ a → A.lt a b = false
  eq_refl : ∀ a, A.eq a a = true
  eq_false : ∀ a b, |a| ≤ 1 / u → |b| ≤ 1 / u → u ≤ |a - b| → A.eq a b = false
  dot : ∀ v w : V3 ℝ, InBox u v → InBox u w → |A.dot v w - rdot v w| ≤ u
  mdot : ∀ v w : V3 ℝ, InBox u v → InBox u w → |A.mdot v w - rdot v w| ≤ u
  norm : ∀ v : V3 ℝ, InBox u v → |A.norm v - Real.sqrt (rdot v v)| ≤ u
  mnorm : ∀ v : V3 ℝ, InBox u v → |A.mnorm v - Real.sqrt (rdot v v)| ≤ u

/-- accuracy is a matter of degree -/
theorem Accurate.mono {A : Arith ℝ} {u v : ℝ} (hu : 0 < u) (huv : u ≤ v) (h : Accurate A u) : Accurate A v := by
  have hb : 1 / v ≤ 1 / u := one_div_le_one_div_of_le hu huv
  have bx : ∀ w : V3 ℝ, InBox v w → InBox u w := fun w hw => ⟨hw.1.trans hb, hw.2.1.trans hb, hw.2.2.trans hb⟩
  exact
  { zero := h.zero.trans huv, one := h.one.trans huv, two := h.two.trans huv, negOne := h.negOne.trans huv
    pi := h.pi.trans huv, eps := h.eps.trans huv, k1e5 := h.k1e5.trans huv, k1e4 := h.k1e4.trans huv
    ofNat := fun n hn => (h.ofNat n (hn.trans hb)).trans huv
    add := fun a b ha hb' => (h.add a b (ha.trans hb) (hb'.trans hb)).trans huv
    sub := fun a b ha hb' => (h.sub a b (ha.trans hb) (hb'.trans hb)).trans huv
    mul := fun a b ha hb' => (h.mul a b (ha.trans hb) (hb'.trans hb)).trans huv
    div := fun a b ha h0 hb' => (h.div a b (ha.trans hb) (huv.trans h0) (hb'.trans hb)).trans huv
    neg := fun a ha => (h.neg a (ha.trans hb)).trans huv
    abs := fun a ha => (h.abs a (ha.trans hb)).trans huv
    sqrt := fun a h0 ha => (h.sqrt a (huv.trans h0) (ha.trans hb)).trans huv
    log := fun a h0 ha => (h.log a (huv.trans h0) (ha.trans hb)).trans huv
    acos := fun a ha => (h.acos a (by linarith)).trans huv
    lt_true := fun a b ha hb' hab => h.lt_true a b (ha.trans hb) (hb'.trans hb) (by linarith)
    lt_false := fun a b ha hb' hab => h.lt_false a b (ha.trans hb) (hb'.trans hb) (by linarith)
    eq_refl := h.eq_refl
    eq_false := fun a b ha hb' hab => h.eq_false a b (ha.trans hb) (hb'.trans hb) (huv.trans hab)
    dot := fun a b ha hb' => (h.dot a b (bx a ha) (bx b hb')).trans huv
    mdot := fun a b ha hb' => (h.mdot a b (bx a ha) (bx b hb')).trans huv
    norm := fun a ha => (h.norm a (bx a ha)).trans huv
    mnorm := fun a ha => (h.mnorm a (bx a ha)).trans huv }

/-- all components of size at most `M` -/
def SizeLe (M : ℝ) (v : V3 ℝ) : Prop := |v.x| ≤ M ∧ |v.y| ≤ M ∧ |v.z| ≤ M

/-- The arithmetic `A` is accurate to `u` on numbers of size at most `M`: as `Accurate`, but with the size `M` of the numbers (and the distance `1 / M` from
zero, from `±1` for the arccosine, and between numbers that are compared) chosen independently of the accuracy `u`. -/
structure AccurateOn (A : Arith ℝ) (M u : ℝ) : Prop where
  zero : |A.zero - 0| ≤ u
  one : |A.one - 1| ≤ u
  two : |A.two - 2| ≤ u
  negOne : |A.negOne - (-1)| ≤ u
  pi : |A.pi - Real.pi| ≤ u
  eps : |A.eps - repsilon| ≤ u
  k1e5 : |A.k1e5 - 100000| ≤ u
  k1e4 : |A.k1e4 - 10000| ≤ u
  ofNat : ∀ n : Nat, (n : ℝ) ≤ M → |A.ofNat n - n| ≤ u
  add : ∀ a b, |a| ≤ M → |b| ≤ M → |A.add a b - (a + b)| ≤ u
  sub : ∀ a b, |a| ≤ M → |b| ≤ M → |A.sub a b - (a - b)| ≤ u
  mul : ∀ a b, |a| ≤ M → |b| ≤ M → |A.mul a b - a * b| ≤ u
  div : ∀ a b, |a| ≤ M → 1 / M ≤ |b| → |b| ≤ M → |A.div a b - a / b| ≤ u
  neg : ∀ a, |a| ≤ M → |A.neg a - -a| ≤ u
  abs : ∀ a, |a| ≤ M → |A.abs a - (|a|)| ≤ u
  sqrt : ∀ a, 1 / M ≤ a → a ≤ M → |A.sqrt a - Real.sqrt a| ≤ u
  log : ∀ a, 1 / M ≤ a → a ≤ M → |A.log a - Real.log a| ≤ u
  acos : ∀ a, |a| ≤ 1 - 1 / M → |A.acos a - Real.arccos a| ≤ u
  lt_true : ∀ a b, |a| ≤ M → |b| ≤ M → a + 1 / M ≤ b → A.lt a b = true
  lt_false : ∀ a b, |a| ≤ M → |b| ≤ M → b + 1 / M ≤ a → A.lt a b = false
  eq_refl : ∀ a, A.eq a a = true
  eq_false : ∀ a b, |a| ≤ M → |b| ≤ M → 1 / M ≤ |a - b| → A.eq a b = false
  dot : ∀ v w : V3 ℝ, SizeLe M v → SizeLe M w → |A.dot v w - rdot v w| ≤ u
  mdot : ∀ v w : V3 ℝ, SizeLe M v → SizeLe M w → |A.mdot v w - rdot v w| ≤ u
  norm : ∀ v : V3 ℝ, SizeLe M v → |A.norm v - Real.sqrt (rdot v v)| ≤ u
  mnorm : ∀ v : V3 ℝ, SizeLe M v → |A.mnorm v - Real.sqrt (rdot v v)| ≤ u

theorem AccurateOn.mono {A : Arith ℝ} {M N u v : ℝ} (hN : 0 < N) (hNM : N ≤ M) (huv : u ≤ v) (h : AccurateOn A M u) : AccurateOn A N v := by
  have hb : 1 / M ≤ 1 / N := one_div_le_one_div_of_le hN hNM
  have bx : ∀ w : V3 ℝ, SizeLe N w → SizeLe M w := fun w hw => ⟨hw.1.trans hNM, hw.2.1.trans hNM, hw.2.2.trans hNM⟩
  exact
  { zero := h.zero.trans huv, one := h.one.trans huv, two := h.two.trans huv, negOne := h.negOne.trans huv
    pi := h.pi.trans huv, eps := h.eps.trans huv, k1e5 := h.k1e5.trans huv, k1e4 := h.k1e4.trans huv
    ofNat := fun n hn => (h.ofNat n (hn.trans hNM)).trans huv
    add := fun a b ha hb' => (h.add a b (ha.trans hNM) (hb'.trans hNM)).trans huv
    sub := fun a b ha hb' => (h.sub a b (ha.trans hNM) (hb'.trans hNM)).trans huv
    mul := fun a b ha hb' => (h.mul a b (ha.trans hNM) (hb'.trans hNM)).trans huv
    div := fun a b ha h0 hb' => (h.div a b (ha.trans hNM) (hb.trans h0) (hb'.trans hNM)).trans huv
    neg := fun a ha => (h.neg a (ha.trans hNM)).trans huv
    abs := fun a ha => (h.abs a (ha.trans hNM)).trans huv
    sqrt := fun a h0 ha => (h.sqrt a (hb.trans h0) (ha.trans hNM)).trans huv
    log := fun a h0 ha => (h.log a (hb.trans h0) (ha.trans hNM)).trans huv
    acos := fun a ha => (h.acos a (by linarith)).trans huv
    lt_true := fun a b ha hb' hab => h.lt_true a b (ha.trans hNM) (hb'.trans hNM) (by linarith)
    lt_false := fun a b ha hb' hab => h.lt_false a b (ha.trans hNM) (hb'.trans hNM) (by linarith)
    eq_refl := h.eq_refl
    eq_false := fun a b ha hb' hab => h.eq_false a b (ha.trans hNM) (hb'.trans hNM) (hb.trans hab)
    dot := fun a b ha hb' => (h.dot a b (bx a ha) (bx b hb')).trans huv
    mdot := fun a b ha hb' => (h.mdot a b (bx a ha) (bx b hb')).trans huv
    norm := fun a ha => (h.norm a (bx a ha)).trans huv
    mnorm := fun a ha => (h.mnorm a (bx a ha)).trans huv }

/-- `Accurate A u` is the case of the size `1 / u` -/
theorem accurate_iff {A : Arith ℝ} {u : ℝ} : Accurate A u ↔ AccurateOn A (1 / u) u := by
  constructor
  · intro h
    constructor <;> try simp only [one_div_one_div]
    exacts [h.zero, h.one, h.two, h.negOne, h.pi, h.eps, h.k1e5, h.k1e4, h.ofNat, h.add, h.sub, h.mul, h.div, h.neg, h.abs, h.sqrt, h.log, h.acos,
      h.lt_true, h.lt_false, h.eq_refl, h.eq_false, h.dot, h.mdot, h.norm, h.mnorm]
  · intro h
    constructor
    exacts [h.zero, h.one, h.two, h.negOne, h.pi, h.eps, h.k1e5, h.k1e4, h.ofNat, h.add, h.sub, h.mul, by simpa only [one_div_one_div] using h.div, h.neg, h.abs, by simpa only [one_div_one_div] using h.sqrt, by simpa only [one_div_one_div] using h.log, by simpa only [one_div_one_div] using h.acos,
      by simpa only [one_div_one_div] using h.lt_true, by simpa only [one_div_one_div] using h.lt_false, h.eq_refl, by simpa only [one_div_one_div] using h.eq_false, h.dot, h.mdot, h.norm, h.mnorm]

/-- A way to round that is applied to the result of every operation and to every constant. -/
@[reducible] def roundArith (rnd : ℝ → ℝ) : Arith ℝ where
  zero := rnd 0
  one := rnd 1
  two := rnd 2
  negOne := rnd (-1)
  pi := rnd Real.pi
  eps := rnd repsilon
  k1e5 := rnd 100000
  k1e4 := rnd 10000
  ofNat := fun n => rnd n
  add := fun a b => rnd (a + b)
  sub := fun a b => rnd (a - b)
  mul := fun a b => rnd (a * b)
  div := fun a b => rnd (a / b)
  neg := fun a => rnd (-a)
  abs := fun a => rnd |a|
  sqrt := fun a => rnd (Real.sqrt a)
  log := fun a => rnd (Real.log a)
  acos := fun a => rnd (Real.arccos a)
  lt := realArith.lt
  eq := realArith.eq
  dot := fun v w => rnd (rdot v w)
  mdot := fun v w => rnd (rdot v w)
  norm := fun v => rnd (Real.sqrt (rdot v v))
  mnorm := fun v => rnd (Real.sqrt (rdot v v))

/-- rounding with an absolute error of at most `u` (fixed point numbers) is accurate to `u` -/
theorem accurate_fixed {rnd : ℝ → ℝ} {u : ℝ} (hu : 0 < u) (h : ∀ a, |rnd a - a| ≤ u) : Accurate (roundArith rnd) u := by
  constructor <;> intros <;> first | exact h _ | skip
  · exact decide_eq_true (by linarith)
  · exact decide_eq_false (by linarith)
  · exact decide_eq_true rfl
  · refine decide_eq_false ?_
    rintro rfl
    rename_i h1
    rw [sub_self, abs_zero] at h1
    linarith

/-- rounding with an absolute error of at most `u` for numbers of size at most `3 v²` -/
theorem accurateOn_rounded {rnd : ℝ → ℝ} {v u : ℝ} (hv : 200 ≤ v) (key : ∀ a, |a| ≤ 3 * v ^ 2 → |rnd a - a| ≤ u) : AccurateOn (roundArith rnd) v u := by
  have hv0 : 0 < v := by linarith
  have huv : ∀ x, 1 / v ≤ x → 1 / x ≤ v := fun x hx => by
    have := one_div_le_one_div_of_le (one_div_pos.mpr hv0) hx
    rwa [one_div_one_div] at this
  have hv2 : 200 * v ≤ v ^ 2 := by nlinarith
  have hdot : ∀ a b : V3 ℝ, SizeLe v a → SizeLe v b → |rdot a b| ≤ 3 * v ^ 2 := by
    intro a b ha hb
    have m : ∀ x y : ℝ, |x| ≤ v → |y| ≤ v → |x * y| ≤ v ^ 2 := by
      intro x y hx hy; rw [abs_mul, pow_two]; exact mul_le_mul hx hy (abs_nonneg _) (by linarith)
    have h1 := m _ _ ha.1 hb.1
    have h2 := m _ _ ha.2.1 hb.2.1
    have h3 := m _ _ ha.2.2 hb.2.2
    rw [abs_le] at *
    unfold rdot
    constructor <;> linarith [h1.1, h1.2, h2.1, h2.2, h3.1, h3.2]
  have hnorm : ∀ a : V3 ℝ, SizeLe v a → |Real.sqrt (rdot a a)| ≤ 3 * v ^ 2 := by
    intro a ha
    rw [abs_of_nonneg (Real.sqrt_nonneg _)]
    apply Real.sqrt_le_iff.mpr ⟨by positivity, _⟩
    have := (le_abs_self _).trans (hdot a a ha ha)
    nlinarith [sq_nonneg v]
  have hsmall : ∀ a, |a| ≤ 2 * v → |a| ≤ 3 * v ^ 2 := fun a ha => by nlinarith
  constructor
  · exact key 0 (by rw [abs_zero]; positivity)
  · exact key 1 (by rw [abs_one]; nlinarith)
  · exact key 2 (by rw [abs_two]; nlinarith)
  · exact key (-1) (by rw [abs_neg, abs_one]; nlinarith)
  · exact key Real.pi (by rw [abs_of_pos Real.pi_pos]; nlinarith [Real.pi_le_four])
  · exact key repsilon (by
      have : repsilon ≤ 1 := by unfold repsilon; norm_num
      have h0 : 0 ≤ repsilon := by unfold repsilon; positivity
      rw [abs_of_nonneg h0]; nlinarith)
  · exact key 100000 (by rw [abs_of_pos (by norm_num)]; nlinarith)
  · exact key 10000 (by rw [abs_of_pos (by norm_num)]; nlinarith)
  · intro n hn
    exact key n (hsmall _ (by rw [abs_of_nonneg (Nat.cast_nonneg n)]; linarith))
  · intro a b ha hb
    exact key _ (hsmall _ ((abs_add_le a b).trans (by linarith)))
  · intro a b ha hb
    exact key _ (hsmall _ ((abs_sub a b).trans (by linarith)))
  · intro a b ha hb
    refine key _ ?_
    rw [abs_mul]
    nlinarith [mul_le_mul ha hb (abs_nonneg b) (by linarith), sq_nonneg v]
  · intro a b ha h0 hb
    refine key _ ?_
    rw [abs_div, div_eq_mul_one_div]
    nlinarith [mul_le_mul ha (huv _ h0) (by positivity) (by linarith), sq_nonneg v]
  · intro a ha
    exact key _ (hsmall _ (by rw [abs_neg]; linarith))
  · intro a ha
    exact key _ (hsmall _ (by rw [abs_abs]; linarith))
  · intro a h0 ha
    refine key _ (hsmall _ ?_)
    rw [abs_of_nonneg (Real.sqrt_nonneg _)]
    apply Real.sqrt_le_iff.mpr ⟨by linarith, by nlinarith⟩
  · intro a h0 ha
    refine key _ (hsmall _ ?_)
    have ha0 : 0 < a := (one_div_pos.mpr hv0).trans_le h0
    have h1 := Real.log_le_sub_one_of_pos ha0
    have h2 := Real.one_sub_inv_le_log_of_pos ha0
    have h3 := huv a h0
    rw [one_div] at h3
    rw [abs_le]
    constructor <;> linarith
  · intro a ha
    refine key _ (hsmall _ ?_)
    have h1 := Real.arccos_nonneg a
    have h2 := Real.arccos_le_pi a
    rw [abs_of_nonneg h1]
    linarith [Real.pi_le_four]
  · intro a b _ _ hab
    exact decide_eq_true (by linarith [one_div_pos.mpr hv0])
  · intro a b _ _ hab
    exact decide_eq_false (by linarith [one_div_pos.mpr hv0])
  · intro a; exact decide_eq_true rfl
  · intro a b _ _ hab
    refine decide_eq_false ?_
    rintro rfl
    rw [sub_self, abs_zero] at hab
    linarith [one_div_pos.mpr hv0]
  · intro a b ha hb; exact key _ (hdot a b ha hb)
  · intro a b ha hb; exact key _ (hdot a b ha hb)
  · intro a ha; exact key _ (hnorm a ha)
  · intro a ha; exact key _ (hnorm a ha)

/-- rounding with a relative error of at most `δ` (floating point numbers) is accurate to `u` if `3 δ ≤ u³` -/
theorem accurate_relative {rnd : ℝ → ℝ} {δ u : ℝ} (hu : 0 < u) (hu1 : u ≤ 1 / 200) (hδ : 0 ≤ δ) (hδu : 3 * δ ≤ u ^ 3)
    (h : ∀ a, |rnd a - a| ≤ δ * |a|) : Accurate (roundArith rnd) u := by
  have hv : 200 ≤ 1 / u := by rw [le_div_iff₀ hu]; linarith
  refine accurate_iff.mpr (accurateOn_rounded hv fun a ha => ?_)
  calc |rnd a - a| ≤ δ * |a| := h a
    _ ≤ δ * (3 * (1 / u) ^ 2) := mul_le_mul_of_nonneg_left ha hδ
    _ = (3 * δ) * (1 / u) ^ 2 := by ring
    _ ≤ u ^ 3 * (1 / u) ^ 2 := mul_le_mul_of_nonneg_right hδu (by positivity)
    _ = u := by field_simp

/-- Floating point numbers with the unit roundoff `δ`, with gradual underflow and without overflow below `3 v²`, are accurate to `3 v² δ` on numbers of
size `v`. -/
theorem accurateOn_floating {rnd : ℝ → ℝ} {v δ : ℝ} (hv : 200 ≤ v) (hδ : 0 ≤ δ) (h : ∀ a, |a| ≤ 3 * v ^ 2 → |rnd a - a| ≤ δ * max 1 |a|) :
    AccurateOn (roundArith rnd) v (3 * v ^ 2 * δ) :=
  accurateOn_rounded hv fun a ha => (h a ha).trans (by
    rw [mul_comm]
    exact mul_le_mul_of_nonneg_right (max_le (by nlinarith) ha) hδ)

/-- Double precision without overflow and underflow is accurate to `2⁻¹⁷` in this sense. -/
theorem accurate_double {rnd : ℝ → ℝ} (h : ∀ a, |rnd a - a| ≤ 2⁻¹ ^ 53 * |a|) : Accurate (roundArith rnd) (2⁻¹ ^ 17) :=
  accurate_relative (by positivity) (by norm_num) (by positivity) (by norm_num) h

end
end Geec
