import Verif.Spec.Setting
import Mathlib.Topology.Algebra.Order.Field
import Mathlib.Analysis.SpecialFunctions.Log.Deriv
import Mathlib.Analysis.SpecialFunctions.Sqrt
import Mathlib.Analysis.SpecialFunctions.Trigonometric.InverseDeriv
import Mathlib.Analysis.Calculus.FDeriv.Mul
import Mathlib.Analysis.Calculus.Deriv.Inv
/-
The limit of increasing precision.  `Cont x` says that the error of a number computed by the code is at most proportional to the accuracy of
the arithmetic.
-/
namespace Geec
open Filter Topology Asymptotics
noncomputable section

/-- arithmetics and inputs that become arbitrarily accurate -/
def precise : Filter Setting where
  sets := {s | ∃ u, 0 < u ∧ ∀ A : Setting, A.Accurate u → A ∈ s}
  univ_sets := ⟨1, one_pos, fun _ _ => trivial⟩
  sets_of_superset := by rintro s t ⟨u, hu, h⟩ hst; exact ⟨u, hu, fun A hA => hst (h A hA)⟩
  inter_sets := by
    rintro s t ⟨u, hu, h⟩ ⟨v, hv, h'⟩
    have hm : 0 < min u v := lt_min hu hv
    exact ⟨min u v, hm, fun A hA => ⟨h A (hA.mono hm (min_le_left _ _)), h' A (hA.mono hm (min_le_right _ _))⟩⟩

theorem eventually_precise {P : Setting → Prop} : (∀ᶠ A in precise, P A) ↔ ∃ u, 0 < u ∧ ∀ A : Setting, A.Accurate u → P A := Iff.rfl

/-- with exact inputs -/
theorem eventually_plain {P : Setting → Prop} (h : ∀ᶠ A in precise, P A) : ∃ u, 0 < u ∧ ∀ A, Accurate A u → P (.plain A) := by
  obtain ⟨u, hu, h⟩ := h
  exact ⟨u, hu, fun A hA => h _ (plain_accurate hu.le hA)⟩

/-- arithmetics and inputs with their accuracy, on numbers of a size that is large enough -/
def fine : Filter (Setting × ℝ) where
  sets := {s | ∃ n, 0 < n ∧ ∀ (A : Setting) u, 0 < u → u ≤ 1 / n → A.AccurateOn n u → (A, u) ∈ s}
  univ_sets := ⟨1, one_pos, fun _ _ _ _ _ => trivial⟩
  sets_of_superset := by rintro s t ⟨n, hn, h⟩ hst; exact ⟨n, hn, fun A u h0 h1 hA => hst (h A u h0 h1 hA)⟩
  inter_sets := by
    rintro s t ⟨m, hm, h⟩ ⟨n, hn, h'⟩
    have hx : 0 < max m n := lt_max_of_lt_left hm
    exact ⟨max m n, hx, fun A u h0 h1 hA => ⟨h A u h0 (h1.trans (one_div_le_one_div_of_le hm (le_max_left _ _))) (hA.mono hm (le_max_left _ _) le_rfl),
      h' A u h0 (h1.trans (one_div_le_one_div_of_le hn (le_max_right _ _))) (hA.mono hn (le_max_right _ _) le_rfl)⟩⟩

theorem eventually_fine {P : Setting × ℝ → Prop} :
    (∀ᶠ q in fine, P q) ↔ ∃ n, 0 < n ∧ ∀ (A : Setting) u, 0 < u → u ≤ 1 / n → A.AccurateOn n u → P (A, u) := Iff.rfl

/-- the same limit -/
theorem eventually_fst {P : Setting → Prop} : (∀ᶠ q in fine, P q.1) ↔ ∀ᶠ A in precise, P A := by
  rw [eventually_fine, eventually_precise]
  constructor
  · rintro ⟨n, hn, h⟩
    have h0 : 0 < 1 / n := one_div_pos.mpr hn
    refine ⟨1 / n, h0, fun A hA => h A (1 / n) h0 le_rfl ?_⟩
    rw [Setting.Accurate, one_div_one_div] at hA
    exact hA
  · rintro ⟨u, hu, h⟩
    have h0 : 0 < 1 / u := one_div_pos.mpr hu
    refine ⟨1 / u, h0, fun A v hv hvu hA => h A ?_⟩
    rw [one_div_one_div] at hvu
    exact hA.mono h0 le_rfl hvu

theorem tendsto_fst : Tendsto Prod.fst fine precise := fun _ hs => eventually_fst.mpr hs

theorem accuracy_pos : ∀ᶠ q in fine, 0 < q.2 := ⟨1, one_pos, fun _ _ h _ _ => h⟩

theorem accuracy_le {v : ℝ} (hv : 0 < v) : ∀ᶠ q in fine, q.2 ≤ v :=
  ⟨1 / v, one_div_pos.mpr hv, fun _ u _ h _ => by rwa [one_div_one_div] at h⟩

theorem accurate_on {n : ℝ} (hn : 0 < n) : ∀ᶠ q in fine, q.1.AccurateOn n q.2 := ⟨n, hn, fun _ _ _ _ h => h⟩

theorem tendsto_accuracy : Tendsto Prod.snd fine (𝓝 0) := by
  rw [Metric.tendsto_nhds]
  intro ε hε
  filter_upwards [accuracy_pos, accuracy_le (half_pos hε)] with q h1 h2
  rw [Real.dist_eq, sub_zero, abs_of_pos h1]
  linarith

theorem accurate_real {u : ℝ} (hu : 0 < u) : Accurate realArith u := by
  have := accurate_fixed (rnd := id) hu (fun a => by simp [hu.le])
  exact ⟨this.zero, this.one, this.two, this.negOne, this.pi, this.eps, this.k1e5, this.k1e4, this.ofNat, this.add, this.sub, this.mul, this.div, this.neg,
    this.abs, this.sqrt, this.log, this.acos, this.lt_true, this.lt_false, this.eq_refl, this.eq_false, this.dot, this.mdot, this.norm, this.mnorm⟩

/-- what holds for all accurate arithmetics holds for the exact one -/
theorem at_real {P : Setting → Prop} (h : ∀ᶠ A in precise, P A) : P ideal := by
  obtain ⟨u, hu, h⟩ := h
  exact h _ (plain_accurate hu.le (accurate_real hu))

theorem eventually_accurate {u : ℝ} (hu : 0 < u) : ∀ᶠ A : Setting in precise, A.Accurate u := ⟨u, hu, fun _ h => h⟩

/-- a number computed with the arithmetic, with an error of the order of the accuracy -/
def Cont (x : Setting → ℝ) : Prop := (fun q : Setting × ℝ => x q.1 - x ideal) =O[fine] fun q => q.2

theorem tendsto_of_order {g : Setting → ℝ} {v : ℝ} (hx : (fun q : Setting × ℝ => g q.1 - v) =O[fine] fun q => q.2) :
    Tendsto (fun q : Setting × ℝ => g q.1) fine (𝓝 v) := by
  have := (hx.trans_tendsto tendsto_accuracy).add_const v
  simpa using this

theorem Cont.limit {x : Setting → ℝ} (hx : Cont x) : Tendsto (fun q : Setting × ℝ => x q.1) fine (𝓝 (x ideal)) := tendsto_of_order hx

/-- such a number tends to the exact one -/
theorem Cont.tendsto {x : Setting → ℝ} (hx : Cont x) : Tendsto x precise (𝓝 (x ideal)) := fun _ hs => eventually_fst.mp (hx.limit hs)

/-- the error of the operation itself -/
theorem order_of_close {f g : Setting → ℝ} {v : ℝ} (hg : (fun q : Setting × ℝ => g q.1 - v) =O[fine] fun q => q.2)
    (h : ∀ᶠ q in fine, |f q.1 - g q.1| ≤ q.2) : (fun q : Setting × ℝ => f q.1 - v) =O[fine] fun q => q.2 := by
  have h1 : (fun q : Setting × ℝ => f q.1 - g q.1) =O[fine] fun q => q.2 := by
    apply IsBigO.of_bound 1
    filter_upwards [h, accuracy_pos] with q hq h0
    rw [Real.norm_eq_abs, Real.norm_eq_abs, one_mul]
    exact hq.trans (le_abs_self _)
  exact (h1.add hg).congr_left fun q => by ring

/-- a convergent value is eventually of size at most `n`, for `n` as large as wanted -/
theorem Cont.box {x : Setting → ℝ} (hx : Cont x) : ∀ᶠ n in atTop, ∀ᶠ q in fine, |x q.1| ≤ n := by
  filter_upwards [eventually_ge_atTop (|x ideal| + 1)] with n hn
  filter_upwards [(Metric.tendsto_nhds.mp hx.limit) 1 one_pos] with A hA
  rw [Real.dist_eq] at hA
  have := abs_sub_abs_le_abs_sub (x A.1) (x ideal)
  linarith

theorem small {v : ℝ} (hv : 0 < v) : ∀ᶠ n in atTop, 1 / n ≤ v := by
  filter_upwards [eventually_ge_atTop (1 / v)] with n hn
  have := one_div_le_one_div_of_le (one_div_pos.mpr hv) hn
  rwa [one_div_one_div] at this

/-- choose one large `n` -/
theorem choose {P : ℝ → Prop} (h : ∀ᶠ n in atTop, P n) : ∃ n, 0 < n ∧ P n := by
  obtain ⟨n, h1, h2⟩ := ((eventually_gt_atTop 0).and h).exists
  exact ⟨n, h1, h2⟩

variable {x y : Setting → ℝ}

theorem cont_unary {f : Setting → ℝ → ℝ} {g : ℝ → ℝ} (hx : Cont x) (hf : f ideal = g) (hg : (fun a => g a - g (x ideal)) =O[𝓝 (x ideal)] fun a => a - x ideal)
    (D : ℝ → ℝ → Prop) (hD : ∀ᶠ n in atTop, ∀ᶠ q in fine, D n (x q.1))
    (h : ∀ (A : Setting) n u, A.AccurateOn n u → ∀ a, D n a → |f A a - g a| ≤ u) : Cont (fun A => f A (x A)) := by
  show (fun q : Setting × ℝ => _ - f ideal (x ideal)) =O[fine] _
  rw [hf]
  apply order_of_close (f := fun A => f A (x A)) (g := fun A => g (x A)) ((hg.comp_tendsto hx.limit).trans hx)
  obtain ⟨n, hn, h1⟩ := choose hD
  filter_upwards [h1, accurate_on hn] with A k1 k2
  exact h A.1 n A.2 k2 _ k1

theorem cont_binary {f : Setting → ℝ → ℝ → ℝ} {g : ℝ → ℝ → ℝ} (hx : Cont x) (hy : Cont y) (hf : f ideal = g)
    (hg : DifferentiableAt ℝ (fun q : ℝ × ℝ => g q.1 q.2) (x ideal, y ideal))
    (D : ℝ → ℝ → ℝ → Prop) (hD : ∀ᶠ n in atTop, ∀ᶠ q in fine, D n (x q.1) (y q.1))
    (h : ∀ (A : Setting) n u, A.AccurateOn n u → ∀ a b, D n a b → |f A a b - g a b| ≤ u) : Cont (fun A => f A (x A) (y A)) := by
  show (fun q : Setting × ℝ => _ - f ideal (x ideal) (y ideal)) =O[fine] _
  rw [hf]
  have ht : Tendsto (fun q : Setting × ℝ => (x q.1, y q.1)) fine (𝓝 (x ideal, y ideal)) := hx.limit.prodMk_nhds hy.limit
  have hp : (fun q : Setting × ℝ => (x q.1, y q.1) - (x ideal, y ideal)) =O[fine] fun q => q.2 := hx.prod_left hy
  apply order_of_close (f := fun A => f A (x A) (y A)) (g := fun A => g (x A) (y A)) ((hg.isBigO_sub.comp_tendsto ht).trans hp)
  obtain ⟨n, hn, h1⟩ := choose hD
  filter_upwards [h1, accurate_on hn] with A k1 k2
  exact h A.1 n A.2 k2 _ _ k1

theorem cont_const (a : ℝ) : Cont (fun _ => a) := by
  show (fun q : Setting × ℝ => a - a) =O[fine] _
  simp only [sub_self]
  exact isBigO_zero _ _

theorem cont_congr (h : ∀ᶠ A in precise, y A = x A) (hy : Cont y) : Cont x := by
  refine IsBigO.congr' hy ?_ EventuallyEq.rfl
  filter_upwards [eventually_fst.mpr h] with q hq
  rw [hq, at_real h]

theorem cont_lit {f : Setting → ℝ} (h : ∀ (A : Setting) n u, A.AccurateOn n u → |f A - f ideal| ≤ u) : Cont f := by
  apply order_of_close (g := fun _ => f ideal) (cont_const _)
  filter_upwards [accurate_on one_pos] with A hA
  exact h A.1 1 A.2 hA

/-- an input that is changed -/
theorem cont_given {f : Setting → ℝ → ℝ} (hf : ∀ a, f ideal a = a) (h : ∀ (A : Setting) n u, A.AccurateOn n u → ∀ a, |a| ≤ n → |f A a - a| ≤ u) (a : ℝ) :
    Cont (fun A => f A a) := by
  show (fun q : Setting × ℝ => f q.1 a - f ideal a) =O[fine] _
  rw [hf]
  refine order_of_close (f := fun A => f A a) (g := fun _ => a) (cont_const a) ?_
  filter_upwards [accurate_on (show 0 < |a| + 1 by positivity)] with A hA
  exact h A.1 _ A.2 hA a (by linarith)

theorem cont_weigh (a : ℝ) : Cont (fun A => A.weigh a) := cont_given (f := Setting.weigh) (fun _ => rfl) (fun _ _ _ h a ha => h.weigh a ha) a
theorem cont_scale (a : ℝ) : Cont (fun A => A.scale a) := cont_given (f := Setting.scale) (fun _ => rfl) (fun _ _ _ h a ha => h.scale a ha) a

theorem cont_zero : Cont (fun A => A.zero) := cont_lit fun _ _ _ h => h.zero
theorem cont_one : Cont (fun A => A.one) := cont_lit fun _ _ _ h => h.one
theorem cont_two : Cont (fun A => A.two) := cont_lit fun _ _ _ h => h.two
theorem cont_negOne : Cont (fun A => A.negOne) := cont_lit fun _ _ _ h => h.negOne
theorem cont_pi : Cont (fun A => A.pi) := cont_lit fun _ _ _ h => h.pi
theorem cont_eps : Cont (fun A => A.eps) := cont_lit fun _ _ _ h => h.eps
theorem cont_k1e5 : Cont (fun A => A.k1e5) := cont_lit fun _ _ _ h => h.k1e5
theorem cont_k1e4 : Cont (fun A => A.k1e4) := cont_lit fun _ _ _ h => h.k1e4

theorem cont_ofNat (n : Nat) : Cont (fun A => A.ofNat n) := by
  refine order_of_close (f := fun A => A.ofNat n) (g := fun _ => (n : ℝ)) (cont_const _) ?_
  filter_upwards [accurate_on (show (0 : ℝ) < n + 1 by positivity)] with A k2
  exact k2.ofNat n (by linarith)

theorem box2 (hx : Cont x) (hy : Cont y) : ∀ᶠ n in atTop, ∀ᶠ q in fine, |x q.1| ≤ n ∧ |y q.1| ≤ n := by
  filter_upwards [hx.box, hy.box] with u h1 h2
  exact h1.and h2

theorem cont_add (hx : Cont x) (hy : Cont y) : Cont (fun A => A.add (x A) (y A)) :=
  cont_binary (f := fun A => A.add) (g := fun a b => a + b) hx hy rfl (differentiableAt_fst.add differentiableAt_snd) (fun n a b => |a| ≤ n ∧ |b| ≤ n) (box2 hx hy) fun _ _ _ h a b hb => h.add a b hb.1 hb.2
theorem cont_sub (hx : Cont x) (hy : Cont y) : Cont (fun A => A.sub (x A) (y A)) :=
  cont_binary (f := fun A => A.sub) (g := fun a b => a - b) hx hy rfl (differentiableAt_fst.sub differentiableAt_snd) (fun n a b => |a| ≤ n ∧ |b| ≤ n) (box2 hx hy) fun _ _ _ h a b hb => h.sub a b hb.1 hb.2
theorem cont_mul (hx : Cont x) (hy : Cont y) : Cont (fun A => A.mul (x A) (y A)) :=
  cont_binary (f := fun A => A.mul) (g := fun a b => a * b) hx hy rfl (differentiableAt_fst.mul differentiableAt_snd) (fun n a b => |a| ≤ n ∧ |b| ≤ n) (box2 hx hy) fun _ _ _ h a b hb => h.mul a b hb.1 hb.2
theorem cont_neg (hx : Cont x) : Cont (fun A => A.neg (x A)) :=
  cont_unary (f := fun A => A.neg) (g := fun a => -a) hx rfl (IsBigO.of_bound 1 (Eventually.of_forall fun a => by
    rw [Real.norm_eq_abs, Real.norm_eq_abs, one_mul, neg_sub_neg, abs_sub_comm])) (fun n a => |a| ≤ n) hx.box fun _ _ _ h a hb => h.neg a hb
theorem cont_abs (hx : Cont x) : Cont (fun A => A.abs (x A)) :=
  cont_unary (f := fun A => A.abs) (g := fun a => |a|) hx rfl (IsBigO.of_bound 1 (Eventually.of_forall fun a => by
    rw [Real.norm_eq_abs, Real.norm_eq_abs, one_mul]; exact abs_abs_sub_abs_le a _)) (fun n a => |a| ≤ n) hx.box fun _ _ _ h a hb => h.abs a hb

/-- away from zero -/
theorem Cont.away (hx : Cont x) (h0 : x ideal ≠ 0) : ∀ᶠ n in atTop, ∀ᶠ q in fine, 1 / n ≤ |x q.1| := by
  have hp := abs_pos.mpr h0
  filter_upwards [small (show 0 < |x ideal| / 2 by linarith)] with u hu
  filter_upwards [(Metric.tendsto_nhds.mp hx.limit) (|x ideal| / 2) (by linarith)] with A hA
  rw [Real.dist_eq, abs_sub_comm] at hA
  have := abs_sub_abs_le_abs_sub (x ideal) (x A.1)
  linarith

theorem Cont.above (hx : Cont x) (h0 : 0 < x ideal) : ∀ᶠ n in atTop, ∀ᶠ q in fine, 1 / n ≤ x q.1 := by
  filter_upwards [small (show 0 < x ideal / 2 by linarith)] with u hu
  filter_upwards [(Metric.tendsto_nhds.mp hx.limit) (x ideal / 2) (by linarith)] with A hA
  rw [Real.dist_eq, abs_lt] at hA
  linarith [hA.1]

theorem cont_div (hx : Cont x) (hy : Cont y) (h0 : y ideal ≠ 0) : Cont (fun A => A.div (x A) (y A)) := by
  refine cont_binary (f := fun A => A.div) (g := fun a b => a / b) hx hy rfl ?_
    (fun n a b => |a| ≤ n ∧ 1 / n ≤ |b| ∧ |b| ≤ n) ?_ fun _ _ _ h a b hb => h.div a b hb.1 hb.2.1 hb.2.2
  · simp only [div_eq_mul_inv]
    exact differentiableAt_fst.mul (differentiableAt_snd.inv h0)
  · filter_upwards [hx.box, hy.away h0, hy.box] with u h1 h2 h3
    exact h1.and (h2.and h3)

theorem above_box (hx : Cont x) (h0 : 0 < x ideal) : ∀ᶠ n in atTop, ∀ᶠ q in fine, 1 / n ≤ x q.1 ∧ x q.1 ≤ n := by
  filter_upwards [hx.above h0, hx.box] with u h1 h2
  filter_upwards [h1, h2] with A k1 k2
  exact ⟨k1, (le_abs_self _).trans k2⟩

theorem cont_sqrt (hx : Cont x) (h0 : 0 < x ideal) : Cont (fun A => A.sqrt (x A)) :=
  cont_unary (f := fun A => A.sqrt) hx rfl (Real.hasDerivAt_sqrt h0.ne').isBigO_sub (fun n a => 1 / n ≤ a ∧ a ≤ n) (above_box hx h0) fun _ _ _ h a hb => h.sqrt a hb.1 hb.2
theorem cont_log (hx : Cont x) (h0 : 0 < x ideal) : Cont (fun A => A.log (x A)) :=
  cont_unary (f := fun A => A.log) hx rfl (Real.hasDerivAt_log h0.ne').isBigO_sub (fun n a => 1 / n ≤ a ∧ a ≤ n) (above_box hx h0) fun _ _ _ h a hb => h.log a hb.1 hb.2

theorem cont_acos (hx : Cont x) (h0 : |x ideal| < 1) : Cont (fun A => A.acos (x A)) := by
  have hb := abs_lt.mp h0
  refine cont_unary (f := fun A => A.acos) hx rfl (Real.hasDerivAt_arccos hb.1.ne' hb.2.ne).isBigO_sub (fun n a => |a| ≤ 1 - 1 / n) ?_ fun _ _ _ h a hb => h.acos a hb
  filter_upwards [small (show 0 < (1 - |x ideal|) / 2 by linarith)] with u hu
  filter_upwards [(Metric.tendsto_nhds.mp hx.limit) ((1 - |x ideal|) / 2) (by linarith)] with A hA
  rw [Real.dist_eq] at hA
  have := abs_sub_abs_le_abs_sub (x A.1) (x ideal)
  linarith

/-! comparisons with a clear result -/

theorem lt_true (hx : Cont x) (hy : Cont y) (h : x ideal < y ideal) : ∀ᶠ A in precise, A.lt (x A) (y A) = true := by
  rw [← eventually_fst]
  obtain ⟨n, hn, h1, h2⟩ := choose ((box2 hx hy).and (small (show 0 < (y ideal - x ideal) / 3 by linarith)))
  filter_upwards [h1, accurate_on hn, (Metric.tendsto_nhds.mp hx.limit) ((y ideal - x ideal) / 3) (by linarith),
    (Metric.tendsto_nhds.mp hy.limit) ((y ideal - x ideal) / 3) (by linarith)] with A k1 k2 k3 k4
  rw [Real.dist_eq, abs_lt] at k3 k4
  exact k2.lt_true _ _ k1.1 k1.2 (by linarith [k3.2, k4.1])

theorem lt_false (hx : Cont x) (hy : Cont y) (h : y ideal < x ideal) : ∀ᶠ A in precise, A.lt (x A) (y A) = false := by
  rw [← eventually_fst]
  obtain ⟨n, hn, h1, h2⟩ := choose ((box2 hx hy).and (small (show 0 < (x ideal - y ideal) / 3 by linarith)))
  filter_upwards [h1, accurate_on hn, (Metric.tendsto_nhds.mp hx.limit) ((x ideal - y ideal) / 3) (by linarith),
    (Metric.tendsto_nhds.mp hy.limit) ((x ideal - y ideal) / 3) (by linarith)] with A k1 k2 k3 k4
  rw [Real.dist_eq, abs_lt] at k3 k4
  exact k2.lt_false _ _ k1.1 k1.2 (by linarith [k3.1, k4.2])

theorem eq_false (hx : Cont x) (hy : Cont y) (h : x ideal ≠ y ideal) : ∀ᶠ A in precise, A.eq (x A) (y A) = false := by
  rw [← eventually_fst]
  have hd : Tendsto (fun q : Setting × ℝ => |x q.1 - y q.1|) fine (𝓝 |x ideal - y ideal|) := (hx.limit.sub hy.limit).abs
  have hp : 0 < |x ideal - y ideal| := abs_pos.mpr (sub_ne_zero.mpr h)
  obtain ⟨n, hn, h1, h2⟩ := choose ((box2 hx hy).and (small (show 0 < |x ideal - y ideal| / 2 by linarith)))
  filter_upwards [h1, accurate_on hn, (Metric.tendsto_nhds.mp hd) (|x ideal - y ideal| / 2) (by linarith)] with A k1 k2 k3
  rw [Real.dist_eq, abs_lt] at k3
  exact k2.eq_false _ _ k1.1 k1.2 (by linarith [k3.1])

/-! vectors -/

def ContV (v : Setting → V3 ℝ) : Prop := Cont (fun A => (v A).x) ∧ Cont (fun A => (v A).y) ∧ Cont (fun A => (v A).z)
def ContM (m : Setting → M3 ℝ) : Prop := ContV (fun A => (m A).r0) ∧ ContV (fun A => (m A).r1) ∧ ContV (fun A => (m A).r2)

variable {v w : Setting → V3 ℝ}

theorem contV_const (a : V3 ℝ) : ContV (fun _ => a) := ⟨cont_const _, cont_const _, cont_const _⟩

theorem exists_size (p : V3 ℝ) : ∃ n, 0 < n ∧ SizeLe n p :=
  ⟨|p.x| + |p.y| + |p.z| + 1, by positivity, by linarith [abs_nonneg p.y, abs_nonneg p.z], by linarith [abs_nonneg p.x, abs_nonneg p.z],
    by linarith [abs_nonneg p.y, abs_nonneg p.x]⟩

theorem contV_given {f : Setting → V3 ℝ → V3 ℝ} (hf : ∀ p, f ideal p = p)
    (h : ∀ (A : Setting) n u, A.AccurateOn n u → ∀ p, SizeLe n p → NearV u (f A p) p) (p : V3 ℝ) : ContV (fun A => f A p) := by
  obtain ⟨n, hn, hp⟩ := exists_size p
  have key : ∀ᶠ q in fine, NearV q.2 (f q.1 p) p := by
    filter_upwards [accurate_on hn] with q hq
    exact h q.1 _ q.2 hq p hp
  refine ⟨?_, ?_, ?_⟩ <;> unfold Cont <;> beta_reduce <;> rw [hf]
  · exact order_of_close (f := fun A => (f A p).x) (g := fun _ => p.x) (cont_const _) (key.mono fun _ h => h.1)
  · exact order_of_close (f := fun A => (f A p).y) (g := fun _ => p.y) (cont_const _) (key.mono fun _ h => h.2.1)
  · exact order_of_close (f := fun A => (f A p).z) (g := fun _ => p.z) (cont_const _) (key.mono fun _ h => h.2.2)

/-- a point of a body that is moved -/
theorem contV_move (p : V3 ℝ) : ContV (fun A => A.move p) := contV_given (f := Setting.move) (fun _ => rfl) (fun _ _ _ h p hp => h.move p hp) p

/-- a station that is moved -/
theorem contV_place (p : V3 ℝ) : ContV (fun A => A.place p) := contV_given (f := Setting.place) (fun _ => rfl) (fun _ _ _ h p hp => h.place p hp) p

theorem contV_zeros : ContV (fun A => @V3.zeros ℝ A) := ⟨cont_zero, cont_zero, cont_zero⟩
theorem contV_add (hv : ContV v) (hw : ContV w) : ContV (fun A => @V3.add ℝ A (v A) (w A)) :=
  ⟨cont_add hv.1 hw.1, cont_add hv.2.1 hw.2.1, cont_add hv.2.2 hw.2.2⟩
theorem contV_sub (hv : ContV v) (hw : ContV w) : ContV (fun A => @V3.sub ℝ A (v A) (w A)) :=
  ⟨cont_sub hv.1 hw.1, cont_sub hv.2.1 hw.2.1, cont_sub hv.2.2 hw.2.2⟩
theorem contV_neg (hv : ContV v) : ContV (fun A => @V3.neg ℝ A (v A)) := ⟨cont_neg hv.1, cont_neg hv.2.1, cont_neg hv.2.2⟩
theorem contV_smul (hx : Cont x) (hv : ContV v) : ContV (fun A => @V3.smul ℝ A (x A) (v A)) :=
  ⟨cont_mul hx hv.1, cont_mul hx hv.2.1, cont_mul hx hv.2.2⟩
theorem contV_sdiv (hv : ContV v) (hx : Cont x) (h0 : x ideal ≠ 0) : ContV (fun A => @V3.sdiv ℝ A (v A) (x A)) :=
  ⟨cont_div hv.1 hx h0, cont_div hv.2.1 hx h0, cont_div hv.2.2 hx h0⟩
theorem contV_cross (hv : ContV v) (hw : ContV w) : ContV (fun A => @cross ℝ A (v A) (w A)) :=
  ⟨cont_sub (cont_mul hv.2.1 hw.2.2) (cont_mul hv.2.2 hw.2.1), cont_sub (cont_mul hv.2.2 hw.1) (cont_mul hv.1 hw.2.2),
    cont_sub (cont_mul hv.1 hw.2.1) (cont_mul hv.2.1 hw.1)⟩
theorem contM_zeros : ContM (fun A => @M3.zeros ℝ A) := ⟨contV_zeros, contV_zeros, contV_zeros⟩
theorem contM_add {m n : Setting → M3 ℝ} (hm : ContM m) (hn : ContM n) : ContM (fun A => @M3.add ℝ A (m A) (n A)) :=
  ⟨contV_add hm.1 hn.1, contV_add hm.2.1 hn.2.1, contV_add hm.2.2 hn.2.2⟩
theorem contM_neg {m : Setting → M3 ℝ} (hm : ContM m) : ContM (fun A => @M3.neg ℝ A (m A)) :=
  ⟨contV_neg hm.1, contV_neg hm.2.1, contV_neg hm.2.2⟩

theorem ContV.box (hv : ContV v) : ∀ᶠ n in atTop, ∀ᶠ q in fine, SizeLe n (v q.1) := by
  filter_upwards [hv.1.box, hv.2.1.box, hv.2.2.box] with u h1 h2 h3
  exact h1.and (h2.and h3)

theorem order_mul (hx : Cont x) (hy : Cont y) : (fun q : Setting × ℝ => x q.1 * y q.1 - x ideal * y ideal) =O[fine] fun q => q.2 := by
  have h1 : (fun q : Setting × ℝ => (x q.1 - x ideal) * y q.1) =O[fine] fun q => q.2 := by
    simpa using hx.mul (hy.limit.isBigO_one ℝ)
  exact (h1.add (hy.const_mul_left (x ideal))).congr_left fun q => by ring

theorem order_rdot (hv : ContV v) (hw : ContV w) :
    (fun q : Setting × ℝ => rdot (v q.1) (w q.1) - rdot (v ideal) (w ideal)) =O[fine] fun q => q.2 :=
  (((order_mul hv.1 hw.1).add (order_mul hv.2.1 hw.2.1)).add (order_mul hv.2.2 hw.2.2)).congr_left fun q => by unfold rdot; ring

theorem length_lipschitz (a b : V3 ℝ) : |Real.sqrt (rdot a a) - Real.sqrt (rdot b b)| ≤ |a.x - b.x| + |a.y - b.y| + |a.z - b.z| := by
  have ha : 0 ≤ rdot a a := by unfold rdot; nlinarith [mul_self_nonneg a.x, mul_self_nonneg a.y, mul_self_nonneg a.z]
  have hb : 0 ≤ rdot b b := by unfold rdot; nlinarith [mul_self_nonneg b.x, mul_self_nonneg b.y, mul_self_nonneg b.z]
  have hc : rdot a b ≤ Real.sqrt (rdot a a) * Real.sqrt (rdot b b) := by
    rw [← Real.sqrt_mul ha]
    apply Real.le_sqrt_of_sq_le
    unfold rdot
    nlinarith [sq_nonneg (a.x * b.y - a.y * b.x), sq_nonneg (a.y * b.z - a.z * b.y), sq_nonneg (a.z * b.x - a.x * b.z)]
  have e1 := Real.mul_self_sqrt ha
  have e2 := Real.mul_self_sqrt hb
  apply abs_le_of_sq_le_sq
  · have k1 := sq_abs (a.x - b.x)
    have k2 := sq_abs (a.y - b.y)
    have k3 := sq_abs (a.z - b.z)
    have m1 := mul_nonneg (abs_nonneg (a.x - b.x)) (abs_nonneg (a.y - b.y))
    have m2 := mul_nonneg (abs_nonneg (a.x - b.x)) (abs_nonneg (a.z - b.z))
    have m3 := mul_nonneg (abs_nonneg (a.y - b.y)) (abs_nonneg (a.z - b.z))
    have : (Real.sqrt (rdot a a) - Real.sqrt (rdot b b)) ^ 2 ≤ (a.x - b.x) ^ 2 + (a.y - b.y) ^ 2 + (a.z - b.z) ^ 2 := by
      have e3 : (a.x - b.x) ^ 2 + (a.y - b.y) ^ 2 + (a.z - b.z) ^ 2 = rdot a a - 2 * rdot a b + rdot b b := by unfold rdot; ring
      rw [e3]; nlinarith
    nlinarith
  · positivity

theorem order_length (hv : ContV v) :
    (fun q : Setting × ℝ => Real.sqrt (rdot (v q.1) (v q.1)) - Real.sqrt (rdot (v ideal) (v ideal))) =O[fine] fun q => q.2 := by
  refine IsBigO.trans (IsBigO.of_bound 1 (Eventually.of_forall fun q => ?_)) ((hv.1.norm_left.add hv.2.1.norm_left).add hv.2.2.norm_left)
  rw [Real.norm_eq_abs, one_mul]
  exact (length_lipschitz _ _).trans (le_abs_self _)

theorem cont_dot (hv : ContV v) (hw : ContV w) : Cont (fun A => A.dot (v A) (w A)) := by
  refine order_of_close (f := fun A => A.dot (v A) (w A)) (g := fun A => rdot (v A) (w A)) (order_rdot hv hw) ?_
  obtain ⟨n, hn, h1, h2⟩ := choose (hv.box.and hw.box)
  filter_upwards [h1, h2, accurate_on hn] with A k1 k2 k3
  exact k3.dot _ _ k1 k2

theorem cont_mdot (hv : ContV v) (hw : ContV w) : Cont (fun A => A.mdot (v A) (w A)) := by
  refine order_of_close (f := fun A => A.mdot (v A) (w A)) (g := fun A => rdot (v A) (w A)) (order_rdot hv hw) ?_
  obtain ⟨n, hn, h1, h2⟩ := choose (hv.box.and hw.box)
  filter_upwards [h1, h2, accurate_on hn] with A k1 k2 k3
  exact k3.mdot _ _ k1 k2

theorem cont_norm (hv : ContV v) : Cont (fun A => A.norm (v A)) := by
  refine order_of_close (f := fun A => A.norm (v A)) (g := fun A => Real.sqrt (rdot (v A) (v A))) (order_length hv) ?_
  obtain ⟨n, hn, h1⟩ := choose hv.box
  filter_upwards [h1, accurate_on hn] with A k1 k3
  exact k3.norm _ k1

theorem cont_mnorm (hv : ContV v) : Cont (fun A => A.mnorm (v A)) := by
  refine order_of_close (f := fun A => A.mnorm (v A)) (g := fun A => Real.sqrt (rdot (v A) (v A))) (order_length hv) ?_
  obtain ⟨n, hn, h1⟩ := choose hv.box
  filter_upwards [h1, accurate_on hn] with A k1 k3
  exact k3.mnorm _ k1

theorem contM_cross (hv : ContV v) : ContM (fun A => @crossDp ℝ A (v A)) :=
  ⟨contV_cross hv ⟨cont_negOne, cont_zero, cont_zero⟩, contV_cross hv ⟨cont_zero, cont_negOne, cont_zero⟩, contV_cross hv ⟨cont_zero, cont_zero, cont_negOne⟩⟩

theorem contV_matVec {m : Setting → M3 ℝ} (hm : ContM m) (hv : ContV v) : ContV (fun A => @matVec ℝ A (m A) (v A)) :=
  ⟨cont_mdot hm.1 hv, cont_mdot hm.2.1 hv, cont_mdot hm.2.2 hv⟩

/-! results that may be exceptions -/

/-- for accurate arithmetics the code returns a value, with the property `N` -/
def ContE {α : Type} (N : (Setting → α) → Prop) (X : Setting → Except PyErr α) : Prop :=
  ∃ out : Setting → α, (∀ᶠ A in precise, X A = .ok (out A)) ∧ N out

theorem contE_ok {α : Type} {N : (Setting → α) → Prop} {f : Setting → α} (h : N f) : ContE N (fun A => .ok (f A)) :=
  ⟨f, Eventually.of_forall fun _ => rfl, h⟩

theorem contE_bind {α β : Type} {N : (Setting → α) → Prop} {M : (Setting → β) → Prop} {X : Setting → Except PyErr α}
    {F : Setting → α → Except PyErr β} (hX : ContE N X) (hF : ∀ out, X ideal = .ok (out ideal) → N out → ContE M (fun A => F A (out A))) :
    ContE M (fun A => (X A).bind (F A)) := by
  obtain ⟨out, h1, h2⟩ := hX
  obtain ⟨out', h3, h4⟩ := hF out (at_real h1) h2
  refine ⟨out', ?_, h4⟩
  filter_upwards [h1, h3] with A k1 k2
  rw [k1]
  exact k2

theorem contE_congr {α : Type} {N : (Setting → α) → Prop} {X Y : Setting → Except PyErr α} (h : ∀ᶠ A in precise, X A = Y A) (hY : ContE N Y) : ContE N X := by
  obtain ⟨out, h1, h2⟩ := hY
  refine ⟨out, ?_, h2⟩
  filter_upwards [h, h1] with A k1 k2
  rw [k1, k2]

end
end Geec
