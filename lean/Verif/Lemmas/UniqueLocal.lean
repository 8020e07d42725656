import Verif.Lemmas.UniqueBody
/-
Lemmas for C112: agreement near one station spreads to all stations far away.
-/
namespace Geec
open Arith MeasureTheory Filter Topology
noncomputable section
variable {h h₁ h₂ : Hull ℝ} {k₁ k₂ : ℝ} {c : V3 ℝ}

/-- regular stations off the planes form an open set of the space -/
theorem offPlanes_around {s : V3 ℝ} (hs : h.Regular s) (h0 : h.OffPlanes s) : ∀ᶠ q in 𝓝 s.toP, h.Regular (P3.toV q) ∧ h.OffPlanes (P3.toV q) := by
  have hall : ∀ᶠ q in 𝓝 s.toP, ∀ t ∈ {t | t ∈ h.simplices},
      (repsilon * vlen (cross ((h.pt t.2.1).sub (h.pt t.1)) ((h.pt t.2.2).sub (h.pt t.1))) <
        |rdot (cross ((h.pt t.2.1).sub (h.pt t.1)) ((h.pt t.2.2).sub (h.pt t.1))) ((h.pt t.1).sub (P3.toV q))| ∧
      ∀ i ∈ ({t.1, t.2.1, t.2.2} : Set Nat), ∀ j ∈ ({t.1, t.2.1, t.2.2} : Set Nat), i ≠ j → ClearOf (h.pt i) (h.pt j) (P3.toV q)) := by
    rw [Filter.eventually_all_finite (List.finite_toSet h.simplices)]
    intro t ht
    rcases hs t ht with hz | ⟨h1, h2⟩
    · exact absurd hz (h0 t ht)
    · set N := cross ((h.pt t.2.1).sub (h.pt t.1)) ((h.pt t.2.2).sub (h.pt t.1))
      refine Filter.Eventually.and ?_ ?_
      · have hc : Continuous (fun q : P3 => |rdot N ((h.pt t.1).sub (P3.toV q))|) := by
          simp only [rdot, P3.toV, sub_x, sub_y, sub_z]; fun_prop
        exact (hc.tendsto s.toP).eventually (lt_mem_nhds (by rw [toP_toV]; exact h1))
      · rw [Filter.eventually_all_finite (Set.toFinite _)]
        intro i hi
        rw [Filter.eventually_all_finite (Set.toFinite _)]
        intro j hj
        by_cases hij : i = j
        · exact Filter.Eventually.of_forall fun x hne => absurd hij hne
        have hN : ∀ k ∈ ({t.1, t.2.1, t.2.2} : Set Nat), rdot N ((h.pt k).sub s) = rdot N ((h.pt t.1).sub s) := by
          rintro k (rfl | rfl | rfl) <;> simp [N, rdot] <;> ring
        have hNs : rdot N ((h.pt i).sub s) ≠ 0 := by rw [hN i hi]; exact h0 t ht
        have hNij : rdot N ((h.pt j).sub (h.pt i)) = 0 := by
          have a1 := hN i hi
          have a2 := hN j hj
          rw [rdot_sub] at a1 a2 ⊢
          linarith
        obtain ⟨c1, c2⟩ := clearOf_off (h2 i j hi hj hij) hNij hNs
        have k1 : Continuous (fun q : P3 => vlen (cross ((h.pt i).sub (P3.toV q)) ((h.pt j).sub (h.pt i)))) := by
          simp only [vlen, rdot, P3.toV, cross_x, cross_y, cross_z, sub_x, sub_y, sub_z]; fun_prop
        have k2 : Continuous (fun q : P3 => vlen ((h.pt i).sub (P3.toV q)) +
            rdot ((h.pt i).sub (P3.toV q)) ((h.pt j).sub (h.pt i)) / vlen ((h.pt j).sub (h.pt i))) := by
          apply Continuous.add
          · simp only [vlen, rdot, P3.toV, sub_x, sub_y, sub_z]; fun_prop
          · apply Continuous.div_const
            simp only [rdot, P3.toV, sub_x, sub_y, sub_z]; fun_prop
        filter_upwards [(k1.tendsto s.toP).eventually (lt_mem_nhds (a := 0) (by rw [toP_toV]; exact vlen_pos c1)),
          (k2.tendsto s.toP).eventually (lt_mem_nhds (a := repsilon) (by rw [toP_toV]; exact c2))] with x hx1 hx2 _
        refine .inl ⟨?_, hx2⟩
        intro hz
        rw [hz, vlen_zeros] at hx1
        exact lt_irrefl _ hx1
  filter_upwards [hall] with x hx
  refine ⟨fun t ht => .inr ⟨(hx t ht).1, fun i j hi hj hij => (hx t ht).2 i hi j hj hij⟩, fun t ht hz => ?_⟩
  have := (hx t ht).1
  rw [hz, abs_zero] at this
  have h0 : (0 : ℝ) < repsilon := by unfold repsilon; positivity
  have := mul_nonneg h0.le (vlen_nonneg (cross ((h.pt t.2.1).sub (h.pt t.1)) ((h.pt t.2.2).sub (h.pt t.1))))
  linarith

/-- near the station the attractions differ by the constant `c` -/
def ConstNear (h₁ h₂ : Hull ℝ) (k₁ k₂ : ℝ) (c s : V3 ℝ) : Prop := ∀ᶠ q in 𝓝 s.toP, ∀ e, attDiff h₁ h₂ k₁ k₂ (P3.toV q) e = rdot c e

theorem zero_on {F : ℝ → ℝ} {a b c : ℝ} (ha : ∀ t ∈ Set.Icc a b, AnalyticAt ℝ F t) (hc : c ∈ Set.Icc a b) (h0 : ∀ᶠ t in 𝓝 c, F t = 0) : F b = 0 :=
  AnalyticOnNhd.eqOn_zero_of_preconnected_of_eventuallyEq_zero ha isPreconnected_Icc hc h0 ⟨hc.1.trans hc.2, le_rfl⟩

/-- agreement is carried along segments that avoid both bodies -/
theorem zero_visible (hh₁ : h₁.IsHull) (hh₂ : h₂.IsHull) {a b : V3 ℝ} (ha : ConstNear h₁ h₂ k₁ k₂ c a)
    (hseg : ∀ t ∈ Set.Icc (0 : ℝ) 1, (a.add (V3.smul t (b.sub a))).toP ∉ h₁.body ∧ (a.add (V3.smul t (b.sub a))).toP ∉ h₂.body) :
    ConstNear h₁ h₂ k₁ k₂ c b := by
  have hev : ∀ᶠ q in 𝓝 b.toP, ∀ t ∈ Set.Icc (0 : ℝ) 1, (a.add (V3.smul t ((P3.toV q).sub a))).toP ∈ (h₁.bodyᶜ ∩ h₂.bodyᶜ) := by
    refine isCompact_Icc.eventually_forall_of_forall_eventually fun t ht => ?_
    have hc : Continuous (fun z : P3 × ℝ => (a.add (V3.smul z.2 ((P3.toV z.1).sub a))).toP) := by
      simp only [V3.toP, P3.toV, add_x, add_y, add_z, smul_x, smul_y, smul_z, sub_x, sub_y, sub_z]; fun_prop
    have ho : IsOpen (h₁.bodyᶜ ∩ h₂.bodyᶜ) := h₁.body_compact.isClosed.isOpen_compl.inter h₂.body_compact.isClosed.isOpen_compl
    exact (hc.tendsto (b.toP, t)).eventually (ho.mem_nhds (hseg t ht))
  filter_upwards [hev] with q hq e
  have hz := zero_on (F := fun t => attDiff h₁ h₂ k₁ k₂ (a.add (V3.smul t ((P3.toV q).sub a))) e - rdot c e) (a := 0) (b := 1) (c := 0)
    (fun t ht => (attDiff_analytic hh₁ hh₂ k₁ k₂ (not_frontier_of_not_mem (hq t ht).1) (not_frontier_of_not_mem (hq t ht).2) e).sub analyticAt_const) ⟨le_rfl, zero_le_one⟩ (by
      filter_upwards [(tendsto_line a ((P3.toV q).sub a)).eventually ha] with t ht
      exact sub_eq_zero.mpr (ht e))
  have e1 : a.add (V3.smul 1 ((P3.toV q).sub a)) = P3.toV q := by refine V3.ext' ?_ ?_ ?_ <;> simp
  simp only [e1] at hz
  exact sub_eq_zero.mp hz

/-- a plane between a point and a body -/
theorem plane_between (h : Hull ℝ) {s : V3 ℝ} (hs : s.toP ∉ h.body) : ∃ n : V3 ℝ, ∀ q ∈ h.body, form n q < form n s.toP := by
  have hcv : Convex ℝ h.body := convex_convexHull ℝ _
  obtain ⟨f, u, hf, hfx⟩ := geometric_hahn_banach_closed_point hcv h.body_compact.isClosed hs
  obtain ⟨m, hm⟩ := linear_form f
  refine ⟨m, fun q hq => ?_⟩
  have h1 := hf q hq
  have e : f q = form m q := hm ⟨q.1, q.2.1, q.2.2⟩
  rw [e] at h1
  rw [hm] at hfx
  exact h1.trans hfx

/-- the bodies lie in a ball -/
theorem body_bound (h : Hull ℝ) : ∃ K : ℝ, 0 ≤ K ∧ ∀ q ∈ h.body, rdot (P3.toV q) (P3.toV q) ≤ K := by
  have hc : Continuous (fun q : P3 => rdot (P3.toV q) (P3.toV q)) := by simp only [rdot, P3.toV]; fun_prop
  obtain ⟨M, hM⟩ := h.body_compact.exists_bound_of_continuousOn hc.continuousOn
  exact ⟨max M 0, le_max_right _ _, fun q hq => ((le_abs_self _).trans (hM q hq)).trans (le_max_left _ _)⟩

/-- far out the square of the distance is large -/
theorem far_square {o d : V3 ℝ} (hd : d ≠ V3.zeros) (K : ℝ) : ∀ᶠ t : ℝ in atTop, K < rdot (o.add (V3.smul t d)) (o.add (V3.smul t d)) := by
  have hC := rdot_self_pos hd
  filter_upwards [eventually_affine hC (2 * rdot o d) (max 1 (K - rdot o o + 1)), eventually_ge_atTop 1] with t h1 h2
  have e : rdot (o.add (V3.smul t d)) (o.add (V3.smul t d)) = rdot o o + t * (rdot d d * t + 2 * rdot o d) := by simp [rdot]; ring
  rw [e]
  have h3 : 0 ≤ rdot d d * t + 2 * rdot o d := by linarith [le_max_left 1 (K - rdot o o + 1)]
  have h4 := mul_le_mul_of_nonneg_right h2 h3
  linarith [le_max_right 1 (K - rdot o o + 1)]

theorem far_segment {a b : V3 ℝ} {K : ℝ} (hK : 0 ≤ K) (ha : 2 * K < rdot a a) (hb : 2 * K < rdot b b) (hab : rdot a b = 0) (t : ℝ) :
    K < rdot (a.add (V3.smul t (b.sub a))) (a.add (V3.smul t (b.sub a))) := by
  have e : rdot (a.add (V3.smul t (b.sub a))) (a.add (V3.smul t (b.sub a))) = (1 - t) ^ 2 * rdot a a + t ^ 2 * rdot b b + 2 * t * (1 - t) * rdot a b := by
    simp [rdot]; ring
  rw [e, hab, mul_zero, add_zero]
  set A := rdot a a
  set B := rdot b b
  obtain ⟨c, hc, hcA, hcB⟩ : ∃ c, K < c / 2 ∧ c ≤ A ∧ c ≤ B := ⟨min A B, by rcases min_choice A B with h | h <;> rw [h] <;> linarith, min_le_left _ _, min_le_right _ _⟩
  have h1 := mul_le_mul_of_nonneg_left hcA (sq_nonneg (1 - t))
  have h2 := mul_le_mul_of_nonneg_left hcB (sq_nonneg t)
  nlinarith [sq_nonneg (1 - 2 * t)]

/-- agreement near one station outside of both bodies is agreement far away -/
theorem zero_far (hh₁ : h₁.IsHull) (hh₂ : h₂.IsHull) {s : V3 ℝ} (hz : ConstNear h₁ h₂ k₁ k₂ c s) (hs1 : s.toP ∉ h₁.body) (hs2 : s.toP ∉ h₂.body) :
    ∃ K : ℝ, ∀ x : V3 ℝ, K < rdot x x → ConstNear h₁ h₂ k₁ k₂ c x := by
  obtain ⟨K1, hK1, hb1⟩ := body_bound h₁
  obtain ⟨K2, hK2, hb2⟩ := body_bound h₂
  set K := max K1 K2 with hK
  have hK0 : 0 ≤ K := hK1.trans (le_max_left _ _)
  have out : ∀ x : V3 ℝ, K < rdot x x → x.toP ∉ h₁.body ∧ x.toP ∉ h₂.body := by
    intro x hx
    refine ⟨fun hm => ?_, fun hm => ?_⟩
    · have := hb1 _ hm; rw [toP_toV] at this; linarith [le_max_left K1 K2]
    · have := hb2 _ hm; rw [toP_toV] at this; linarith [le_max_right K1 K2]
  have chain : ∀ a b : V3 ℝ, ConstNear h₁ h₂ k₁ k₂ c a → 2 * K < rdot a a → 2 * K < rdot b b → rdot a b = 0 → ConstNear h₁ h₂ k₁ k₂ c b :=
    fun a b ha h1 h2 h3 => zero_visible hh₁ hh₂ ha fun t _ => out _ (far_segment hK0 h1 h2 h3 t)
  -- away from both bodies
  obtain ⟨n1, hn1⟩ := plane_between h₁ hs1
  obtain ⟨n2, hn2⟩ := plane_between h₂ hs2
  obtain ⟨w, hw, hw1, hw2⟩ := exists_orth n1 n2
  rw [rdot_comm] at hw1 hw2
  obtain ⟨T, hT⟩ := (far_square (o := s) hw (2 * K)).exists
  have hfar : ConstNear h₁ h₂ k₁ k₂ c (s.add (V3.smul T w)) := by
    refine zero_visible hh₁ hh₂ hz fun t _ => ?_
    have e : s.add (V3.smul t ((s.add (V3.smul T w)).sub s)) = s.add (V3.smul (t * T) w) := by refine V3.ext' ?_ ?_ ?_ <;> simp <;> ring
    rw [e]
    refine ⟨fun hm => ?_, fun hm => ?_⟩
    · have := hn1 _ hm; rw [form_line, hw1, mul_zero, add_zero] at this; exact lt_irrefl _ this
    · have := hn2 _ hm; rw [form_line, hw2, mul_zero, add_zero] at this; exact lt_irrefl _ this
  refine ⟨2 * K, fun x hx => ?_⟩
  obtain ⟨v, hv, hv1, hv2⟩ := exists_orth (s.add (V3.smul T w)) x
  obtain ⟨γ, hc⟩ := (far_square (o := V3.zeros) hv (2 * K)).exists
  have e : (V3.zeros : V3 ℝ).add (V3.smul γ v) = V3.smul γ v := by refine V3.ext' ?_ ?_ ?_ <;> simp
  rw [e] at hc
  refine chain (V3.smul γ v) x (chain _ _ hfar hT hc ?_) hc hx ?_
  · rw [rdot_smul, rdot_comm, hv1, mul_zero]
  · rw [rdot_comm, rdot_smul, rdot_comm, hv2, mul_zero]

theorem exists_simplex (hh : h.IsHull) : ∃ t, t ∈ h.simplices := by
  obtain ⟨p, hp⟩ := hull_mkPoly_ok hh (fun _ => true)
  obtain ⟨q, hq⟩ := hh.solid
  obtain ⟨k, -⟩ := face_across hh hp (m := ⟨0, 1, 0⟩) (o := (P3.toV q).sub ⟨0, 1, 0⟩) (x := P3.toV q) (w := ⟨1, 0, 0⟩)
    hq (by simp [form, rdot, P3.toV, V3.toP]) (fun h0 => by have := congrArg V3.x h0; simp at this) (by simp [rdot])
  have hlen := (C24_counter_clockwise hh hp).1
  have hk : (k : Nat) < h.simplices.length := hlen ▸ k.2
  exact ⟨_, List.getElem_mem hk⟩

theorem Hull.Skew.ne {d : V3 ℝ} (hh : h.IsHull) (hd : h.Skew d) : d ≠ V3.zeros := by
  rintro rfl
  obtain ⟨t, ht⟩ := exists_simplex hh
  exact hd t ht (rdot_zeros _)

/-- far away there is no attraction -/
theorem attraction_far (hh : h.IsHull) {d : V3 ℝ} (hd : h.Skew d) {ε : ℝ} (hε : 0 < ε) :
    ∀ᶠ t : ℝ in atTop, ∀ e, |rdot (attraction h.body (V3.zeros.add (V3.smul t d))) e| ≤ ε * vlen e := by
  obtain ⟨p, hp⟩ := hull_mkPoly_ok hh (fun _ => true)
  obtain ⟨M, hM⟩ := h.body_compact.exists_bound_of_continuousOn (form_continuous d).continuousOn
  have hdp := vlen_pos (hd.ne hh)
  set V := (volume h.body).toReal with hV
  have hV0 : 0 ≤ V := ENNReal.toReal_nonneg
  -- a distance at which the bound is small
  obtain ⟨D, hD0, hD⟩ : ∃ D : ℝ, 0 < D ∧ V / D ^ 2 ≤ ε := by
    refine ⟨max 1 (V / ε), lt_of_lt_of_le one_pos (le_max_left _ _), ?_⟩
    have h1 : (1 : ℝ) ≤ max 1 (V / ε) := le_max_left _ _
    have h2 : V ≤ ε * max 1 (V / ε) := by
      have := mul_le_mul_of_nonneg_left (le_max_right 1 (V / ε)) hε.le
      rwa [mul_div_cancel₀ _ hε.ne'] at this
    rw [div_le_iff₀ (by positivity)]
    nlinarith
  filter_upwards [far_regular hd V3.zeros, eventually_affine (rdot_self_pos (hd.ne hh)) (-M) (D * vlen d)] with t h1 h2 e
  set s := V3.zeros.add (V3.smul t d) with hs
  obtain ⟨T, hv⟩ := C16_newton_returned hh hp h1.1 (OffPlanes.corner h1.2) 1 1
  have hb := C51_bound hh hp h1.1 zero_le_one zero_le_one hv hD0 (fun q hq => by
    have h3 : form d q ≤ M := (le_abs_self _).trans (hM q hq)
    have h4 : rdot (s.sub (P3.toV q)) d ≤ vlen (s.sub (P3.toV q)) * vlen d := (le_abs_self _).trans (abs_rdot_le _ _)
    have e1 : rdot (s.sub (P3.toV q)) d = t * rdot d d - form d q := by simp [hs, form, rdot]; ring
    have e2 : vlen (s.sub (P3.toV q)) = dist3 q s := by simp only [vlen, dist3, rdot, P3.toV, sub_x, sub_y, sub_z]; congr 1; ring
    rw [e1, e2] at h4
    have h5 : D * vlen d ≤ dist3 q s * vlen d := by linarith
    exact le_of_mul_le_mul_right h5 hdp)
  have e3 : vlen (V3.smul (100000 * 1 * 1) (attraction h.body s)) = 100000 * vlen (attraction h.body s) := by
    rw [vlen_smul]; norm_num
  rw [e3] at hb
  have h6 : vlen (attraction h.body s) ≤ ε := by
    refine le_trans ?_ hD
    have e4 : 100000 * 1 * 1 * V / D ^ 2 = 100000 * (V / D ^ 2) := by ring
    rw [e4] at hb
    linarith
  exact (abs_rdot_le _ _).trans (mul_le_mul_of_nonneg_right h6 (vlen_nonneg _))

theorem sameFar_of_near (hh₁ : h₁.IsHull) (hh₂ : h₂.IsHull) {s : V3 ℝ} (hz : ConstNear h₁ h₂ k₁ k₂ c s) (hs1 : s.toP ∉ h₁.body) (hs2 : s.toP ∉ h₂.body) :
    SameFar h₁ h₂ k₁ k₂ := by
  obtain ⟨K, hK⟩ := zero_far hh₁ hh₂ hz hs1 hs2
  have hc : c = V3.zeros := by
    by_contra hc0
    have hcp := vlen_pos hc0
    obtain ⟨d, hd1, hd2⟩ := exists_skew hh₁ hh₂
    set ε := vlen c / (2 * (|k₁| + |k₂| + 1)) with hεd
    have hε : 0 < ε := by positivity
    obtain ⟨t, ⟨h1, h2⟩, h3⟩ := (((attraction_far hh₁ hd1 hε).and (attraction_far hh₂ hd2 hε)).and (far_square (o := V3.zeros) (hd1.ne hh₁) K)).exists
    have h4 := (hK _ h3).self_of_nhds c
    rw [toP_toV] at h4
    unfold attDiff at h4
    have g1 := mul_le_mul_of_nonneg_left (h1 c) (abs_nonneg k₁)
    have g2 := mul_le_mul_of_nonneg_left (h2 c) (abs_nonneg k₂)
    rw [← abs_mul] at g1 g2
    have g3 := (le_abs_self _).trans (abs_sub (k₁ * rdot (attraction h₁.body (V3.zeros.add (V3.smul t d))) c) (k₂ * rdot (attraction h₂.body (V3.zeros.add (V3.smul t d))) c))
    rw [h4, ← vlen_sq] at g3
    have g4 : vlen c * vlen c ≤ (|k₁| + |k₂|) * (ε * vlen c) := by linarith
    have g5 : vlen c ≤ (|k₁| + |k₂|) * ε := by
      have : vlen c * vlen c ≤ ((|k₁| + |k₂|) * ε) * vlen c := by linarith
      exact le_of_mul_le_mul_right this hcp
    have g6 : ε * (2 * (|k₁| + |k₂| + 1)) = vlen c := by rw [hεd]; field_simp
    have g7 : 0 ≤ (|k₁| + |k₂|) * ε := by positivity
    linarith
  intro o d hd _
  filter_upwards [far_square (o := o) (hd.ne hh₁) K] with t ht e
  have := (hK _ ht).self_of_nhds e
  rwa [toP_toV, hc, rdot_comm, rdot_zeros] at this

theorem SameFar.symm (hs : SameFar h₁ h₂ k₁ k₂) : SameFar h₂ h₁ k₂ k₁ := by
  intro o d h1 h2
  filter_upwards [hs o d h2 h1] with t ht e
  have := ht e
  unfold attDiff at this ⊢
  linarith

/-- some station far away is attracted -/
theorem attraction_somewhere (hh : h.IsHull) {d : V3 ℝ} (hd : h.Skew d) : ∀ᶠ t : ℝ in atTop, ∃ e, rdot (attraction h.body (V3.zeros.add (V3.smul t d))) e ≠ 0 := by
  obtain ⟨p, hp⟩ := hull_mkPoly_ok hh (fun _ => true)
  obtain ⟨K, hK, hb⟩ := body_bound h
  filter_upwards [far_regular hd V3.zeros, far_square (o := V3.zeros) (hd.ne hh) K] with t h1 h2
  set s := V3.zeros.add (V3.smul t d)
  have hout : s.toP ∉ h.body := fun hm => by have := hb _ hm; rw [toP_toV] at this; linarith
  obtain ⟨n, hn⟩ := plane_between h hout
  obtain ⟨T, hv⟩ := C16_newton_returned hh hp h1.1 (OffPlanes.corner h1.2) 1 1
  obtain ⟨q, hq⟩ := hh.solid.mono interior_subset
  have hn0 : V3.smul (-1) n ≠ V3.zeros := by
    intro h0
    have hx := congrArg V3.x h0
    have hy := congrArg V3.y h0
    have hz := congrArg V3.z h0
    simp at hx hy hz
    have := hn q hq
    simp [form, rdot, hx, hy, hz] at this
  have := C17_towards hh hp h1.1 one_pos one_pos hv hn0 (fun q hq => by
    have := hn q hq
    unfold form at this
    rw [toP_toV] at this
    have e : ∀ x, rdot (V3.smul (-1) n) x = -rdot n x := fun x => by simp [rdot]; ring
    rw [e, e]
    linarith)
  refine ⟨V3.smul (-1) n, fun h0 => ?_⟩
  rw [rdot_smul, rdot_comm, h0, mul_zero] at this
  exact lt_irrefl _ this

/-- **two bodies with the same attraction far away are the same, and so are their weights** -/
theorem same_body (hh₁ : h₁.IsHull) (hh₂ : h₂.IsHull) (hfar : SameFar h₁ h₂ k₁ k₂) (hk₁ : k₁ ≠ 0) (hk₂ : k₂ ≠ 0) : h₁.body = h₂.body ∧ k₁ = k₂ := by
  have hB := (body_subset hh₁ hh₂ hfar hk₁).antisymm (body_subset hh₂ hh₁ hfar.symm hk₂)
  refine ⟨hB, ?_⟩
  obtain ⟨d, hd1, hd2⟩ := exists_skew hh₁ hh₂
  obtain ⟨t, ht, e, he⟩ := ((hfar V3.zeros d hd1 hd2).and (attraction_somewhere hh₁ hd1)).exists
  have := ht e
  unfold attDiff at this
  rw [← hB, ← sub_mul] at this
  exact sub_eq_zero.mp ((mul_eq_zero.mp this).resolve_right he)

end
end Geec
