import Verif.Lemmas.Unique
import Verif.Lemmas.Potential
/-
Lemmas for C112: two bodies with the same attraction far away are the same body.
-/
namespace Geec
open Arith MeasureTheory Filter Topology
noncomputable section
variable {h h₁ h₂ : Hull ℝ} {k₁ k₂ : ℝ}

/-- the difference of the attractions of two bodies along a direction -/
def attDiff (h₁ h₂ : Hull ℝ) (k₁ k₂ : ℝ) (s e : V3 ℝ) : ℝ :=
  k₁ * rdot (attraction h₁.body s) e - k₂ * rdot (attraction h₂.body s) e

/-- the attractions agree far out along almost all directions -/
def SameFar (h₁ h₂ : Hull ℝ) (k₁ k₂ : ℝ) : Prop :=
  ∀ o d : V3 ℝ, h₁.Skew d → h₂.Skew d → ∀ᶠ t : ℝ in atTop, ∀ e, attDiff h₁ h₂ k₁ k₂ (o.add (V3.smul t d)) e = 0

theorem not_frontier_of_not_mem {s : V3 ℝ} (hs : s.toP ∉ h.body) : s.toP ∉ frontier h.body :=
  fun hf => hs (h.body_compact.isClosed.frontier_subset hf)

theorem not_frontier_of_interior {s : V3 ℝ} (hs : s.toP ∈ interior h.body) : s.toP ∉ frontier h.body := fun hf => hf.2 hs

theorem attDiff_analytic (hh₁ : h₁.IsHull) (hh₂ : h₂.IsHull) (k₁ k₂ : ℝ) {s d : V3 ℝ} {t : ℝ} (h1 : (s.add (V3.smul t d)).toP ∉ frontier h₁.body)
    (h2 : (s.add (V3.smul t d)).toP ∉ frontier h₂.body) (e : V3 ℝ) : AnalyticAt ℝ (fun t => attDiff h₁ h₂ k₁ k₂ (s.add (V3.smul t d)) e) t :=
  analytic_shift (F := fun s => attDiff h₁ h₂ k₁ k₂ s e)
    ((analyticAt_const.mul (attraction_analytic hh₁ h1 d e)).sub (analyticAt_const.mul (attraction_analytic hh₂ h2 d e)))

theorem zero_along {F : ℝ → ℝ} {a b c : ℝ} (ha : ∀ t ∈ Set.Icc a b, AnalyticAt ℝ F t) (hc : c ∈ Set.Icc a b) (h0 : ∀ᶠ t in 𝓝 c, F t = 0) : F a = 0 :=
  AnalyticOnNhd.eqOn_zero_of_preconnected_of_eventuallyEq_zero ha isPreconnected_Icc hc h0 ⟨le_rfl, hc.1.trans hc.2⟩

theorem form_line (m s d : V3 ℝ) (t : ℝ) : form m (s.add (V3.smul t d)).toP = form m s.toP + t * rdot m d := by
  rw [form_toP, form_toP, rdot_add, rdot_smul]

/-- outside, along the directions that are parallel to no face -/
theorem ray_zero (hh₁ : h₁.IsHull) (hh₂ : h₂.IsHull) (hfar : SameFar h₁ h₂ k₁ k₂) {m o y : V3 ℝ} (ho : o.toP ∈ h₁.body)
    (hm : ∀ q ∈ h₂.body, form m q < form m o.toP) (hy : form m o.toP ≤ form m y.toP) (hy1 : y.toP ∉ h₁.body)
    (hs1 : h₁.Skew (y.sub o)) (hs2 : h₂.Skew (y.sub o)) (e : V3 ℝ) : attDiff h₁ h₂ k₁ k₂ y e = 0 := by
  have hd : rdot m (y.sub o) = form m y.toP - form m o.toP := by rw [rdot_sub]; rfl
  have off1 : ∀ t : ℝ, 1 ≤ t → (o.add (V3.smul t (y.sub o))).toP ∉ h₁.body := by
    intro t ht hmem
    apply hy1
    have ht0 : (0 : ℝ) < t := by linarith
    have hle : 1 / t ≤ 1 := by rw [div_le_one ht0]; exact ht
    have hc : Convex ℝ h₁.body := convex_convexHull ℝ _
    have := hc ho hmem (by linarith : (0 : ℝ) ≤ 1 - 1 / t) (by positivity : (0 : ℝ) ≤ 1 / t) (by ring)
    convert this using 1
    refine Prod.ext ?_ (Prod.ext ?_ ?_) <;> simp [V3.toP] <;> field_simp <;> ring
  have off2 : ∀ t : ℝ, 1 ≤ t → (o.add (V3.smul t (y.sub o))).toP ∉ h₂.body := by
    intro t ht hmem
    have := hm _ hmem
    rw [form_line, hd] at this
    have h3 : 0 ≤ t * (form m y.toP - form m o.toP) := mul_nonneg (by linarith) (by linarith)
    linarith
  obtain ⟨T, hT⟩ := eventually_atTop.mp (hfar o _ hs1 hs2)
  have hz := zero_along (F := fun t => attDiff h₁ h₂ k₁ k₂ (o.add (V3.smul t (y.sub o))) e) (a := 1) (b := max T 1 + 1) (c := max T 1 + 1)
    (fun t ht => attDiff_analytic hh₁ hh₂ k₁ k₂ (not_frontier_of_not_mem (off1 t ht.1)) (not_frontier_of_not_mem (off2 t ht.1)) e)
    ⟨by linarith [le_max_right T 1], le_rfl⟩ (by
      filter_upwards [lt_mem_nhds (by linarith [le_max_left T 1] : T < max T 1 + 1)] with t ht
      exact hT t ht.le e)
  have e1 : o.add (V3.smul 1 (y.sub o)) = y := by refine V3.ext' ?_ ?_ ?_ <;> simp
  simp only [e1] at hz
  exact hz

theorem tendsto_form (m g d : V3 ℝ) : Tendsto (fun ε : ℝ => form m (g.add (V3.smul ε d)).toP) (𝓝 0) (𝓝 (form m g.toP)) := by
  simp only [form_line]
  have : Tendsto (fun ε : ℝ => form m g.toP + ε * rdot m d) (𝓝 0) (𝓝 (form m g.toP + 0 * rdot m d)) :=
    (continuous_const.add (continuous_id.mul continuous_const)).tendsto 0
  rwa [zero_mul, add_zero] at this

theorem tendsto_line (g d : V3 ℝ) : Tendsto (fun ε : ℝ => (g.add (V3.smul ε d)).toP) (𝓝 0) (𝓝 g.toP) := by
  simp only [toP_line]
  have : Tendsto (fun ε : ℝ => g.toP + ε • d.toP) (𝓝 0) (𝓝 (g.toP + (0 : ℝ) • d.toP)) :=
    (continuous_const.add (continuous_id.smul continuous_const)).tendsto 0
  rwa [zero_smul, add_zero] at this

/-- everywhere outside, beyond the plane -/
theorem outside_zero (hh₁ : h₁.IsHull) (hh₂ : h₂.IsHull) (hfar : SameFar h₁ h₂ k₁ k₂) {m o y : V3 ℝ} (ho : o.toP ∈ h₁.body)
    (hm : ∀ q ∈ h₂.body, form m q < form m o.toP) (hy : form m o.toP < form m y.toP) (hy1 : y.toP ∉ h₁.body) (e : V3 ℝ) :
    attDiff h₁ h₂ k₁ k₂ y e = 0 := by
  obtain ⟨d, hd1, hd2⟩ := exists_skew hh₁ hh₂
  have hy2 : y.toP ∉ h₂.body := fun hmem => absurd (hm _ hmem) (not_lt.mpr hy.le)
  have ey : y.add (V3.smul 0 d) = y := by refine V3.ext' ?_ ?_ ?_ <;> simp
  have hz : ∀ᶠ ε : ℝ in 𝓝[≠] 0, attDiff h₁ h₂ k₁ k₂ (y.add (V3.smul ε d)) e = 0 := by
    have h1 : ∀ᶠ ε : ℝ in 𝓝[≠] 0, (y.add (V3.smul ε d)).toP ∉ h₁.body :=
      ((tendsto_line y d).eventually (h₁.body_compact.isClosed.isOpen_compl.mem_nhds hy1)).filter_mono nhdsWithin_le_nhds
    have h2 : ∀ᶠ ε : ℝ in 𝓝[≠] 0, form m o.toP < form m (y.add (V3.smul ε d)).toP :=
      ((tendsto_form m y d).eventually_const_lt hy).filter_mono nhdsWithin_le_nhds
    filter_upwards [h1, h2, skew_near hd1 (y.sub o), skew_near hd2 (y.sub o)] with ε g1 g2 g3 g4
    have ev : (y.sub o).add (V3.smul ε d) = (y.add (V3.smul ε d)).sub o := by refine V3.ext' ?_ ?_ ?_ <;> simp <;> ring
    rw [ev] at g3 g4
    exact ray_zero hh₁ hh₂ hfar ho hm g2.le g1 g3 g4 e
  have hc := (attDiff_analytic hh₁ hh₂ k₁ k₂ (t := 0) (d := d) (by rw [ey]; exact not_frontier_of_not_mem hy1) (by rw [ey]; exact not_frontier_of_not_mem hy2) e).continuousAt
  have hc' := (hc.tendsto).mono_left (nhdsWithin_le_nhds (s := {0}ᶜ))
  have h0 := hc'.congr' hz
  rw [ey] at h0
  exact tendsto_nhds_unique h0 tendsto_const_nhds

/-- inside, along the faces that can be reached -/
theorem tangent_zero (hh₁ : h₁.IsHull) (hh₂ : h₂.IsHull) (hfar : SameFar h₁ h₂ k₁ k₂) {m o x z : V3 ℝ} (ho : o.toP ∈ h₁.body)
    (hm : ∀ q ∈ h₂.body, form m q < form m o.toP) {inHull : V3 ℝ → Bool} {p : Poly ℝ} (hp : mkPoly h₁ inHull = .ok p) (k : Fin p.faces.length)
    (hz : z.toP ∈ openTriangle (p.faces[k]).pa (p.faces[k]).pb (p.faces[k]).pc) (hzm : form m o.toP < form m z.toP)
    (hx : x.toP ∈ interior h₁.body) (hxm : form m o.toP < form m x.toP) {e : V3 ℝ} (he : rdot (p.faces[k]).un e = 0) :
    attDiff h₁ h₂ k₁ k₂ x e = 0 := by
  have hS := hull_surface hh₁ hp
  have hzt : z.toP ∈ triangle (p.faces[k]).pa (p.faces[k]).pb (p.faces[k]).pc := by
    obtain ⟨u, v, w, hu, hv, hw, hs, hq⟩ := hz
    exact mem_triangle.mpr ⟨u, v, w, hu.le, hv.le, hw.le, hs, hq⟩
  have hzB := hS.sub k hzt
  have hzN : form (p.faces[k]).un z.toP = rdot (p.faces[k]).un (p.faces[k]).pa := tri_plane (hS.normal k) hzt
  have hxN : form (p.faces[k]).un x.toP < rdot (p.faces[k]).un (p.faces[k]).pa := hS.lt k _ hx
  set d := z.sub x with hd
  have hmd : rdot m d = form m z.toP - form m x.toP := by rw [hd, rdot_sub]; rfl
  have hnd : rdot (p.faces[k]).un d = form (p.faces[k]).un z.toP - form (p.faces[k]).un x.toP := by rw [hd, rdot_sub]; rfl
  have e1 : x.add (V3.smul 1 d) = z := by refine V3.ext' ?_ ?_ ?_ <;> simp [hd]
  obtain ⟨δ, hδ, hδm⟩ : ∃ δ : ℝ, 0 < δ ∧ ∀ t, 0 ≤ t → t ≤ 1 + δ → form m o.toP < form m (x.add (V3.smul t d)).toP := by
    have h1 := (tendsto_form m z d).eventually_const_lt hzm
    obtain ⟨r, hr, hb⟩ := Metric.eventually_nhds_iff.mp h1
    refine ⟨r / 2, by linarith, fun t ht0 ht => ?_⟩
    rcases le_or_gt t 1 with h2 | h2
    · rw [form_line, hmd]
      have : form m x.toP + t * (form m z.toP - form m x.toP) = (1 - t) * form m x.toP + t * form m z.toP := by ring
      rw [this]
      have h3 : form m o.toP = (1 - t) * form m o.toP + t * form m o.toP := by ring
      rw [h3]
      rcases ht0.eq_or_lt with rfl | ht1
      · linarith
      · have g1 := mul_le_mul_of_nonneg_left hxm.le (by linarith : 0 ≤ 1 - t)
        have g2 := mul_lt_mul_of_pos_left hzm ht1
        linarith
    · have := hb (y := t - 1) (by rw [Real.dist_eq, sub_zero, abs_of_pos (by linarith)]; linarith)
      have e2 : z.add (V3.smul (t - 1) d) = x.add (V3.smul t d) := by refine V3.ext' ?_ ?_ ?_ <;> simp [hd] <;> ring
      rwa [e2] at this
  have off2 : ∀ t, 0 ≤ t → t ≤ 1 + δ → (x.add (V3.smul t d)).toP ∉ h₂.body := fun t h1 h2 hmem => absurd (hm _ hmem) (not_lt.mpr (hδm t h1 h2).le)
  have off1 : ∀ t, 1 < t → (x.add (V3.smul t d)).toP ∉ h₁.body := by
    intro t ht hmem
    have h1 : form (p.faces[k]).un (x.add (V3.smul t d)).toP ≤ rdot (p.faces[k]).un (p.faces[k]).pa := hS.le k _ hmem
    rw [form_line, hnd, hzN] at h1
    nlinarith
  have in1 : ∀ t, 0 ≤ t → t < 1 → (x.add (V3.smul t d)).toP ∈ interior h₁.body := by
    intro t h1 h2
    have := hS.convex.combo_interior_self_mem_interior hx hzB (by linarith : 0 < 1 - t) h1 (by ring)
    convert this using 1
    refine Prod.ext ?_ (Prod.ext ?_ ?_) <;> simp [V3.toP, hd] <;> ring
  have hz0 := zero_along (F := fun t => attDiff h₁ h₂ k₁ k₂ (x.add (V3.smul t d)) e) (a := 0) (b := 1 + δ / 2) (c := 1 + δ / 2) (by
      rintro t ⟨ht0, ht1⟩
      have h2 := not_frontier_of_not_mem (off2 t ht0 (by linarith))
      rcases lt_trichotomy t 1 with h1 | rfl | h1
      · exact attDiff_analytic hh₁ hh₂ k₁ k₂ (not_frontier_of_interior (in1 t ht0 h1)) h2 e
      · refine analytic_shift (F := fun s => attDiff h₁ h₂ k₁ k₂ s e) ?_
        have h3 := attraction_tangent_analytic hh₁ hp k hz d he
        rw [← e1] at h3
        exact (analyticAt_const.mul h3).sub (analyticAt_const.mul (attraction_analytic hh₂ h2 d e))
      · exact attDiff_analytic hh₁ hh₂ k₁ k₂ (not_frontier_of_not_mem (off1 t h1)) h2 e)
    ⟨by linarith, le_rfl⟩ (by
      filter_upwards [lt_mem_nhds (by linarith : 1 < 1 + δ / 2), gt_mem_nhds (by linarith : 1 + δ / 2 < 1 + δ)] with t h1 h2
      exact outside_zero hh₁ hh₂ hfar ho hm (hδm t (by linarith) h2.le) (off1 t h1) e)
  have e0 : x.add (V3.smul 0 d) = x := by refine V3.ext' ?_ ?_ ?_ <;> simp
  simp only [e0] at hz0
  exact hz0

/-- a line from the inside that stays beyond the plane leaves through a face -/
theorem face_across (hh₁ : h₁.IsHull) {m o x w : V3 ℝ} {inHull : V3 ℝ → Bool} {p : Poly ℝ} (hp : mkPoly h₁ inHull = .ok p)
    (hx : x.toP ∈ interior h₁.body) (hxm : form m o.toP < form m x.toP) (hw : w ≠ V3.zeros) (hmw : rdot m w = 0) :
    ∃ (k : Fin p.faces.length) (z : V3 ℝ), z.toP ∈ openTriangle (p.faces[k]).pa (p.faces[k]).pb (p.faces[k]).pc ∧ form m o.toP < form m z.toP ∧
      rdot (p.faces[k]).un w ≠ 0 := by
  have hS := hull_surface hh₁ hp
  obtain ⟨T, hT0, hT⟩ : ∃ T : ℝ, 0 ≤ T ∧ (x.add (V3.smul T w)).toP ∉ h₁.body := by
    by_contra hcon
    push Not at hcon
    obtain ⟨M, hM⟩ := h₁.body_compact.exists_bound_of_continuousOn (form_continuous w).continuousOn
    have hww := rdot_self_pos hw
    obtain ⟨t, ht, ht0⟩ := ((eventually_affine hww (form w x.toP) M).and (eventually_ge_atTop 0)).exists
    have := hM _ (hcon t ht0)
    rw [form_line, Real.norm_eq_abs] at this
    have := (abs_le.mp this).2
    linarith
  have hpre : IsPreconnected ((fun t : ℝ => (x.add (V3.smul t w)).toP) '' Set.Icc 0 T) := by
    refine isPreconnected_Icc.image _ (Continuous.continuousOn ?_)
    simp only [toP_line]
    exact continuous_const.add (continuous_id.smul continuous_const)
  have e0 : x.add (V3.smul 0 w) = x := by refine V3.ext' ?_ ?_ ?_ <;> simp
  obtain ⟨q, ⟨t, ht, rfl⟩, hq⟩ := meets_frontier hpre
    ⟨x.toP, ⟨0, ⟨le_rfl, hT0⟩, by simp only [e0]⟩, interior_subset hx⟩ ⟨_, ⟨T, ⟨hT0, le_rfl⟩, rfl⟩, hT⟩
  obtain ⟨k, hk⟩ := hS.cover _ hq
  have h1 : form (p.faces[k]).un (x.add (V3.smul t w)).toP = rdot (p.faces[k]).un (p.faces[k]).pa := tri_plane (hS.normal k) hk
  have h2 : form (p.faces[k]).un x.toP < rdot (p.faces[k]).un (p.faces[k]).pa := hS.lt k _ hx
  have h3 : form m o.toP < form m (x.add (V3.smul t w)).toP := by rw [form_line, hmw, mul_zero, add_zero]; exact hxm
  set q := x.add (V3.smul t w) with hqd
  set g : V3 ℝ := (((p.faces[k]).pa.add (p.faces[k]).pb).add (p.faces[k]).pc).sdiv 3 with hg
  have h4 : ∀ᶠ ε : ℝ in 𝓝[>] 0, ε < 1 ∧ form m o.toP < form m (q.add (V3.smul ε (g.sub q))).toP :=
    (Filter.Eventually.and (gt_mem_nhds one_pos) ((tendsto_form m q _).eventually_const_lt h3)).filter_mono nhdsWithin_le_nhds
  obtain ⟨ε, ⟨hε1, hε⟩, hε0⟩ := (h4.and self_mem_nhdsWithin).exists
  have hε0 : 0 < ε := hε0
  refine ⟨k, _, ?_, hε, fun h0 => ?_⟩
  · obtain ⟨u', v', w', hu', hv', hw', hs', hq'⟩ := mem_triangle.mp hk
    refine ⟨(1 - ε) * u' + ε / 3, (1 - ε) * v' + ε / 3, (1 - ε) * w' + ε / 3, ?_, ?_, ?_, by linear_combination (1 - ε) * hs', ?_⟩
    · have : 0 ≤ (1 - ε) * u' := mul_nonneg (by linarith) hu'
      linarith
    · have : 0 ≤ (1 - ε) * v' := mul_nonneg (by linarith) hv'
      linarith
    · have : 0 ≤ (1 - ε) * w' := mul_nonneg (by linarith) hw'
      linarith
    · have q1 := congrArg (fun z : P3 => z.1) hq'
      have q2 := congrArg (fun z : P3 => z.2.1) hq'
      have q3 := congrArg (fun z : P3 => z.2.2) hq'
      simp only [V3.toP, Prod.fst_add, Prod.snd_add, Prod.smul_fst, Prod.smul_snd, smul_eq_mul] at q1 q2 q3
      rw [hg]
      refine Prod.ext ?_ (Prod.ext ?_ ?_) <;> simp only [V3.toP, V3.sdiv, add_x, add_y, add_z, sub_x, sub_y, sub_z, smul_x, smul_y, smul_z, Prod.fst_add, Prod.snd_add, Prod.smul_fst, Prod.smul_snd, smul_eq_mul]
      · simp; linear_combination (1 - ε) * q1
      · simp; linear_combination (1 - ε) * q2
      · simp; linear_combination (1 - ε) * q3
  · rw [hqd, form_line, h0, mul_zero, add_zero] at h1
    linarith

/-- inside, beyond the plane, all of the attraction -/
theorem inside_zero (hh₁ : h₁.IsHull) (hh₂ : h₂.IsHull) (hfar : SameFar h₁ h₂ k₁ k₂) {m o x : V3 ℝ} (ho : o.toP ∈ h₁.body)
    (hm : ∀ q ∈ h₂.body, form m q < form m o.toP) (hx : x.toP ∈ interior h₁.body) (hxm : form m o.toP < form m x.toP) (e : V3 ℝ) :
    attDiff h₁ h₂ k₁ k₂ x e = 0 := by
  obtain ⟨p, hp⟩ := hull_mkPoly_ok hh₁ (fun _ => true)
  obtain ⟨w, hw, hmw, -⟩ := exists_orth m V3.zeros
  rw [rdot_comm] at hmw
  obtain ⟨k, z, hz, hzm, -⟩ := face_across hh₁ hp hx hxm hw hmw
  obtain ⟨w', hw', hmw', hkw'⟩ := exists_orth m (p.faces[k]).un
  rw [rdot_comm] at hmw' hkw'
  obtain ⟨k', z', hz', hzm', hkw⟩ := face_across hh₁ hp hx hxm hw' hmw'
  set α := rdot (p.faces[k']).un e / rdot (p.faces[k']).un w' with hα
  have h1 := tangent_zero hh₁ hh₂ hfar ho hm hp k hz hzm hx hxm (e := V3.smul α w') (by rw [rdot_smul, hkw', mul_zero])
  have h2 := tangent_zero hh₁ hh₂ hfar ho hm hp k' hz' hzm' hx hxm (e := e.sub (V3.smul α w')) (by
    rw [rdot_sub, rdot_smul, hα, div_mul_cancel₀ _ hkw, sub_self])
  have h3 : attDiff h₁ h₂ k₁ k₂ x e = attDiff h₁ h₂ k₁ k₂ x (V3.smul α w') + attDiff h₁ h₂ k₁ k₂ x (e.sub (V3.smul α w')) := by
    simp only [attDiff, rdot_sub]; ring
  rw [h3, h1, h2, add_zero]

/-- the trace of the derivative of the attraction -/
theorem attraction_slope (hh : h.IsHull) {inHull : V3 ℝ → Bool} {p : Poly ℝ} (hp : mkPoly h inHull = .ok p) {s : V3 ℝ}
    (h0 : ∀ k : Fin p.faces.length, rdot (p.faces[k]).un ((p.faces[k]).pa.sub s) ≠ 0) (e : V3 ℝ) :
    HasDerivAt (fun t => rdot (attraction h.body (s.add (V3.smul t e))) e) (∑ k : Fin p.faces.length, faceSlope p.faces[k] s e e) 0 := by
  simp only [att_shares hh hp]
  exact HasDerivAt.fun_sum fun k _ => faceShare_path' ((hull_surface hh hp).normal k) (fun h => absurd h (h0 k)) e e

theorem avoid_planes (l : List (Face ℝ)) (hl : ∀ f ∈ l, f.un ≠ V3.zeros) (x : V3 ℝ) :
    ∃ d, ∀ᶠ ε : ℝ in 𝓝[≠] 0, ∀ f ∈ l, rdot f.un (f.pa.sub (x.add (V3.smul ε d))) ≠ 0 := by
  obtain ⟨d, hd⟩ := exists_avoiding (l.map Face.un) (by
    intro n hn
    obtain ⟨f, hf, rfl⟩ := List.mem_map.mp hn
    exact hl f hf)
  refine ⟨d, ?_⟩
  have hd' : ∀ f ∈ l, rdot f.un d ≠ 0 := fun f hf => hd _ (List.mem_map.mpr ⟨f, hf, rfl⟩)
  clear hd hl
  induction l with
  | nil => exact Eventually.of_forall fun t i hi => by cases hi
  | cons f l ih =>
    have h1 : ∀ᶠ ε : ℝ in 𝓝[≠] 0, rdot f.un (f.pa.sub (x.add (V3.smul ε d))) ≠ 0 := by
      have hne := hd' f (by simp)
      have e : ∀ ε, rdot f.un (f.pa.sub (x.add (V3.smul ε d))) = rdot f.un (f.pa.sub x) - ε * rdot f.un d := by intro ε; simp [rdot]; ring
      simp only [e]
      by_cases h0 : rdot f.un (f.pa.sub x) = 0
      · filter_upwards [self_mem_nhdsWithin] with ε hε
        rw [h0, zero_sub]
        exact neg_ne_zero.mpr (mul_ne_zero hε hne)
      · refine Eventually.filter_mono nhdsWithin_le_nhds ?_
        have : Tendsto (fun ε : ℝ => rdot f.un (f.pa.sub x) - ε * rdot f.un d) (𝓝 0) (𝓝 (rdot f.un (f.pa.sub x) - 0 * rdot f.un d)) :=
          (continuous_const.sub (continuous_id.mul continuous_const)).tendsto 0
        rw [zero_mul, sub_zero] at this
        exact this.eventually_ne h0
    filter_upwards [h1, ih fun g hg => hd' g (by simp [hg])] with t g1 g2 i hi
    rcases List.mem_cons.mp hi with rfl | hi
    · exact g1
    · exact g2 i hi

theorem un_ne {n a b c : V3 ℝ} (hn : IsNormal n a b c) : n ≠ V3.zeros := by
  intro h0
  have := hn.unit
  rw [h0, rdot_zeros] at this
  exact zero_ne_one this

/-- **the body is inside of the other one** -/
theorem body_subset (hh₁ : h₁.IsHull) (hh₂ : h₂.IsHull) (hfar : SameFar h₁ h₂ k₁ k₂) (hk : k₁ ≠ 0) : h₁.body ⊆ h₂.body := by
  intro xs hxs
  by_contra hxs2
  obtain ⟨f, u, hf, hfx⟩ := geometric_hahn_banach_closed_point (convex_convexHull ℝ _ : Convex ℝ h₂.body) h₂.body_compact.isClosed hxs2
  obtain ⟨m, hm⟩ := linear_form f
  have hform : ∀ q : P3, f q = form m q := fun q => hm ⟨q.1, q.2.1, q.2.2⟩
  -- a point inside of the first body and beyond the plane
  have hcl : xs ∈ closure (interior h₁.body) := by
    have hcv : Convex ℝ h₁.body := convex_convexHull ℝ _
    rw [hcv.closure_interior_eq_closure_of_nonempty_interior hh₁.solid]
    exact subset_closure hxs
  obtain ⟨q, hqu, hqi⟩ := mem_closure_iff.mp hcl {q | u < form m q} (isOpen_lt continuous_const (form_continuous m)) (by
    rw [Set.mem_ofPred_eq, ← hform]; exact hfx)
  rw [Set.mem_ofPred_eq] at hqu
  set o' : V3 ℝ := ⟨q.1, q.2.1, q.2.2⟩ with ho'
  have eo' : o'.toP = q := rfl
  rw [← eo'] at hqu hqi
  obtain ⟨b, hb⟩ : h₂.body.Nonempty := hh₂.solid.mono interior_subset
  have hm0 : m ≠ V3.zeros := by
    intro h0
    have h1 := hf b hb
    rw [hform, h0] at h1
    rw [h0] at hqu
    have z : ∀ q, form V3.zeros q = 0 := fun q => by simp [form, rdot]
    rw [z] at h1 hqu
    linarith
  have hmm := rdot_self_pos hm0
  have hev : ∀ᶠ ε : ℝ in 𝓝[<] 0, u < form m (o'.add (V3.smul ε m)).toP ∧ (o'.add (V3.smul ε m)).toP ∈ interior h₁.body :=
    (((tendsto_form m o' m).eventually_const_lt hqu).and ((tendsto_line o' m).eventually (isOpen_interior.mem_nhds hqi))).filter_mono nhdsWithin_le_nhds
  obtain ⟨ε, ⟨hou, hoi⟩, hε⟩ := (hev.and self_mem_nhdsWithin).exists
  have hε : ε < 0 := hε
  have hoo : form m (o'.add (V3.smul ε m)).toP < form m o'.toP := by
    rw [form_line]
    have := mul_neg_of_neg_of_pos hε hmm
    linarith
  set o := o'.add (V3.smul ε m) with hod
  have hsep : ∀ q ∈ h₂.body, form m q < form m o.toP := fun q hq => by
    have := hf q hq
    rw [hform] at this
    linarith
  -- a point off the planes
  obtain ⟨p₁, hp₁⟩ := hull_mkPoly_ok hh₁ (fun _ => true)
  obtain ⟨p₂, hp₂⟩ := hull_mkPoly_ok hh₂ (fun _ => true)
  have hS₁ := hull_surface hh₁ hp₁
  have hS₂ := hull_surface hh₂ hp₂
  obtain ⟨d, hd⟩ := avoid_planes p₂.faces (by
    intro f hf
    obtain ⟨k, hk, rfl⟩ := List.getElem_of_mem hf
    exact un_ne (hS₂.normal ⟨k, hk⟩)) o'
  have hev' : ∀ᶠ ε : ℝ in 𝓝[≠] 0, form m o.toP < form m (o'.add (V3.smul ε d)).toP ∧ (o'.add (V3.smul ε d)).toP ∈ interior h₁.body :=
    (((tendsto_form m o' d).eventually_const_lt hoo).and ((tendsto_line o' d).eventually (isOpen_interior.mem_nhds hqi))).filter_mono nhdsWithin_le_nhds
  obtain ⟨η, hη, hxm, hxi⟩ := (hd.and hev').exists
  set x := o'.add (V3.smul η d) with hxd
  have hx2 : x.toP ∉ h₂.body := fun hmem => absurd (hsep _ hmem) (not_lt.mpr hxm.le)
  have pl₂ : ∀ k : Fin p₂.faces.length, rdot (p₂.faces[k]).un ((p₂.faces[k]).pa.sub x) ≠ 0 := fun k => hη _ (List.getElem_mem _)
  have pl₁ : ∀ k : Fin p₁.faces.length, rdot (p₁.faces[k]).un ((p₁.faces[k]).pa.sub x) ≠ 0 := by
    intro k
    have : form (p₁.faces[k]).un x.toP < rdot (p₁.faces[k]).un (p₁.faces[k]).pa := hS₁.lt k _ hxi
    rw [form_toP] at this
    rw [rdot_sub]
    exact (sub_pos.mpr this).ne'
  have hslope : ∀ e : V3 ℝ, k₁ * (∑ k : Fin p₁.faces.length, faceSlope p₁.faces[k] x e e) - k₂ * (∑ k : Fin p₂.faces.length, faceSlope p₂.faces[k] x e e) = 0 := by
    intro e
    have h1 : HasDerivAt (fun t => attDiff h₁ h₂ k₁ k₂ (x.add (V3.smul t e)) e) _ 0 :=
      ((attraction_slope hh₁ hp₁ pl₁ e).const_mul k₁).sub ((attraction_slope hh₂ hp₂ pl₂ e).const_mul k₂)
    have h2 : (fun t => attDiff h₁ h₂ k₁ k₂ (x.add (V3.smul t e)) e) =ᶠ[𝓝 0] fun _ => 0 := by
      filter_upwards [(tendsto_form m x e).eventually_const_lt hxm, (tendsto_line x e).eventually (isOpen_interior.mem_nhds hxi)] with t g1 g2
      exact inside_zero hh₁ hh₂ hfar (interior_subset hoi) hsep g2 g1 e
    exact (h1.congr_of_eventuallyEq h2.symm).unique (hasDerivAt_const 0 0)
  have tr : ∀ {p : Poly ℝ}, (∀ k : Fin p.faces.length, IsNormal (p.faces[k]).un (p.faces[k]).pa (p.faces[k]).pb (p.faces[k]).pc) →
      (∀ k : Fin p.faces.length, rdot (p.faces[k]).un ((p.faces[k]).pa.sub x) ≠ 0) →
      (∑ k : Fin p.faces.length, faceSlope p.faces[k] x ⟨1, 0, 0⟩ ⟨1, 0, 0⟩) + (∑ k : Fin p.faces.length, faceSlope p.faces[k] x ⟨0, 1, 0⟩ ⟨0, 1, 0⟩) +
        (∑ k : Fin p.faces.length, faceSlope p.faces[k] x ⟨0, 0, 1⟩ ⟨0, 0, 1⟩) =
        -∑ k : Fin p.faces.length, solidAngle (p.faces[k]).un (p.faces[k]).pa (p.faces[k]).pb (p.faces[k]).pc x := by
    intro p hn h0
    rw [← Finset.sum_add_distrib, ← Finset.sum_add_distrib, ← Finset.sum_neg_distrib]
    exact Finset.sum_congr rfl fun k _ => faceSlope_trace (hn k) (h0 k)
  have t1 := tr hS₁.normal pl₁
  have t2 := tr hS₂.normal pl₂
  have a1 := angles_inside hS₁ hxi
  have a2 := angles_outside hS₂ hx2
  rw [a1] at t1
  rw [a2, neg_zero] at t2
  have s1 := hslope ⟨1, 0, 0⟩
  have s2 := hslope ⟨0, 1, 0⟩
  have s3 := hslope ⟨0, 0, 1⟩
  have : k₁ * (4 * Real.pi) = 0 := by linear_combination k₁ * t1 - k₂ * t2 - s1 - s2 - s3
  exact hk ((mul_eq_zero.mp this).resolve_right (by positivity))

end
end Geec
