import Verif.Lemmas.Analytic
import Verif.Lemmas.Limit
import Verif.Props.TensorLaws
import Verif.Props.Trace
import Verif.Props.Newton
import Mathlib.Analysis.LocallyConvex.Separation
/-
Lemmas for C112: how the attraction of a body continues across its faces.
-/
namespace Geec
open Arith MeasureTheory Filter Topology
noncomputable section
variable {h : Hull ℝ} {inHull : V3 ℝ → Bool} {p : Poly ℝ}

theorem att_shares (hh : h.IsHull) (hp : mkPoly h inHull = .ok p) (s e : V3 ℝ) :
    rdot (attraction h.body s) e = ∑ k : Fin p.faces.length, faceShare p.faces[k] s e :=
  (attraction_dot hh s e).trans (newton_faces (hull_surface hh hp) s e).2

theorem off_of_not_mem {a b c s : V3 ℝ} (hs : s.toP ∉ triangle a b c) : OffTriangle a b c s := by
  intro t ht v hv h0
  apply hs
  rw [mem_triangle]
  refine ⟨1 - v, v * (1 - t), v * t, by linarith [hv.2], mul_nonneg hv.1 (by linarith [ht.2]), mul_nonneg hv.1 ht.1, by ring, ?_⟩
  have hx := congrArg V3.x h0
  have hy := congrArg V3.y h0
  have hz := congrArg V3.z h0
  simp only [triPt, add_x, add_y, add_z, smul_x, smul_y, smul_z, sub_x, sub_y, sub_z, zeros_x, zeros_y, zeros_z] at hx hy hz
  refine Prod.ext ?_ (Prod.ext ?_ ?_) <;> simp [V3.toP]
  · linear_combination -hx
  · linear_combination -hy
  · linear_combination -hz

/-- a triangle lies in its plane -/
theorem tri_plane {n a b c : V3 ℝ} (hn : IsNormal n a b c) {q : P3} (hq : q ∈ triangle a b c) : form n q = rdot n a := by
  obtain ⟨u, v, w, -, -, -, hs, rfl⟩ := mem_triangle.mp hq
  have h1 := hn.ortho1
  have h2 := hn.ortho2
  rw [rdot_sub] at h1 h2
  have e1 : form n (u • a.toP + v • b.toP + w • c.toP) = u * rdot n a + v * rdot n b + w * rdot n c := by
    simp [form, rdot, P3.toV, V3.toP]; ring
  rw [e1]
  linear_combination v * h1 + w * h2 + rdot n a * hs

theorem tri_frontier {P : Set P3} {n : ℕ} {A B C N : Fin n → V3 ℝ} (hS : Surface P A B C N) (k : Fin n) : triangle (A k) (B k) (C k) ⊆ frontier P := by
  intro q hq
  rw [hS.compact.isClosed.frontier_eq]
  refine ⟨hS.sub k hq, fun hi => ?_⟩
  have h1 := hS.lt k q hi
  have h2 : rdot (N k) (P3.toV q) = rdot (N k) (A k) := tri_plane (hS.normal k) hq
  linarith

/-- the attraction is analytic along every line through a point off the surface -/
theorem attraction_analytic (hh : h.IsHull) {s : V3 ℝ} (hs : s.toP ∉ frontier h.body) (d e : V3 ℝ) :
    AnalyticAt ℝ (fun t => rdot (attraction h.body (s.add (V3.smul t d))) e) 0 := by
  obtain ⟨p, hp⟩ := hull_mkPoly_ok hh (fun _ => true)
  simp only [att_shares hh hp]
  refine Finset.analyticAt_fun_sum _ fun k _ => ?_
  exact faceShare_analytic (off_of_not_mem fun hk => hs (tri_frontier (hull_surface hh hp) k hk)) d e

/-- a point inside of a triangle of the surface is in no other triangle -/
theorem open_unique {P : Set P3} {n : ℕ} {A B C N : Fin n → V3 ℝ} (hS : Surface P A B C N) {k k' : Fin n} (hk : k ≠ k') {y : P3}
    (hy : y ∈ openTriangle (A k) (B k) (C k)) : y ∉ triangle (A k') (B k') (C k') := by
  intro hy'
  have hn := hS.normal k
  have hn' := hS.normal k'
  obtain ⟨u, v, w, hu, hv, hw, hs, rfl⟩ := hy
  -- the other plane contains the triangle
  have ht : ∀ q ∈ triangle (A k) (B k) (C k), form (N k') q ≤ rdot (N k') (A k') := fun q hq => hS.le k' q (hS.sub k hq)
  have ha := ht _ (subset_convexHull ℝ _ (by simp) : (A k).toP ∈ _)
  have hb := ht _ (subset_convexHull ℝ _ (by simp) : (B k).toP ∈ _)
  have hc := ht _ (subset_convexHull ℝ _ (by simp) : (C k).toP ∈ _)
  rw [form_toP] at ha hb hc
  have hsum := tri_plane hn' hy'
  have e1 : form (N k') (u • (A k).toP + v • (B k).toP + w • (C k).toP) = u * rdot (N k') (A k) + v * rdot (N k') (B k) + w * rdot (N k') (C k) := by
    simp [form, rdot, P3.toV, V3.toP]; ring
  rw [e1] at hsum
  set m := rdot (N k') (A k') with hm
  have hmm : u * m + v * m + w * m = m := by rw [← add_mul, ← add_mul, hs, one_mul]
  have hA : rdot (N k') (A k) = m := by
    by_contra hne
    have : rdot (N k') (A k) < m := lt_of_le_of_ne ha hne
    linarith [mul_lt_mul_of_pos_left this hu, mul_le_mul_of_nonneg_left hb hv.le, mul_le_mul_of_nonneg_left hc hw.le]
  have hB : rdot (N k') (B k) = m := by
    by_contra hne
    have : rdot (N k') (B k) < m := lt_of_le_of_ne hb hne
    linarith [mul_lt_mul_of_pos_left this hv, mul_le_mul_of_nonneg_left ha hu.le, mul_le_mul_of_nonneg_left hc hw.le]
  have hC : rdot (N k') (C k) = m := by
    by_contra hne
    have : rdot (N k') (C k) < m := lt_of_le_of_ne hc hne
    linarith [mul_lt_mul_of_pos_left this hw, mul_le_mul_of_nonneg_left ha hu.le, mul_le_mul_of_nonneg_left hb hv.le]
  -- a point inside of the other triangle
  obtain ⟨u', v', w', hu', hv', hw', hs', hq⟩ := mem_triangle.mp hy'
  set E := (B k).sub (A k) with hE
  set F := (C k).sub (A k) with hF
  set M := cross E F with hM
  set g : V3 ℝ := (((A k').add (B k')).add (C k')).sdiv 3 with hg
  set y : V3 ℝ := ((V3.smul u (A k)).add (V3.smul v (B k))).add (V3.smul w (C k)) with hyv
  set x : V3 ℝ := g.sub y with hx
  have hM0 : 0 < rdot M M := by
    apply rdot_self_pos
    intro h0
    have := hn.pos
    rw [show cross ((B k).sub (A k)) ((C k).sub (A k)) = M from rfl, h0, rdot_zeros] at this
    exact lt_irrefl _ this
  have hxn : rdot (N k') x = 0 := by
    have h1 := hn'.ortho1
    have h2 := hn'.ortho2
    rw [rdot_sub] at h1 h2
    have : rdot (N k') x = (rdot (N k') (A k') + rdot (N k') (B k') + rdot (N k') (C k')) / 3 - (u * rdot (N k') (A k) + v * rdot (N k') (B k) + w * rdot (N k') (C k)) := by
      simp [hx, hg, hyv, rdot, V3.sdiv]; ring
    rw [this, hsum]
    linarith
  -- the two normals are parallel
  have hxM : rdot x M = 0 := by
    have o1 : rdot (N k') E = 0 := by rw [hE, rdot_sub, hB, hA, sub_self]
    have o2 : rdot (N k') F = 0 := by rw [hF, rdot_sub, hC, hA, sub_self]
    have e2 : rdot M M * rdot (N k') x = rdot (N k') M * rdot x M + (rdot (cross x F) M) * rdot (N k') E + (rdot (cross E x) M) * rdot (N k') F := by
      simp [hM, rdot]; ring
    rw [hxn, o1, o2, mul_zero, mul_zero, mul_zero, add_zero, add_zero] at e2
    rcases mul_eq_zero.mp e2.symm with h0 | h0
    · exfalso
      have e3 : rdot M M * rdot (N k') (N k') = rdot (N k') M * rdot (N k') M + (rdot (cross (N k') F) M) * rdot (N k') E + (rdot (cross E (N k')) M) * rdot (N k') F := by
        simp [hM, rdot]; ring
      rw [hn'.unit, o1, o2, h0] at e3
      linarith
    · exact h0
  set α := rdot (cross x F) M / rdot M M with hα
  set β := rdot (cross E x) M / rdot M M with hβ
  have hdec : x = (V3.smul α E).add (V3.smul β F) := by
    have hne := hM0.ne'
    have ex : ∀ i : V3 ℝ → ℝ, (∀ a b, i (a.add b) = i a + i b) → (∀ c a, i (V3.smul c a) = c * i a) → (rdot M M * i x = rdot (cross x F) M * i E + rdot (cross E x) M * i F + rdot x M * i M) →
        i x = i ((V3.smul α E).add (V3.smul β F)) := by
      intro i ia is h1
      rw [hxM, zero_mul, add_zero] at h1
      rw [ia, is, is, hα, hβ]
      field_simp
      linarith
    refine V3.ext' (ex V3.x (fun _ _ => rfl) (fun _ _ => rfl) ?_) (ex V3.y (fun _ _ => rfl) (fun _ _ => rfl) ?_) (ex V3.z (fun _ _ => rfl) (fun _ _ => rfl) ?_)
    · simp only [hM, rdot, cross_x, cross_y, cross_z]; ring
    · simp only [hM, rdot, cross_x, cross_y, cross_z]; ring
    · simp only [hM, rdot, cross_x, cross_y, cross_z]; ring
  -- a small step towards it
  obtain ⟨ε, hε0, hε1, h1, h2, h3⟩ : ∃ ε : ℝ, 0 < ε ∧ ε < 1 ∧ 0 < u - ε * (α + β) ∧ 0 < v + ε * α ∧ 0 < w + ε * β := by
    have ev : ∀ a b : ℝ, 0 < a → ∀ᶠ ε : ℝ in 𝓝 0, 0 < a + ε * b := by
      intro a b hab
      have : Tendsto (fun ε : ℝ => a + ε * b) (𝓝 0) (𝓝 (a + 0 * b)) := (continuous_const.add (continuous_id.mul continuous_const)).tendsto 0
      rw [zero_mul, add_zero] at this
      exact this.eventually_const_lt hab
    have hall : ∀ᶠ ε : ℝ in 𝓝[>] 0, ε < 1 ∧ 0 < u + ε * (-(α + β)) ∧ 0 < v + ε * α ∧ 0 < w + ε * β := by
      refine Filter.Eventually.filter_mono nhdsWithin_le_nhds ?_
      filter_upwards [ev u (-(α + β)) hu, ev v α hv, ev w β hw, gt_mem_nhds one_pos] with ε a b c d
      exact ⟨d, a, b, c⟩
    obtain ⟨ε, hε, hpos⟩ := (hall.and self_mem_nhdsWithin).exists
    exact ⟨ε, hpos, hε.1, by linarith [hε.2.1], hε.2.2.1, hε.2.2.2⟩
  have hdj : ∀ z : P3, z ∈ openTriangle (A k) (B k) (C k) → z ∈ openTriangle (A k') (B k') (C k') → False := fun z hz hz' => Set.disjoint_left.mp (hS.disjoint k k' hk) hz hz'
  refine hdj (y.add (V3.smul ε x)).toP ⟨u - ε * (α + β), v + ε * α, w + ε * β, h1, h2, h3, by linarith, ?_⟩
    ⟨(1 - ε) * u' + ε / 3, (1 - ε) * v' + ε / 3, (1 - ε) * w' + ε / 3, ?_, ?_, ?_, by linear_combination (1 - ε) * hs', ?_⟩
  · rw [hdec, hyv, hE, hF]
    refine Prod.ext ?_ (Prod.ext ?_ ?_) <;> simp [V3.toP] <;> ring
  · have : 0 ≤ (1 - ε) * u' := mul_nonneg (by linarith) hu'
    linarith
  · have : 0 ≤ (1 - ε) * v' := mul_nonneg (by linarith) hv'
    linarith
  · have : 0 ≤ (1 - ε) * w' := mul_nonneg (by linarith) hw'
    linarith
  · have q1 := congrArg (fun z : P3 => z.1) hq
    have q2 := congrArg (fun z : P3 => z.2.1) hq
    have q3 := congrArg (fun z : P3 => z.2.2) hq
    simp only [V3.toP, Prod.fst_add, Prod.snd_add, Prod.smul_fst, Prod.smul_snd, smul_eq_mul] at q1 q2 q3
    rw [hx, hg, hyv]
    refine Prod.ext ?_ (Prod.ext ?_ ?_) <;> simp [V3.toP, V3.sdiv]
    · linear_combination (1 - ε) * q1
    · linear_combination (1 - ε) * q2
    · linear_combination (1 - ε) * q3

/-- a point inside of a triangle is off its sides -/
theorem open_offSides {n a b c y : V3 ℝ} (hn : IsNormal n a b c) (hy : y.toP ∈ openTriangle a b c) : OffSides a b c y := by
  obtain ⟨u, v, w, hu, hv, hw, hs, hq⟩ := hy
  have hpos := hn.pos
  have q1 := congrArg (fun z : P3 => z.1) hq
  have q2 := congrArg (fun z : P3 => z.2.1) hq
  have q3 := congrArg (fun z : P3 => z.2.2) hq
  simp only [V3.toP, Prod.fst_add, Prod.snd_add, Prod.smul_fst, Prod.smul_snd, smul_eq_mul] at q1 q2 q3
  have hyv : y = ((V3.smul u a).add (V3.smul v b)).add (V3.smul w c) := by refine V3.ext' ?_ ?_ ?_ <;> simp [q1, q2, q3]
  have hu1 : u = 1 - v - w := by linarith
  have key : ∀ (p q : V3 ℝ) (t m : ℝ), 0 < m → rdot n (cross (q.sub p) (y.sub p)) = m * rdot n (cross (b.sub a) (c.sub a)) → (p.sub y).add (V3.smul t (q.sub p)) ≠ V3.zeros := by
    intro p q t m hm h1 h0
    have e1 : y.sub p = V3.smul t (q.sub p) := by
      have hx := congrArg V3.x h0
      have hy := congrArg V3.y h0
      have hz := congrArg V3.z h0
      simp only [add_x, add_y, add_z, smul_x, smul_y, smul_z, sub_x, sub_y, sub_z, zeros_x, zeros_y, zeros_z] at hx hy hz
      refine V3.ext' ?_ ?_ ?_ <;> simp <;> linarith
    rw [e1] at h1
    have : rdot n (cross (q.sub p) (V3.smul t (q.sub p))) = 0 := by simp [rdot]; ring
    rw [this] at h1
    exact absurd h1.symm (mul_pos hm hpos).ne'
  refine ⟨fun t _ => key a b t w hw ?_, fun t _ => key b c t u hu ?_, fun t _ => key c a t v hv ?_⟩
  · rw [hyv, hu1]; simp [rdot]; ring
  · rw [hyv, hu1]; simp [rdot]; ring
  · rw [hyv, hu1]; simp [rdot]; ring

/-- across a face, the attraction along the face is analytic -/
theorem attraction_tangent_analytic (hh : h.IsHull) (hp : mkPoly h inHull = .ok p) (k : Fin p.faces.length) {y : V3 ℝ}
    (hy : y.toP ∈ openTriangle (p.faces[k]).pa (p.faces[k]).pb (p.faces[k]).pc) (d : V3 ℝ) {e : V3 ℝ} (he : rdot (p.faces[k]).un e = 0) :
    AnalyticAt ℝ (fun t => rdot (attraction h.body (y.add (V3.smul t d))) e) 0 := by
  have hS := hull_surface hh hp
  simp only [att_shares hh hp]
  refine Finset.analyticAt_fun_sum _ fun j _ => ?_
  rcases eq_or_ne k j with rfl | hj
  · exact faceShare_tangent_analytic (hS.normal k) (open_offSides (hS.normal k) hy) d he
  · exact faceShare_analytic (off_of_not_mem (open_unique hS hj hy)) d e

/-- analyticity at another point of the line -/
theorem analytic_shift {F : V3 ℝ → ℝ} {s d : V3 ℝ} {t0 : ℝ} (hF : AnalyticAt ℝ (fun t => F ((s.add (V3.smul t0 d)).add (V3.smul t d))) 0) :
    AnalyticAt ℝ (fun t => F (s.add (V3.smul t d))) t0 := by
  have h1 : AnalyticAt ℝ (fun t : ℝ => t - t0) t0 := by fun_prop
  have h2 : AnalyticAt ℝ (fun t => F ((s.add (V3.smul t0 d)).add (V3.smul t d))) ((fun t : ℝ => t - t0) t0) := by simpa using hF
  have h3 : AnalyticAt ℝ ((fun t => F ((s.add (V3.smul t0 d)).add (V3.smul t d))) ∘ fun t : ℝ => t - t0) t0 := AnalyticAt.comp h2 h1
  refine h3.congr (Eventually.of_forall fun t => ?_)
  simp only [Function.comp]
  congr 1
  refine V3.ext' ?_ ?_ ?_ <;> simp <;> ring

/-! ### stations far away -/

/-- the direction is parallel to no triangle of the surface -/
def Hull.Skew (h : Hull ℝ) (d : V3 ℝ) : Prop :=
  ∀ t ∈ h.simplices, rdot (cross ((h.pt t.2.1).sub (h.pt t.1)) ((h.pt t.2.2).sub (h.pt t.1))) d ≠ 0

theorem eventually_affine {α : ℝ} (hα : 0 < α) (β c : ℝ) : ∀ᶠ t : ℝ in atTop, c < α * t + β := by
  filter_upwards [eventually_gt_atTop ((c - β) / α)] with t ht
  rw [div_lt_iff₀ hα] at ht
  linarith

/-- far out along such a direction the station is clear of an edge -/
theorem far_clear {a b o d : V3 ℝ} (hx : cross d (b.sub a) ≠ V3.zeros) : ∀ᶠ t : ℝ in atTop, ClearOf a b (o.add (V3.smul t d)) := by
  set L := b.sub a with hL
  set g := a.sub o with hg
  have hd0 : d ≠ V3.zeros := by rintro rfl; apply hx; refine V3.ext' ?_ ?_ ?_ <;> simp
  have hdl := vlen_pos hd0
  have hL0 := right_ne_of_cross hx
  have hll := vlen_pos hL0
  have hcs := (abs_lt.mp (cs_strict hx)).2
  have hα : 0 < vlen d - rdot d L / vlen L := by rw [sub_pos, div_lt_iff₀ hll]; exact hcs
  filter_upwards [eventually_affine hα (-(rdot g d / vlen d) + rdot g L / vlen L) repsilon, eventually_affine (rdot_self_pos hx) (-rdot (cross g L) (cross d L)) 0] with t h1 h2
  have e : a.sub (o.add (V3.smul t d)) = g.sub (V3.smul t d) := sub_move a o d t
  refine .inl ⟨?_, ?_⟩
  · rw [e]
    intro h0
    have e2 : rdot (cross (g.sub (V3.smul t d)) L) (cross d L) = rdot (cross g L) (cross d L) - t * rdot (cross d L) (cross d L) := by simp [rdot]; ring
    rw [h0, rdot_comm, rdot_zeros] at e2
    linarith
  · rw [e]
    have h3 := (abs_le.mp (abs_rdot_le (g.sub (V3.smul t d)) d)).1
    have e3 : rdot (g.sub (V3.smul t d)) d = rdot g d - t * (vlen d * vlen d) := by rw [vlen_sq]; simp [rdot]; ring
    have e4 : rdot (g.sub (V3.smul t d)) L = rdot g L - t * rdot d L := by simp [rdot]; ring
    rw [e3] at h3
    have h4 : t * vlen d - rdot g d / vlen d ≤ vlen (g.sub (V3.smul t d)) := by
      have : (t * vlen d - rdot g d / vlen d) * vlen d ≤ vlen (g.sub (V3.smul t d)) * vlen d := by
        have e5 : (t * vlen d - rdot g d / vlen d) * vlen d = t * (vlen d * vlen d) - rdot g d := by field_simp
        rw [e5]; linarith
      exact le_of_mul_le_mul_right this hdl
    rw [e4, sub_div, mul_div_assoc]
    linarith

/-- far out along a direction that is parallel to no face the stations are regular -/
theorem far_regular {d : V3 ℝ} (hd : h.Skew d) (o : V3 ℝ) : ∀ᶠ t : ℝ in atTop, h.Regular (o.add (V3.smul t d)) ∧ h.OffPlanes (o.add (V3.smul t d)) := by
  have key : ∀ s ∈ h.simplices, ∀ᶠ t : ℝ in atTop,
      repsilon * vlen (cross ((h.pt s.2.1).sub (h.pt s.1)) ((h.pt s.2.2).sub (h.pt s.1))) <
        |rdot (cross ((h.pt s.2.1).sub (h.pt s.1)) ((h.pt s.2.2).sub (h.pt s.1))) ((h.pt s.1).sub (o.add (V3.smul t d)))| ∧
      ∀ i j, Corner s i → Corner s j → i ≠ j → ClearOf (h.pt i) (h.pt j) (o.add (V3.smul t d)) := by
    rintro ⟨a, b, c⟩ hs
    have h0 := hd _ hs
    simp only at h0 ⊢
    set N := cross ((h.pt b).sub (h.pt a)) ((h.pt c).sub (h.pt a)) with hN
    have h1 : ∀ᶠ t : ℝ in atTop, repsilon * vlen N < |rdot N ((h.pt a).sub (o.add (V3.smul t d)))| := by
      filter_upwards [eventually_affine (abs_pos.mpr h0) (-|rdot N ((h.pt a).sub o)|) (repsilon * vlen N), eventually_ge_atTop 0] with t ht ht0
      refine ht.trans_le ?_
      have e : rdot N ((h.pt a).sub (o.add (V3.smul t d))) = rdot N ((h.pt a).sub o) - rdot N d * t := by simp [rdot]; ring
      rw [e]
      have := abs_sub_abs_le_abs_sub (rdot N d * t) (rdot N ((h.pt a).sub o))
      rw [abs_sub_comm, abs_mul, abs_of_nonneg ht0] at this
      linarith
    have h2 : ∀ i j, Corner (a, b, c) i → Corner (a, b, c) j → i ≠ j → cross d ((h.pt j).sub (h.pt i)) ≠ V3.zeros := by
      have side : ∀ (L X : V3 ℝ) (m : ℝ), rdot N d = m * rdot X (cross d L) → cross d L ≠ V3.zeros := by
        intro L X m e1 e2
        rw [e2, rdot_zeros, mul_zero] at e1
        exact h0 e1
      rintro i j (rfl | rfl | rfl) (rfl | rfl | rfl) hij
      · exact absurd rfl hij
      · exact side _ ((h.pt c).sub (h.pt i)) 1 (by simp [hN, rdot]; ring)
      · exact side _ ((h.pt b).sub (h.pt i)) (-1) (by simp [hN, rdot]; ring)
      · exact side _ ((h.pt c).sub (h.pt j)) (-1) (by simp [hN, rdot]; ring)
      · exact absurd rfl hij
      · exact side _ ((h.pt a).sub (h.pt i)) 1 (by simp [hN, rdot]; ring)
      · exact side _ ((h.pt b).sub (h.pt j)) 1 (by simp [hN, rdot]; ring)
      · exact side _ ((h.pt a).sub (h.pt i)) (-1) (by simp [hN, rdot]; ring)
      · exact absurd rfl hij
    have h3 : ∀ i ∈ [a, b, c], ∀ j ∈ [a, b, c], i ≠ j → ∀ᶠ t : ℝ in atTop, ClearOf (h.pt i) (h.pt j) (o.add (V3.smul t d)) := by
      intro i hi j hj hij
      exact far_clear (h2 i j (by simpa [Corner] using hi) (by simpa [Corner] using hj) hij)
    have h4 : ∀ᶠ t : ℝ in atTop, ∀ i ∈ [a, b, c], ∀ j ∈ [a, b, c], i ≠ j → ClearOf (h.pt i) (h.pt j) (o.add (V3.smul t d)) := by
      have fin : ∀ (l : List Nat) (Q : Nat → ℝ → Prop), (∀ i ∈ l, ∀ᶠ t : ℝ in atTop, Q i t) → ∀ᶠ t : ℝ in atTop, ∀ i ∈ l, Q i t := by
        intro l Q hl
        induction l with
        | nil => exact Eventually.of_forall fun t i hi => by cases hi
        | cons x l ih =>
          filter_upwards [hl x (by simp), ih fun i hi => hl i (by simp [hi])] with t g1 g2 i hi
          rcases List.mem_cons.mp hi with rfl | hi
          · exact g1
          · exact g2 i hi
      refine fin _ _ fun i hi => fin _ _ fun j hj => ?_
      by_cases hij : i = j
      · exact Eventually.of_forall fun t hne => absurd hij hne
      · filter_upwards [h3 i hi j hj hij] with t ht _
        exact ht
    filter_upwards [h1, h4] with t g1 g2
    exact ⟨g1, fun i j hi hj hij => g2 i (by simpa [Corner] using hi) j (by simpa [Corner] using hj) hij⟩
  have all : ∀ l : List (Nat × Nat × Nat), (∀ s ∈ l, s ∈ h.simplices) → ∀ᶠ t : ℝ in atTop, ∀ s ∈ l,
      repsilon * vlen (cross ((h.pt s.2.1).sub (h.pt s.1)) ((h.pt s.2.2).sub (h.pt s.1))) <
        |rdot (cross ((h.pt s.2.1).sub (h.pt s.1)) ((h.pt s.2.2).sub (h.pt s.1))) ((h.pt s.1).sub (o.add (V3.smul t d)))| ∧
      ∀ i j, Corner s i → Corner s j → i ≠ j → ClearOf (h.pt i) (h.pt j) (o.add (V3.smul t d)) := by
    intro l hl
    induction l with
    | nil => exact Eventually.of_forall fun t i hi => by cases hi
    | cons x l ih =>
      filter_upwards [key x (hl x (by simp)), ih fun i hi => hl i (by simp [hi])] with t g1 g2 i hi
      rcases List.mem_cons.mp hi with rfl | hi
      · exact g1
      · exact g2 i hi
  filter_upwards [all h.simplices fun _ hs => hs] with t ht
  refine ⟨fun s hs => .inr (ht s hs), fun s hs h0 => ?_⟩
  have := (ht s hs).1
  rw [h0, abs_zero] at this
  have h1 : 0 ≤ repsilon * vlen (cross ((h.pt s.2.1).sub (h.pt s.1)) ((h.pt s.2.2).sub (h.pt s.1))) := mul_nonneg (by unfold repsilon; positivity) (vlen_nonneg _)
  linarith

/-- a station in no plane of a triangle is at no corner -/
theorem OffPlanes.corner {s : V3 ℝ} (h0 : h.OffPlanes s) : ∀ t ∈ h.simplices, ∀ i, Corner t i → h.pt i ≠ s := by
  rintro ⟨a, b, c⟩ ht i hi rfl
  have := h0 _ ht
  simp only at this
  apply this
  rcases hi with rfl | rfl | rfl <;> simp [rdot] <;> ring

/-- a direction that avoids finitely many planes -/
theorem exists_avoiding (l : List (V3 ℝ)) (hl : ∀ n ∈ l, n ≠ V3.zeros) : ∃ d, ∀ n ∈ l, rdot n d ≠ 0 := by
  induction l with
  | nil => exact ⟨V3.zeros, fun n hn => by cases hn⟩
  | cons n l ih =>
    obtain ⟨d, hd⟩ := ih fun m hm => hl m (by simp [hm])
    have ev : ∀ l' : List (V3 ℝ), (∀ m ∈ l', rdot m d ≠ 0) → ∀ᶠ ε : ℝ in 𝓝 0, ∀ m ∈ l', rdot m (d.add (V3.smul ε n)) ≠ 0 := by
      intro l' hl'
      induction l' with
      | nil => exact Eventually.of_forall fun t i hi => by cases hi
      | cons m l' ih' =>
        have h1 : ∀ᶠ ε : ℝ in 𝓝 0, rdot m d + ε * rdot m n ≠ 0 := by
          have : Tendsto (fun ε : ℝ => rdot m d + ε * rdot m n) (𝓝 0) (𝓝 (rdot m d + 0 * rdot m n)) :=
            (continuous_const.add (continuous_id.mul continuous_const)).tendsto 0
          rw [zero_mul, add_zero] at this
          exact this.eventually_ne (hl' m (by simp))
        filter_upwards [h1, ih' fun i hi => hl' i (by simp [hi])] with t g1 g2 i hi
        rcases List.mem_cons.mp hi with rfl | hi
        · rwa [rdot_add, rdot_smul]
        · exact g2 i hi
    have h2 : ∀ᶠ ε : ℝ in 𝓝[≠] 0, rdot n (d.add (V3.smul ε n)) ≠ 0 := by
      have hn := rdot_self_pos (hl n (by simp))
      by_cases h0 : rdot n d = 0
      · filter_upwards [self_mem_nhdsWithin] with ε hε
        rw [rdot_add, rdot_smul, h0, zero_add]
        exact mul_ne_zero hε hn.ne'
      · refine Eventually.filter_mono nhdsWithin_le_nhds ?_
        filter_upwards [ev [n] (by simpa using h0)] with ε hε
        exact hε n (by simp)
    obtain ⟨ε, h3, h4⟩ := (h2.and ((ev l hd).filter_mono nhdsWithin_le_nhds)).exists
    refine ⟨d.add (V3.smul ε n), fun m hm => ?_⟩
    rcases List.mem_cons.mp hm with rfl | hm
    · exact h3
    · exact h4 m hm

theorem normal_ne (hh : h.IsHull) {t : Nat × Nat × Nat} (ht : t ∈ h.simplices) : cross ((h.pt t.2.1).sub (h.pt t.1)) ((h.pt t.2.2).sub (h.pt t.1)) ≠ V3.zeros := by
  obtain ⟨p, hp⟩ := hull_mkPoly_ok hh (fun _ => true)
  obtain ⟨k, hk⟩ := List.getElem?_of_mem ht
  have hlen := (C24_counter_clockwise hh hp).1
  have hkl : k < p.faces.length := by
    rw [hlen]; exact (List.getElem?_eq_some_iff.mp hk).1
  obtain ⟨t', ht', -, hperm, hn, -, -⟩ := face_facts hh hp (List.getElem?_eq_getElem hkl)
  rw [hk] at ht'
  cases ht'
  intro h0
  have hpos := hn.pos
  have hd : ∀ s, det3 ((p.faces[k]).pa.sub s) ((p.faces[k]).pb.sub s) ((p.faces[k]).pc.sub s) = 0 := by
    intro s
    have e : rdot (cross ((h.pt t.2.1).sub (h.pt t.1)) ((h.pt t.2.2).sub (h.pt t.1))) ((h.pt t.1).sub s) = 0 := by rw [h0, rdot_comm, rdot_zeros]
    rcases perm3 hperm with ⟨e1, e2, e3⟩ | ⟨e1, e2, e3⟩ | ⟨e1, e2, e3⟩ | ⟨e1, e2, e3⟩ | ⟨e1, e2, e3⟩ | ⟨e1, e2, e3⟩ <;> rw [e1, e2, e3]
    all_goals (simp [det3, rdot] at e ⊢; linarith)
  have h1 := hd ((p.faces[k]).pa.sub (p.faces[k]).un)
  rw [hn.det] at h1
  have e2 : rdot (p.faces[k]).un ((p.faces[k]).pa.sub ((p.faces[k]).pa.sub (p.faces[k]).un)) = rdot (p.faces[k]).un (p.faces[k]).un := by simp [rdot]
  rw [e2, hn.unit, mul_one] at h1
  exact hn.area_pos.ne' h1

theorem exists_skew {h₁ h₂ : Hull ℝ} (hh₁ : h₁.IsHull) (hh₂ : h₂.IsHull) : ∃ d, h₁.Skew d ∧ h₂.Skew d := by
  obtain ⟨d, hd⟩ := exists_avoiding
    (h₁.simplices.map (fun t => cross ((h₁.pt t.2.1).sub (h₁.pt t.1)) ((h₁.pt t.2.2).sub (h₁.pt t.1))) ++
      h₂.simplices.map (fun t => cross ((h₂.pt t.2.1).sub (h₂.pt t.1)) ((h₂.pt t.2.2).sub (h₂.pt t.1)))) (by
    intro n hn
    rcases List.mem_append.mp hn with hn | hn
    · obtain ⟨t, ht, rfl⟩ := List.mem_map.mp hn; exact normal_ne hh₁ ht
    · obtain ⟨t, ht, rfl⟩ := List.mem_map.mp hn; exact normal_ne hh₂ ht)
  exact ⟨d, fun t ht => hd _ (List.mem_append_left _ (List.mem_map.mpr ⟨t, ht, rfl⟩)), fun t ht => hd _ (List.mem_append_right _ (List.mem_map.mpr ⟨t, ht, rfl⟩))⟩

/-- almost every small step leads to a skew direction -/
theorem skew_near {d : V3 ℝ} (hd : h.Skew d) (g : V3 ℝ) : ∀ᶠ ε : ℝ in 𝓝[≠] 0, h.Skew (g.add (V3.smul ε d)) := by
  have one : ∀ a b : ℝ, b ≠ 0 → ∀ᶠ ε : ℝ in 𝓝[≠] 0, a + ε * b ≠ 0 := by
    intro a b hb
    by_cases h0 : a = 0
    · filter_upwards [self_mem_nhdsWithin] with ε hε
      rw [h0, zero_add]
      exact mul_ne_zero hε hb
    · refine Eventually.filter_mono nhdsWithin_le_nhds ?_
      have : Tendsto (fun ε : ℝ => a + ε * b) (𝓝 0) (𝓝 (a + 0 * b)) := (continuous_const.add (continuous_id.mul continuous_const)).tendsto 0
      rw [zero_mul, add_zero] at this
      exact this.eventually_ne h0
  have all : ∀ l : List (Nat × Nat × Nat), (∀ s ∈ l, s ∈ h.simplices) → ∀ᶠ ε : ℝ in 𝓝[≠] 0, ∀ t ∈ l,
      rdot (cross ((h.pt t.2.1).sub (h.pt t.1)) ((h.pt t.2.2).sub (h.pt t.1))) (g.add (V3.smul ε d)) ≠ 0 := by
    intro l hl
    induction l with
    | nil => exact Eventually.of_forall fun t i hi => by cases hi
    | cons x l ih =>
      filter_upwards [one (rdot (cross ((h.pt x.2.1).sub (h.pt x.1)) ((h.pt x.2.2).sub (h.pt x.1))) g) _ (hd x (hl x (by simp))), ih fun i hi => hl i (by simp [hi])] with t g1 g2 i hi
      rcases List.mem_cons.mp hi with rfl | hi
      · rwa [rdot_add, rdot_smul]
      · exact g2 i hi
  exact all _ fun _ hs => hs

end
end Geec
