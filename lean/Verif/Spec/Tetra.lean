import Verif.Spec.Hull
import Mathlib.Analysis.Convex.Combination
import Mathlib.Analysis.Normed.Module.Basic
import Mathlib.Topology.Order.Basic
import Mathlib.Tactic.Linarith
import Mathlib.Tactic.IntervalCases
/-
A concrete case of the hull contract: the unit right-angled tetrahedron with simplices in inconsistent orders.
-/
namespace Geec
noncomputable section
open Topology

/-- the unit right-angled tetrahedron -/
def tetra : Hull ℝ where
  points := [⟨0, 0, 0⟩, ⟨1, 0, 0⟩, ⟨0, 1, 0⟩, ⟨0, 0, 1⟩]
  vertices := [0, 1, 2, 3]
  simplices := [(0, 1, 2), (0, 1, 3), (0, 2, 3), (1, 2, 3)]
  neighbors := [[3, 2, 1], [3, 2, 0], [3, 1, 0], [2, 1, 0]]

theorem conv3 {C : Set P3} (hC : Convex ℝ C) {a b c : P3} (ha : a ∈ C) (hb : b ∈ C) (hc : c ∈ C) {u v w : ℝ}
    (hu : 0 ≤ u) (hv : 0 ≤ v) (hw : 0 ≤ w) (h : u + v + w = 1) : u • a + v • b + w • c ∈ C := by
  have := hC.sum_mem (t := Finset.univ) (w := ![u, v, w]) (z := ![a, b, c])
    (by intro i _; fin_cases i <;> simp [hu, hv, hw]) (by simp [Fin.sum_univ_three, h])
    (by intro i _; fin_cases i <;> simp [ha, hb, hc])
  simpa [Fin.sum_univ_three] using this

theorem conv4 {C : Set P3} (hC : Convex ℝ C) {a b c d : P3} (ha : a ∈ C) (hb : b ∈ C) (hc : c ∈ C) (hd : d ∈ C) {u v w x : ℝ}
    (hu : 0 ≤ u) (hv : 0 ≤ v) (hw : 0 ≤ w) (hx : 0 ≤ x) (h : u + v + w + x = 1) : u • a + v • b + w • c + x • d ∈ C := by
  have := hC.sum_mem (t := Finset.univ) (w := ![u, v, w, x]) (z := ![a, b, c, d])
    (by intro i _; fin_cases i <;> simp [hu, hv, hw, hx]) (by simp [Fin.sum_univ_four, h])
    (by intro i _; fin_cases i <;> simp [ha, hb, hc, hd])
  simpa [Fin.sum_univ_four] using this

/-- a triangle in barycentric coordinates -/
theorem mem_triangle {a b c : V3 ℝ} {q : P3} : q ∈ triangle a b c ↔
    ∃ u v w : ℝ, 0 ≤ u ∧ 0 ≤ v ∧ 0 ≤ w ∧ u + v + w = 1 ∧ q = u • a.toP + v • b.toP + w • c.toP := by
  constructor
  · intro hq
    have : triangle a b c ⊆ {q | ∃ u v w : ℝ, 0 ≤ u ∧ 0 ≤ v ∧ 0 ≤ w ∧ u + v + w = 1 ∧ q = u • a.toP + v • b.toP + w • c.toP} := by
      apply convexHull_min
      · intro q hq
        simp only [Set.mem_insert_iff, Set.mem_singleton_iff] at hq
        rcases hq with rfl | rfl | rfl
        · exact ⟨1, 0, 0, by norm_num, by norm_num, by norm_num, by norm_num, by simp⟩
        · exact ⟨0, 1, 0, by norm_num, by norm_num, by norm_num, by norm_num, by simp⟩
        · exact ⟨0, 0, 1, by norm_num, by norm_num, by norm_num, by norm_num, by simp⟩
      · rintro x ⟨u, v, w, hu, hv, hw, hs, rfl⟩ y ⟨u', v', w', hu', hv', hw', hs', rfl⟩ s t hs0 ht0 hst
        refine ⟨s * u + t * u', s * v + t * v', s * w + t * w', by positivity, by positivity, by positivity, ?_, ?_⟩
        · have : s * u + t * u' + (s * v + t * v') + (s * w + t * w') = s * (u + v + w) + t * (u' + v' + w') := by ring
          rw [this, hs, hs', mul_one, mul_one, hst]
        · simp only [smul_add, add_smul, smul_smul]; abel
    exact this hq
  · rintro ⟨u, v, w, hu, hv, hw, hs, rfl⟩
    exact conv3 (convex_convexHull ℝ _) (subset_convexHull ℝ _ (by simp)) (subset_convexHull ℝ _ (by simp))
      (subset_convexHull ℝ _ (by simp)) hu hv hw hs

/-- from an interior point one can go a little in any direction -/
theorem exists_step {C : Set P3} {q : P3} (hq : q ∈ interior C) (v : P3) : ∃ t : ℝ, 0 < t ∧ q + t • v ∈ C := by
  have hc : ContinuousAt (fun t : ℝ => q + t • v) 0 := by fun_prop
  have h0 : C ∈ 𝓝 (q + (0 : ℝ) • v) := by simpa using mem_interior_iff_mem_nhds.mp hq
  obtain ⟨ε, hε, hb⟩ := Metric.mem_nhds_iff.mp (hc.preimage_mem_nhds h0)
  refine ⟨ε / 2, by linarith, hb ?_⟩
  rw [Metric.mem_ball, Real.dist_eq, sub_zero, abs_of_pos (by linarith)]
  linarith

theorem tetra_body : tetra.body = {q : P3 | 0 ≤ q.1 ∧ 0 ≤ q.2.1 ∧ 0 ≤ q.2.2 ∧ q.1 + q.2.1 + q.2.2 ≤ 1} := by
  apply Set.Subset.antisymm
  · apply convexHull_min
    · rintro q ⟨p, hp, rfl⟩
      simp only [tetra, List.mem_cons, List.not_mem_nil, or_false] at hp
      rcases hp with rfl | rfl | rfl | rfl <;> simp [V3.toP]
    · rintro ⟨x, y, z⟩ ⟨h1, h2, h3, h4⟩ ⟨x', y', z'⟩ ⟨h1', h2', h3', h4'⟩ s t hs ht hst
      simp only [Set.mem_ofPred_eq, Prod.smul_mk, Prod.mk_add_mk, smul_eq_mul] at *
      refine ⟨by positivity, by positivity, by positivity, ?_⟩
      nlinarith [mul_le_mul_of_nonneg_left h4 hs, mul_le_mul_of_nonneg_left h4' ht]
  · rintro ⟨x, y, z⟩ ⟨h1, h2, h3, h4⟩
    simp only at h1 h2 h3 h4
    have hm : ∀ p ∈ tetra.points, p.toP ∈ tetra.body := fun p hp => subset_convexHull ℝ _ ⟨p, hp, rfl⟩
    have := conv4 (C := tetra.body) (convex_convexHull ℝ _) (hm ⟨0, 0, 0⟩ (by simp [tetra])) (hm ⟨1, 0, 0⟩ (by simp [tetra]))
      (hm ⟨0, 1, 0⟩ (by simp [tetra])) (hm ⟨0, 0, 1⟩ (by simp [tetra])) (u := 1 - x - y - z) (v := x) (w := y) (x := z)
      (by linarith) h1 h2 h3 (by ring)
    simpa [V3.toP] using this

theorem tetra_interior : interior tetra.body = {q : P3 | 0 < q.1 ∧ 0 < q.2.1 ∧ 0 < q.2.2 ∧ q.1 + q.2.1 + q.2.2 < 1} := by
  apply Set.Subset.antisymm
  · intro q hq
    obtain ⟨t1, ht1, h1⟩ := exists_step hq (-1, 0, 0)
    obtain ⟨t2, ht2, h2⟩ := exists_step hq (0, -1, 0)
    obtain ⟨t3, ht3, h3⟩ := exists_step hq (0, 0, -1)
    obtain ⟨t4, ht4, h4⟩ := exists_step hq (1, 0, 0)
    rw [tetra_body] at h1 h2 h3 h4
    obtain ⟨x, y, z⟩ := q
    simp only [Set.mem_ofPred_eq, Prod.smul_mk, Prod.mk_add_mk, smul_eq_mul] at *
    refine ⟨by linarith, by linarith, by linarith, by linarith⟩
  · apply interior_maximal
    · rw [tetra_body]
      rintro q ⟨h1, h2, h3, h4⟩
      exact ⟨h1.le, h2.le, h3.le, h4.le⟩
    · have e : {q : P3 | 0 < q.1 ∧ 0 < q.2.1 ∧ 0 < q.2.2 ∧ q.1 + q.2.1 + q.2.2 < 1} =
          {q : P3 | 0 < q.1} ∩ ({q : P3 | 0 < q.2.1} ∩ ({q : P3 | 0 < q.2.2} ∩ {q : P3 | q.1 + q.2.1 + q.2.2 < 1})) := rfl
      rw [e]
      exact (isOpen_lt continuous_const (by fun_prop)).inter ((isOpen_lt continuous_const (by fun_prop)).inter
        ((isOpen_lt continuous_const (by fun_prop)).inter (isOpen_lt (by fun_prop) continuous_const)))

theorem tetra_frontier : frontier tetra.body = {q : P3 | (0 ≤ q.1 ∧ 0 ≤ q.2.1 ∧ 0 ≤ q.2.2 ∧ q.1 + q.2.1 + q.2.2 ≤ 1) ∧
    (q.1 = 0 ∨ q.2.1 = 0 ∨ q.2.2 = 0 ∨ q.1 + q.2.1 + q.2.2 = 1)} := by
  have hcl : IsClosed tetra.body := by
    have e : tetra.body = {q : P3 | 0 ≤ q.1} ∩ ({q : P3 | 0 ≤ q.2.1} ∩ ({q : P3 | 0 ≤ q.2.2} ∩ {q : P3 | q.1 + q.2.1 + q.2.2 ≤ 1})) := by
      rw [tetra_body]; rfl
    rw [e]
    exact (isClosed_le continuous_const (by fun_prop)).inter ((isClosed_le continuous_const (by fun_prop)).inter
      ((isClosed_le continuous_const (by fun_prop)).inter (isClosed_le (by fun_prop) continuous_const)))
  rw [hcl.frontier_eq, tetra_interior, tetra_body]
  ext q
  simp only [Set.mem_sdiff, Set.mem_ofPred_eq, not_and]
  constructor
  · rintro ⟨⟨h1, h2, h3, h4⟩, hn⟩
    refine ⟨⟨h1, h2, h3, h4⟩, ?_⟩
    by_contra hcon
    push Not at hcon
    obtain ⟨n1, n2, n3, n4⟩ := hcon
    exact hn (lt_of_le_of_ne h1 n1.symm) (lt_of_le_of_ne h2 n2.symm) (lt_of_le_of_ne h3 n3.symm) (lt_of_le_of_ne h4 n4)
  · rintro ⟨⟨h1, h2, h3, h4⟩, hn⟩
    refine ⟨⟨h1, h2, h3, h4⟩, fun p1 p2 p3 p4 => ?_⟩
    rcases hn with hn | hn | hn | hn <;> linarith

theorem tetra_pt0 : tetra.pt 0 = ⟨0, 0, 0⟩ := rfl
theorem tetra_pt1 : tetra.pt 1 = ⟨1, 0, 0⟩ := rfl
theorem tetra_pt2 : tetra.pt 2 = ⟨0, 1, 0⟩ := rfl
theorem tetra_pt3 : tetra.pt 3 = ⟨0, 0, 1⟩ := rfl

theorem collinear_cross {a b c : V3 ℝ} (h : Collinear3 a b c) :
    (b.y - a.y) * (c.z - a.z) = (b.z - a.z) * (c.y - a.y) ∧ (b.z - a.z) * (c.x - a.x) = (b.x - a.x) * (c.z - a.z) ∧
    (b.x - a.x) * (c.y - a.y) = (b.y - a.y) * (c.x - a.x) := by
  obtain ⟨⟨u1, u2, u3⟩, ⟨v1, v2, v3⟩, h⟩ := h
  obtain ⟨s, hs⟩ := h a (by simp)
  obtain ⟨t, ht⟩ := h b (by simp)
  obtain ⟨w, hw⟩ := h c (by simp)
  simp only [V3.toP, Prod.smul_mk, Prod.mk_add_mk, smul_eq_mul, Prod.mk.injEq] at hs ht hw
  rw [hs.1, hs.2.1, hs.2.2, ht.1, ht.2.1, ht.2.2, hw.1, hw.2.1, hw.2.2]
  refine ⟨by ring, by ring, by ring⟩

/-- the tetrahedron fulfils the contract -/
theorem tetra_isHull : tetra.IsHull where
  solid := by rw [tetra_interior]; exact ⟨(1 / 4, 1 / 4, 1 / 4), by norm_num, by norm_num, by norm_num, by norm_num⟩
  vertexIndex := by decide
  vertexHull := by
    apply convexHull_mono
    rintro q ⟨p, hp, rfl⟩
    simp only [tetra, List.mem_cons, List.not_mem_nil, or_false] at hp
    rcases hp with rfl | rfl | rfl | rfl
    · exact ⟨0, by decide, rfl⟩
    · exact ⟨1, by decide, rfl⟩
    · exact ⟨2, by decide, rfl⟩
    · exact ⟨3, by decide, rfl⟩
  cornerIndex := by
    intro s hs i hi
    simp only [tetra, List.mem_cons, List.not_mem_nil, or_false] at hs
    show i < 4
    rcases hs with rfl | rfl | rfl | rfl <;> rcases hi with rfl | rfl | rfl <;> decide
  proper := by
    intro s hs hc
    have := collinear_cross hc
    simp only [tetra, List.mem_cons, List.not_mem_nil, or_false] at hs
    rcases hs with rfl | rfl | rfl | rfl <;>
      simp [tetra_pt0, tetra_pt1, tetra_pt2, tetra_pt3] at this
  cover := by
    rw [tetra_frontier]
    ext ⟨x, y, z⟩
    simp only [Set.mem_ofPred_eq, tetra, List.mem_cons, List.not_mem_nil, or_false, exists_eq_or_imp, exists_eq_left]
    constructor
    · rintro ⟨⟨h1, h2, h3, h4⟩, h | h | h | h⟩
      · right; right; left
        exact mem_triangle.mpr ⟨1 - y - z, y, z, by linarith, h2, h3, by ring, by simp [at3, Hull.pt, V3.toP, h]⟩
      · right; left
        exact mem_triangle.mpr ⟨1 - x - z, x, z, by linarith, h1, h3, by ring, by simp [at3, Hull.pt, V3.toP, h]⟩
      · left
        exact mem_triangle.mpr ⟨1 - x - y, x, y, by linarith, h1, h2, by ring, by simp [at3, Hull.pt, V3.toP, h]⟩
      · right; right; right
        exact mem_triangle.mpr ⟨x, y, z, h1, h2, h3, h, by simp [at3, Hull.pt, V3.toP]⟩
    · rintro (h | h | h | h) <;> obtain ⟨u, v, w, hu, hv, hw, hs, he⟩ := mem_triangle.mp h <;>
        simp only [Hull.pt, at3, V3.toP, List.getD_eq_getElem?_getD, List.getElem?_cons_zero, List.getElem?_cons_succ, Option.getD_some, Prod.smul_mk, Prod.mk_add_mk,
          smul_eq_mul, mul_zero, mul_one, add_zero, zero_add, Prod.mk.injEq] at he <;> obtain ⟨rfl, rfl, rfl⟩ := he
      · exact ⟨⟨hv, hw, le_refl _, by linarith⟩, .inr (.inr (.inl rfl))⟩
      · exact ⟨⟨hv, le_refl _, hw, by linarith⟩, .inr (.inl rfl)⟩
      · exact ⟨⟨le_refl _, hv, hw, by linarith⟩, .inl rfl⟩
      · exact ⟨⟨hu, hv, hw, by linarith⟩, .inr (.inr (.inr hs))⟩
  disjoint := by
    intro k k' s s' hk hk' hne
    rw [Set.disjoint_left]
    rintro ⟨x, y, z⟩ ⟨u, v, w, hu, hv, hw, hs, he⟩ ⟨u', v', w', hu', hv', hw', hs', he'⟩
    have hkl : k < 4 := (List.getElem?_eq_some_iff.mp hk).1
    have hkl' : k' < 4 := (List.getElem?_eq_some_iff.mp hk').1
    interval_cases k <;> interval_cases k' <;> first | exact absurd rfl hne | skip
    all_goals
      simp only [tetra, List.getElem?_cons_zero, List.getElem?_cons_succ, Option.some.injEq] at hk hk'
      subst hk hk'
      simp only [tetra_pt0, tetra_pt1, tetra_pt2, tetra_pt3, V3.toP, Prod.smul_mk, Prod.mk_add_mk,
        smul_eq_mul, mul_zero, mul_one, add_zero, zero_add, Prod.mk.injEq] at he he'
      obtain ⟨a1, a2, a3⟩ := he
      obtain ⟨b1, b2, b3⟩ := he'
      linarith
  rows := rfl
  neighbor := by
    intro k s nb hk hnb n
    have hkl : k < 4 := (List.getElem?_eq_some_iff.mp hk).1
    constructor
    · intro hn
      interval_cases k <;>
        simp only [tetra, List.getElem?_cons_zero, List.getElem?_cons_succ, Option.some.injEq] at hk hnb <;> subst hk hnb <;>
        simp only [List.mem_cons, List.not_mem_nil, or_false] at hn <;> rcases hn with rfl | rfl | rfl <;>
        refine ⟨by decide, _, rfl, ?_⟩
      · exact ⟨1, 2, by decide, by simp [Corner], by simp [Corner], by simp [Corner], by simp [Corner]⟩
      · exact ⟨0, 2, by decide, by simp [Corner], by simp [Corner], by simp [Corner], by simp [Corner]⟩
      · exact ⟨0, 1, by decide, by simp [Corner], by simp [Corner], by simp [Corner], by simp [Corner]⟩
      · exact ⟨1, 3, by decide, by simp [Corner], by simp [Corner], by simp [Corner], by simp [Corner]⟩
      · exact ⟨0, 3, by decide, by simp [Corner], by simp [Corner], by simp [Corner], by simp [Corner]⟩
      · exact ⟨0, 1, by decide, by simp [Corner], by simp [Corner], by simp [Corner], by simp [Corner]⟩
      · exact ⟨2, 3, by decide, by simp [Corner], by simp [Corner], by simp [Corner], by simp [Corner]⟩
      · exact ⟨0, 3, by decide, by simp [Corner], by simp [Corner], by simp [Corner], by simp [Corner]⟩
      · exact ⟨0, 2, by decide, by simp [Corner], by simp [Corner], by simp [Corner], by simp [Corner]⟩
      · exact ⟨2, 3, by decide, by simp [Corner], by simp [Corner], by simp [Corner], by simp [Corner]⟩
      · exact ⟨1, 3, by decide, by simp [Corner], by simp [Corner], by simp [Corner], by simp [Corner]⟩
      · exact ⟨1, 2, by decide, by simp [Corner], by simp [Corner], by simp [Corner], by simp [Corner]⟩
    · rintro ⟨hn, t, ht, -⟩
      have hnl : n < 4 := (List.getElem?_eq_some_iff.mp ht).1
      interval_cases k <;>
        simp only [tetra, List.getElem?_cons_zero, List.getElem?_cons_succ, Option.some.injEq] at hnb <;> subst hnb <;>
        interval_cases n <;> simp at hn ⊢
  side := by
    intro k s hk a b hab ha hb
    have hkl : k < 4 := (List.getElem?_eq_some_iff.mp hk).1
    interval_cases k <;>
      simp only [tetra, List.getElem?_cons_zero, List.getElem?_cons_succ, Option.some.injEq] at hk <;> subst hk <;>
      rcases ha with rfl | rfl | rfl <;> rcases hb with rfl | rfl | rfl <;> first | exact absurd rfl hab | skip
    all_goals
      first
        | refine ⟨0, ⟨by decide, _, rfl, by simp [Corner], by simp [Corner]⟩, ?_⟩
          rintro n ⟨hn, t, ht, c1, c2⟩
          have hnl : n < 4 := (List.getElem?_eq_some_iff.mp ht).1
          interval_cases n <;> simp only [tetra, List.getElem?_cons_zero, List.getElem?_cons_succ, Option.some.injEq] at ht <;>
            subst ht <;> simp [Corner] at hn c1 c2 ⊢
          done
        | refine ⟨1, ⟨by decide, _, rfl, by simp [Corner], by simp [Corner]⟩, ?_⟩
          rintro n ⟨hn, t, ht, c1, c2⟩
          have hnl : n < 4 := (List.getElem?_eq_some_iff.mp ht).1
          interval_cases n <;> simp only [tetra, List.getElem?_cons_zero, List.getElem?_cons_succ, Option.some.injEq] at ht <;>
            subst ht <;> simp [Corner] at hn c1 c2 ⊢
          done
        | refine ⟨2, ⟨by decide, _, rfl, by simp [Corner], by simp [Corner]⟩, ?_⟩
          rintro n ⟨hn, t, ht, c1, c2⟩
          have hnl : n < 4 := (List.getElem?_eq_some_iff.mp ht).1
          interval_cases n <;> simp only [tetra, List.getElem?_cons_zero, List.getElem?_cons_succ, Option.some.injEq] at ht <;>
            subst ht <;> simp [Corner] at hn c1 c2 ⊢
          done
        | refine ⟨3, ⟨by decide, _, rfl, by simp [Corner], by simp [Corner]⟩, ?_⟩
          rintro n ⟨hn, t, ht, c1, c2⟩
          have hnl : n < 4 := (List.getElem?_eq_some_iff.mp ht).1
          interval_cases n <;> simp only [tetra, List.getElem?_cons_zero, List.getElem?_cons_succ, Option.some.injEq] at ht <;>
            subst ht <;> simp [Corner] at hn c1 c2 ⊢
          done

end
end Geec
