import Verif.Lemmas.Limit
import Mathlib.Algebra.Polynomial.Roots
import Mathlib.Topology.Order.LeftRightNhds
import Mathlib.Algebra.Order.Archimedean.Basic
/-
Points in general position are firm; every solid is spanned by firm points, and near any points there are points in general position.
-/
namespace Geec
open Filter
noncomputable section

/-- points in general position: what is not inside is a corner -/
theorem General.firm {pts : List (V3 ℝ)} (hg : General pts) : Firm pts := by
  refine ⟨Hull.solid_of_general (h := only pts) hg, fun i hi => ?_⟩
  by_cases hin : (at3 pts i).toP ∈ interior (only pts).body
  · exact Or.inl hin
  right
  have hfr : ((only pts).pt i).toP ∈ frontier (only pts).body := by
    rw [(Hull.body_compact _).isClosed.frontier_eq]
    exact ⟨Hull.mem_body (Hull.pt_mem hi), hin⟩
  rw [Hull.frontier_facets hg] at hfr
  obtain ⟨a, b, c, hf, hq⟩ := hfr
  -- it is a corner of the facet
  have hc : Corner (a, b, c) i := by
    by_contra hcon
    obtain ⟨n, -, h1, h2, h3⟩ := hf.plane hg
    have hlt := h3 i hi (fun e => hcon (.inl e)) (fun e => hcon (.inr (.inl e))) (fun e => hcon (.inr (.inr e)))
    have hcv : Convex ℝ {x : P3 | rdot n ((only pts).pt a) ≤ form n x} := by
      intro x hx y hy a b ha hb hab
      simp only [Set.mem_ofPred_eq] at hx hy ⊢
      rw [form_add]
      have := add_le_add (mul_le_mul_of_nonneg_left hx ha) (mul_le_mul_of_nonneg_left hy hb)
      rwa [← add_mul, hab, one_mul] at this
    rw [Hull.tri_eq] at hq
    have := convexHull_min (t := {x : P3 | rdot n ((only pts).pt a) ≤ form n x}) (by
      rintro _ ⟨x, hx, rfl⟩
      simp only [Set.mem_ofPred_eq, form_toP]
      rcases hx with rfl | rfl | rfl
      · exact le_rfl
      · exact h1.ge
      · exact h2.ge) hcv hq
    simp only [Set.mem_ofPred_eq, form_toP] at this
    linarith
  have key : ∀ {i j k : Nat}, (only pts).Facet i j k → ∃ n : V3 ℝ, ∀ l, l < pts.length → l ≠ i → rdot n (at3 pts l) < rdot n (at3 pts i) := by
    intro i j k hf
    obtain ⟨n, -, h1, h2, h3⟩ := hf.plane hg
    have hN := Hull.normal_ne_of_general hg hf.i_lt hf.j_lt hf.k_lt hf.ij hf.ik hf.jk
    set N := triNormal ((only pts).pt i) ((only pts).pt j) ((only pts).pt k) with hNd
    -- turned about the side opposite the corner
    set g := cross N (((only pts).pt k).sub ((only pts).pt j)) with hgd
    have g1 : rdot g ((only pts).pt k) = rdot g ((only pts).pt j) := by
      have : rdot g (((only pts).pt k).sub ((only pts).pt j)) = 0 := rdot_cross_right _ _
      rw [rdot_sub] at this
      linarith
    have g2 : rdot g ((only pts).pt j) < rdot g ((only pts).pt i) := by
      have h1 : rdot g (((only pts).pt i).sub ((only pts).pt j)) = rdot N N := by
        rw [hgd, hNd]
        simp only [triNormal, rdot, cross_x, cross_y, cross_z, sub_x, sub_y, sub_z]
        ring
      rw [rdot_sub] at h1
      have := rdot_self_pos hN
      linarith
    have hev : ∀ᶠ t : ℝ in nhdsWithin 0 (Set.Ioi 0), ∀ l ∈ Finset.range pts.length, l ≠ i →
        rdot n ((only pts).pt l) + t * rdot g ((only pts).pt l) < rdot n ((only pts).pt i) + t * rdot g ((only pts).pt i) := by
      rw [Finset.eventually_all]
      intro l hl
      by_cases l1 : l = i
      · exact Eventually.of_forall fun _ h => absurd l1 h
      by_cases l2 : l = j
      · subst l2
        filter_upwards [self_mem_nhdsWithin] with t ht _
        have := mul_pos ht (sub_pos.mpr g2)
        rw [h1]; linarith
      by_cases l3 : l = k
      · subst l3
        filter_upwards [self_mem_nhdsWithin] with t ht _
        have := mul_pos ht (sub_pos.mpr g2)
        rw [h2, g1]; linarith
      have hlt := h3 l (Finset.mem_range.mp hl) l1 l2 l3
      have hc1 : Continuous fun t : ℝ => rdot n ((only pts).pt l) + t * rdot g ((only pts).pt l) := by fun_prop
      have hc2 : Continuous fun t : ℝ => rdot n ((only pts).pt i) + t * rdot g ((only pts).pt i) := by fun_prop
      have := (hc1.continuousAt (x := 0)).eventually_lt (hc2.continuousAt (x := 0)) (by simpa using hlt)
      exact (this.filter_mono nhdsWithin_le_nhds).mono fun _ h _ => h
    obtain ⟨t, ht⟩ := hev.exists
    have e : ∀ p : V3 ℝ, rdot (n.add (V3.smul t g)) p = rdot n p + t * rdot g p := by
      intro p
      simp only [rdot, V3.add, V3.smul, r_add, r_mul]
      ring
    refine ⟨n.add (V3.smul t g), fun l hl hli => ?_⟩
    rw [e, e]
    exact ht l (Finset.mem_range.mpr hl) hli
  rcases hc with rfl | rfl | rfl
  · exact key hf
  · exact key hf.rot
  · exact key hf.rot.rot

/-! ### Points in general position near any points -/

/-- the points moved towards points of the moment curve -/
def spread (t : ℝ) (pts : List (V3 ℝ)) : List (V3 ℝ) :=
  pts.mapIdx fun l p => ⟨p.x + t * l, p.y + t * l ^ 2, p.z + t * l ^ 3⟩

theorem spread_at (t : ℝ) {pts : List (V3 ℝ)} {l : Nat} (hl : l < pts.length) :
    at3 (spread t pts) l = ⟨(at3 pts l).x + t * l, (at3 pts l).y + t * l ^ 2, (at3 pts l).z + t * l ^ 3⟩ := by
  unfold at3 spread
  rw [List.getD_eq_getElem _ _ (by simpa using hl), List.getD_eq_getElem _ _ hl, List.getElem_mapIdx]

theorem vol_spread (a b c d : V3 ℝ) (i j k l : ℝ) : ∃ c0 c1 c2 : ℝ, ∀ t : ℝ,
    vol ⟨a.x + t * i, a.y + t * i ^ 2, a.z + t * i ^ 3⟩ ⟨b.x + t * j, b.y + t * j ^ 2, b.z + t * j ^ 3⟩ ⟨c.x + t * k, c.y + t * k ^ 2, c.z + t * k ^ 3⟩
      ⟨d.x + t * l, d.y + t * l ^ 2, d.z + t * l ^ 3⟩ = c0 + c1 * t + c2 * t ^ 2 + ((j - i) * (k - i) * (l - i) * (k - j) * (l - j) * (l - k)) * t ^ 3 := by
  let f : ℝ → ℝ := fun t => vol ⟨a.x + t * i, a.y + t * i ^ 2, a.z + t * i ^ 3⟩ ⟨b.x + t * j, b.y + t * j ^ 2, b.z + t * j ^ 3⟩ ⟨c.x + t * k, c.y + t * k ^ 2, c.z + t * k ^ 3⟩
      ⟨d.x + t * l, d.y + t * l ^ 2, d.z + t * l ^ 3⟩
  refine ⟨f 0, (f 1 - f (-1)) / 2 - ((j - i) * (k - i) * (l - i) * (k - j) * (l - j) * (l - k)), (f 1 + f (-1)) / 2 - f 0, fun t => ?_⟩
  simp only [f, vol, triNormal, rdot, cross_x, cross_y, cross_z, sub_x, sub_y, sub_z]
  ring

theorem cubic_ne {c0 c1 c2 c3 : ℝ} (h : c3 ≠ 0) : {t : ℝ | c0 + c1 * t + c2 * t ^ 2 + c3 * t ^ 3 = 0}.Finite := by
  open Polynomial in
  let P : ℝ[X] := C c0 + C c1 * X + C c2 * X ^ 2 + C c3 * X ^ 3
  have hP : P ≠ 0 := by
    intro e
    have := congrArg (fun p => Polynomial.coeff p 3) e
    simp [P, Polynomial.coeff_X_pow] at this
    exact h this
  refine (Polynomial.finite_setOfPred_isRoot hP).subset fun t ht => ?_
  simpa [P] using ht

theorem spread_general {pts : List (V3 ℝ)} (h4 : 4 ≤ pts.length) : {t : ℝ | ¬ General (spread t pts)}.Finite := by
  have hlen : ∀ t, (spread t pts).length = pts.length := fun t => by simp [spread]
  have hfin : (⋃ x ∈ (Finset.range pts.length ×ˢ Finset.range pts.length ×ˢ Finset.range pts.length ×ˢ Finset.range pts.length : Finset (Nat × Nat × Nat × Nat)),
      {t : ℝ | Distinct4 x.1 x.2.1 x.2.2.1 x.2.2.2 ∧ vol (at3 (spread t pts) x.1) (at3 (spread t pts) x.2.1) (at3 (spread t pts) x.2.2.1) (at3 (spread t pts) x.2.2.2) = 0}).Finite := by
    refine Set.Finite.biUnion (Finset.finite_toSet _) ?_
    rintro ⟨i, j, k, l⟩ hx
    simp only [Finset.coe_product, Set.mem_prod, Finset.mem_coe, Finset.mem_range] at hx
    obtain ⟨hi, hj, hk, hl⟩ := hx
    by_cases hd : Distinct4 i j k l
    · obtain ⟨c0, c1, c2, hc⟩ := vol_spread (at3 pts i) (at3 pts j) (at3 pts k) (at3 pts l) i j k l
      obtain ⟨d1, d2, d3, d4, d5, d6⟩ := hd
      have ne : ∀ {a b : Nat}, a ≠ b → (b : ℝ) - a ≠ 0 := fun h e => h (by have := sub_eq_zero.mp e; exact_mod_cast this.symm)
      refine (cubic_ne (c0 := c0) (c1 := c1) (c2 := c2) (c3 := ((j : ℝ) - i) * (k - i) * (l - i) * (k - j) * (l - j) * (l - k)) ?_).subset ?_
      · exact mul_ne_zero (mul_ne_zero (mul_ne_zero (mul_ne_zero (mul_ne_zero (ne d1) (ne d2)) (ne d3)) (ne d4)) (ne d5)) (ne d6)
      · rintro t ⟨-, ht⟩
        rw [spread_at t hi, spread_at t hj, spread_at t hk, spread_at t hl, hc t] at ht
        exact ht
    · exact Set.finite_empty.subset fun t ht => hd ht.1
  refine hfin.subset fun t ht => ?_
  by_contra hcon
  refine ht ⟨by rw [hlen]; exact h4, fun i j k l hi hj hk hl hd hc => hcon ?_⟩
  rw [hlen] at hi hj hk hl
  refine Set.mem_biUnion (x := (i, j, k, l)) ?_ ⟨hd, coplanar_iff.mp hc⟩
  simp only [Finset.coe_product, Set.mem_prod, Finset.mem_coe, Finset.mem_range]
  exact ⟨hi, hj, hk, hl⟩

/-- near four or more points there are points in general position -/
theorem exists_general {pts : List (V3 ℝ)} (h4 : 4 ≤ pts.length) {ε : ℝ} (e0 : 0 < ε) : ∃ pts', List.Forall₂ (NearV ε) pts' pts ∧ General pts' := by
  obtain ⟨n, hn⟩ : ∃ n : ℝ, n = (pts.length : ℝ) := ⟨_, rfl⟩
  have n0 : 0 < n := by
    rw [hn]
    have : 0 < pts.length := by omega
    exact_mod_cast this
  have hinf : (Set.Ioo 0 (ε / (1 + n) ^ 3)).Infinite := Set.Ioo_infinite (by positivity)
  obtain ⟨t, ht, hg⟩ := (hinf.sdiff (spread_general h4)).nonempty
  refine ⟨spread t pts, ?_, not_not.mp hg⟩
  rw [List.forall₂_iff_get]
  refine ⟨by simp [spread], fun l h1 h2 => ?_⟩
  have hl : (l : ℝ) ≤ n := by rw [hn]; exact_mod_cast h2.le
  have hl0 : (0 : ℝ) ≤ l := Nat.cast_nonneg l
  have b1 : (l : ℝ) ≤ (1 + n) ^ 3 := by
    have : (1 + n) ^ 3 = 1 + 3 * n + 3 * n ^ 2 + n ^ 3 := by ring
    rw [this]; nlinarith [pow_pos n0 2, pow_pos n0 3]
  have b2 : (l : ℝ) ^ 2 ≤ (1 + n) ^ 3 := by
    have h3 := pow_le_pow_left₀ hl0 hl 2
    have : (1 + n) ^ 3 = 1 + 3 * n + 3 * n ^ 2 + n ^ 3 := by ring
    rw [this]; nlinarith [pow_pos n0 2, pow_pos n0 3]
  have b3 : (l : ℝ) ^ 3 ≤ (1 + n) ^ 3 := pow_le_pow_left₀ hl0 (by linarith) 3
  have ht' := (lt_div_iff₀ (by positivity)).mp ht.2
  have key : ∀ x : ℝ, 0 ≤ x → x ≤ (1 + n) ^ 3 → |t * x| ≤ ε := by
    intro x hx hx'
    rw [abs_of_nonneg (mul_nonneg ht.1.le hx)]
    exact (mul_le_mul_of_nonneg_left hx' ht.1.le).trans ht'.le
  simp only [spread, List.get_eq_getElem, List.getElem_mapIdx, NearV, add_sub_cancel_left]
  exact ⟨key _ hl0 b1, key _ (by positivity) b2, key _ (by positivity) b3⟩

/-! ### The corners of a solid -/

/-- among finitely many points there are some that span the same set, each of them touched by a plane that touches no other one -/
theorem exists_corners (S : Finset (V3 ℝ)) : ∃ E ⊆ S, convexHull ℝ {q : P3 | ∃ p ∈ E, q = p.toP} = convexHull ℝ {q : P3 | ∃ p ∈ S, q = p.toP} ∧
    ∀ e ∈ E, ∃ n : V3 ℝ, ∀ p ∈ E, p ≠ e → rdot n p < rdot n e := by
  classical
  let good : Finset (Finset (V3 ℝ)) := S.powerset.filter fun E => convexHull ℝ {q : P3 | ∃ p ∈ E, q = p.toP} = convexHull ℝ {q : P3 | ∃ p ∈ S, q = p.toP}
  obtain ⟨E, hE, hmin⟩ := good.exists_min_image Finset.card ⟨S, by simp [good]⟩
  simp only [good, Finset.mem_filter, Finset.mem_powerset] at hE
  refine ⟨E, hE.1, hE.2, fun e he => ?_⟩
  have hout : e.toP ∉ convexHull ℝ {q : P3 | ∃ p ∈ E.erase e, q = p.toP} := by
    intro hin
    have h1 : convexHull ℝ {q : P3 | ∃ p ∈ E, q = p.toP} ⊆ convexHull ℝ {q : P3 | ∃ p ∈ E.erase e, q = p.toP} := by
      refine convexHull_min ?_ (convex_convexHull ℝ _)
      rintro _ ⟨p, hp, rfl⟩
      by_cases hpe : p = e
      · rw [hpe]; exact hin
      · exact subset_convexHull ℝ _ ⟨p, Finset.mem_erase.mpr ⟨hpe, hp⟩, rfl⟩
    have h2 : convexHull ℝ {q : P3 | ∃ p ∈ E.erase e, q = p.toP} ⊆ convexHull ℝ {q : P3 | ∃ p ∈ E, q = p.toP} := by
      refine convexHull_mono ?_
      rintro _ ⟨p, hp, rfl⟩
      exact ⟨p, Finset.mem_of_mem_erase hp, rfl⟩
    have h3 := hmin (E.erase e) (by
      simp only [good, Finset.mem_filter, Finset.mem_powerset]
      exact ⟨(Finset.erase_subset _ _).trans hE.1, (Set.Subset.antisymm h2 h1).trans hE.2⟩)
    have := Finset.card_erase_lt_of_mem he
    omega
  have hcl : IsClosed (convexHull ℝ {q : P3 | ∃ p ∈ E.erase e, q = p.toP}) := by
    have e' : {q : P3 | ∃ p ∈ E.erase e, q = p.toP} = V3.toP '' (E.erase e : Set (V3 ℝ)) := by
      ext q; constructor
      · rintro ⟨p, hp, rfl⟩; exact ⟨p, hp, rfl⟩
      · rintro ⟨p, hp, rfl⟩; exact ⟨p, hp, rfl⟩
    rw [e']
    exact (Set.Finite.isCompact_convexHull ℝ ((Finset.finite_toSet _).image _)).isClosed
  obtain ⟨f, c, h1, h2⟩ := geometric_hahn_banach_closed_point (convex_convexHull ℝ _) hcl hout
  obtain ⟨n, hn⟩ := linear_form f
  refine ⟨n, fun p hp hpe => ?_⟩
  have h3 := h1 p.toP (subset_convexHull ℝ _ ⟨p, Finset.mem_erase.mpr ⟨hpe, hp⟩, rfl⟩)
  rw [hn] at h2 h3
  linarith

/-- solids have firm points that span them -/
theorem exists_firm {pts : List (V3 ℝ)} (hs : (interior (only pts).body).Nonempty) : ∃ E : List (V3 ℝ), E.Nodup ∧ (∀ p ∈ E, p ∈ pts) ∧ (only E).body = (only pts).body ∧ Firm E := by
  classical
  obtain ⟨E, hE, hb, hc⟩ := exists_corners pts.toFinset
  have e1 : (only E.toList).body = (only pts).body := by
    unfold Hull.body
    simpa only [Finset.mem_toList, List.mem_toFinset] using hb
  refine ⟨E.toList, E.nodup_toList, fun p hp => by simpa using hE (Finset.mem_toList.mp hp), e1, ?_, fun i hi => Or.inr ?_⟩
  · have : (interior (only E.toList).body).Nonempty := by rw [e1]; exact hs
    exact this
  · obtain ⟨n, hn⟩ := hc (at3 E.toList i) (Finset.mem_toList.mp (Hull.pt_mem (h := only E.toList) hi))
    refine ⟨n, fun l hl hli => hn _ (Finset.mem_toList.mp (Hull.pt_mem (h := only E.toList) hl)) fun e => hli ?_⟩
    unfold at3 at e
    rw [List.getD_eq_getElem _ _ hl, List.getD_eq_getElem _ _ hi] at e
    exact (E.nodup_toList.getElem_inj_iff).mp e

/-- a solid has four points -/
theorem four_of_solid {pts : List (V3 ℝ)} (hs : (interior (only pts).body).Nonempty) : 4 ≤ pts.length := by
  by_contra hcon
  -- three points are in a plane
  have hplane : ∃ n : V3 ℝ, n ≠ V3.zeros ∧ ∃ c : ℝ, ∀ l, l < pts.length → rdot n ((only pts).pt l) = c := by
    obtain ⟨n, n0, h1, h2, h3⟩ := exists_orth3 (e1 := ((only pts).pt 1).sub ((only pts).pt 0)) (e2 := ((only pts).pt 2).sub ((only pts).pt 0)) (e3 := V3.zeros) (by
      simp [rdot])
    rw [rdot_sub] at h1 h2
    refine ⟨n, n0, rdot n ((only pts).pt 0), fun l hl => ?_⟩
    have : l = 0 ∨ l = 1 ∨ l = 2 := by omega
    rcases this with rfl | rfl | rfl
    · rfl
    · linarith
    · linarith
  obtain ⟨n, n0, c, hc⟩ := hplane
  obtain ⟨o, ho⟩ := hs
  have key : ∀ q ∈ (only pts).body, form n q = c := by
    intro q hq
    refine le_antisymm (Hull.body_le (fun i hi => (hc i hi).le) hq) ?_
    have := Hull.body_le (h := only pts) (n := n.neg) (c := -c) (fun i hi => by rw [neg_rdot, hc i hi]) hq
    unfold form at this ⊢
    rw [neg_rdot] at this
    linarith
  have := frontier_of_max (Hull.body_compact _).isClosed n0 (interior_subset ho) fun p hp => by rw [key p hp, key o (interior_subset ho)]
  exact this.2 ho

end
end Geec
