import Verif.Props.AnyHull
/-
C104: what is assumed of the hull library can be met, for all points that span a solid; for points in general position it determines the triangles.
-/
namespace Geec
open Filter
noncomputable section

theorem turned_plane (N e u v : V3 ℝ) (h : rdot N e = 0) :
    rdot N u * rdot (cross N e) v - rdot (cross N e) u * rdot N v = -(rdot N N * rdot (cross e u) v) := by
  have h1 : cross N (cross N e) = (V3.smul (rdot N N) e).neg := by
    refine V3.ext' ?_ ?_ ?_ <;> simp only [rdot] at h <;> simp only [rdot, cross_x, cross_y, cross_z, neg_x, neg_y, neg_z, smul_x, smul_y, smul_z]
    · linear_combination N.x * h
    · linear_combination N.y * h
    · linear_combination N.z * h
  have h2 := lagrange N (cross N e) u v
  rw [h1, neg_rdot, smul_rdot, ← det3, det3_eq] at h2
  linarith

namespace Hull
variable {h : Hull ℝ}

theorem vol_last (h : Hull ℝ) (a b c d : Nat) : h.vol a b d c = -h.vol a b c d := vol_swap_last _ _ _ _

/-- at most two facets have a side in common -/
theorem facets_side {a b c d e : Nat} (h1 : h.Facet a b c) (h2 : h.Facet a b d) (h3 : h.Facet a b e) (hcd : c ≠ d) (hce : c ≠ e) : d = e := by
  by_contra hde
  have s1 := h.vol_last a b c d
  have s2 := h.vol_last a b c e
  have s3 := h.vol_last a b d e
  rcases h1.oneSide with o1 | o1 <;> rcases h2.oneSide with o2 | o2 <;> rcases h3.oneSide with o3 | o3 <;>
  · have a1 := o1 d h2.k_lt h2.ik.symm h2.jk.symm hcd.symm
    have a2 := o1 e h3.k_lt h3.ik.symm h3.jk.symm hce.symm
    have b1 := o2 c h1.k_lt h1.ik.symm h1.jk.symm hcd
    have b2 := o2 e h3.k_lt h3.ik.symm h3.jk.symm (Ne.symm hde)
    have c1 := o3 c h1.k_lt h1.ik.symm h1.jk.symm hce
    have c2 := o3 d h2.k_lt h2.ik.symm h2.jk.symm hde
    linarith

/-- on the other side of a side of a facet there is another one -/
theorem Facet.pivot (hg : General h.points) {a b c : Nat} (hf : h.Facet a b c) : ∃ d, d ≠ c ∧ h.Facet a b d := by
  have key : ∀ {a b : Nat}, h.Facet a b c → (∀ l, l < h.points.length → l ≠ a → l ≠ b → l ≠ c → h.vol a b c l < 0) → ∃ d, d ≠ c ∧ h.Facet a b d := by
    intro a b hf hneg
    let F := (Finset.range h.points.length).filter fun l => l ≠ a ∧ l ≠ b ∧ l ≠ c
    have hF : F.Nonempty := by
      obtain ⟨l, hl, l1, l2, l3⟩ := exists_fourth hg a b c
      exact ⟨l, by simp only [F, Finset.mem_filter, Finset.mem_range]; exact ⟨hl, l1, l2, l3⟩⟩
    set N := triNormal (h.pt a) (h.pt b) (h.pt c) with hN
    have hN0 : N ≠ V3.zeros := normal_ne_of_general hg hf.i_lt hf.j_lt hf.k_lt hf.ij hf.ik hf.jk
    let y : Nat → ℝ := fun l => rdot (cross N ((h.pt b).sub (h.pt a))) ((h.pt l).sub (h.pt a))
    obtain ⟨d, hd, hmax⟩ := F.exists_max_image (fun l => y l / h.vol a b c l) hF
    simp only [F, Finset.mem_filter, Finset.mem_range] at hd
    obtain ⟨hd, d1, d2, d3⟩ := hd
    have xd := hneg d hd d1 d2 d3
    refine ⟨d, d3, hf.i_lt, hf.j_lt, hd, hf.ij, d1.symm, d2.symm, Or.inl fun l hl l1 l2 l3 => ?_⟩
    by_cases hlc : l = c
    · rw [hlc, h.vol_last]
      linarith
    have xl := hneg l hl l1 l2 hlc
    have hm := hmax l (by simp only [F, Finset.mem_filter, Finset.mem_range]; exact ⟨hl, l1, l2, hlc⟩)
    have hid : h.vol a b c d * y l - y d * h.vol a b c l = -(rdot N N * h.vol a b d l) := by
      have h1 := turned_plane N ((h.pt b).sub (h.pt a)) ((h.pt d).sub (h.pt a)) ((h.pt l).sub (h.pt a)) (rdot_cross_left _ _)
      exact h1
    have hle : 0 ≤ rdot N N * h.vol a b d l := by
      have h2 := mul_le_mul_of_nonneg_right hm (mul_pos_of_neg_of_neg xl xd).le
      have e1 : y l / h.vol a b c l * (h.vol a b c l * h.vol a b c d) = y l * h.vol a b c d := by
        rw [← mul_assoc, div_mul_cancel₀ _ xl.ne]
      have e2 : y d / h.vol a b c d * (h.vol a b c l * h.vol a b c d) = y d * h.vol a b c l := by
        rw [mul_comm (h.vol a b c l), ← mul_assoc, div_mul_cancel₀ _ xd.ne]
      rw [e1, e2] at h2
      linarith
    have h0 : 0 ≤ h.vol a b d l := nonneg_of_mul_nonneg_right hle (rdot_self_pos hN0)
    exact lt_of_le_of_ne h0 (vol_ne hg hf.i_lt hf.j_lt hd hl ⟨hf.ij, d1.symm, l1.symm, d2.symm, l2.symm, Ne.symm l3⟩).symm
  rcases hf.oneSide with ho | ho
  · obtain ⟨d, hd, hfd⟩ := key (a := b) (b := a) hf.swap.rot.rot (by
      intro l hl l1 l2 l3
      have h1 := ho l hl l2 l1 l3
      have h2 : h.vol b a c l = -h.vol a b c l := by
        simp only [vol, Geec.vol, triNormal, rdot, cross_x, cross_y, cross_z, sub_x, sub_y, sub_z]
        ring
      linarith)
    exact ⟨d, hd, hfd.swap.rot.rot⟩
  · exact key hf ho

end Hull

/-! ### The list of all facets -/

/-- the triples of indices in increasing order that are facets -/
def facetList (pts : List (V3 ℝ)) : List (Nat × Nat × Nat) := by
  classical
  exact ((List.range pts.length ×ˢ (List.range pts.length ×ˢ List.range pts.length)).filter fun s =>
    decide (s.1 < s.2.1 ∧ s.2.1 < s.2.2 ∧ Hull.Facet ⟨pts, [], [], []⟩ s.1 s.2.1 s.2.2))

theorem mem_facetList {pts : List (V3 ℝ)} {s : Nat × Nat × Nat} : s ∈ facetList pts ↔ s.1 < s.2.1 ∧ s.2.1 < s.2.2 ∧ Hull.Facet ⟨pts, [], [], []⟩ s.1 s.2.1 s.2.2 := by
  unfold facetList
  simp only [List.mem_filter, decide_eq_true_eq]
  constructor
  · exact fun h => h.2
  · intro h
    refine ⟨?_, h⟩
    obtain ⟨i, j, k⟩ := s
    simp only [List.mem_product, List.mem_range]
    exact ⟨h.2.2.i_lt, h.2.2.j_lt, h.2.2.k_lt⟩

theorem facetList_nodup (pts : List (V3 ℝ)) : (facetList pts).Nodup := by
  unfold facetList
  exact (List.nodup_range.product (List.nodup_range.product List.nodup_range)).filter _

/-- the simplices that share two corners with the simplex `k` -/
def sharing (sims : List (Nat × Nat × Nat)) (k : Nat) : List Nat := by
  classical
  exact (List.range sims.length).filter fun n => decide (n ≠ k ∧ ∃ s t, sims[k]? = some s ∧ sims[n]? = some t ∧
    ∃ a b, a ≠ b ∧ Corner s a ∧ Corner s b ∧ Corner t a ∧ Corner t b)

/-- a triangulated hull -/
def netOf (pts : List (V3 ℝ)) : Hull ℝ :=
  ⟨pts, List.range pts.length, facetList pts, (List.range (facetList pts).length).map (sharing (facetList pts))⟩

theorem sorted_corners {s t : Nat × Nat × Nat} (h1 : s.1 < s.2.1) (h2 : s.2.1 < s.2.2) (h3 : t.1 < t.2.1) (h4 : t.2.1 < t.2.2)
    (hc : ∀ x, Corner s x ↔ Corner t x) : s = t := by
  obtain ⟨a, b, c⟩ := s
  obtain ⟨a', b', c'⟩ := t
  have ha := (hc a).mp (.inl rfl)
  have hb := (hc b).mp (.inr (.inl rfl))
  have hd := (hc c).mp (.inr (.inr rfl))
  have ha' := (hc a').mpr (.inl rfl)
  have hb' := (hc b').mpr (.inr (.inl rfl))
  have hd' := (hc c').mpr (.inr (.inr rfl))
  simp only [Corner] at *
  simp only [Prod.mk.injEq]
  omega

theorem exists_sorted {i j k : Nat} (hij : i ≠ j) (hik : i ≠ k) (hjk : j ≠ k) : ∃ s : Nat × Nat × Nat, s.1 < s.2.1 ∧ s.2.1 < s.2.2 ∧ ∀ x, Corner s x ↔ Corner (i, j, k) x := by
  rcases lt_or_gt_of_ne hij with h1 | h1 <;> rcases lt_or_gt_of_ne hik with h2 | h2 <;> rcases lt_or_gt_of_ne hjk with h3 | h3
  · exact ⟨(i, j, k), h1, h3, fun x => Iff.rfl⟩
  · exact ⟨(i, k, j), h2, h3, fun x => by simp only [Corner]; omega⟩
  · omega
  · exact ⟨(k, i, j), h2, h1, fun x => by simp only [Corner]; omega⟩
  · exact ⟨(j, i, k), h1, h2, fun x => by simp only [Corner]; omega⟩
  · omega
  · exact ⟨(j, k, i), h3, h2, fun x => by simp only [Corner]; omega⟩
  · exact ⟨(k, j, i), h3, h1, fun x => by simp only [Corner]; omega⟩

/-- the third corner -/
theorem third_corner {t : Nat × Nat × Nat} (h1 : t.1 ≠ t.2.1) (h2 : t.1 ≠ t.2.2) (h3 : t.2.1 ≠ t.2.2) {a b : Nat} (hab : a ≠ b) (ha : Corner t a)
    (hb : Corner t b) : ∃ e, a ≠ e ∧ b ≠ e ∧ ∀ x, Corner t x ↔ Corner (a, b, e) x := by
  obtain ⟨i, j, k⟩ := t
  simp only [Corner] at *
  rcases ha with rfl | rfl | rfl <;> rcases hb with rfl | rfl | rfl
  · omega
  · exact ⟨k, h2, h3, fun x => by omega⟩
  · exact ⟨j, h1, h3.symm, fun x => by omega⟩
  · exact ⟨k, h3, h2, fun x => by omega⟩
  · omega
  · exact ⟨i, h1.symm, h2.symm, fun x => by omega⟩
  · exact ⟨j, h3.symm, h1, fun x => by omega⟩
  · exact ⟨i, h2.symm, h1.symm, fun x => by omega⟩
  · omega

theorem netOf_facet {pts : List (V3 ℝ)} {i j k : Nat} : (netOf pts).Facet i j k ↔ Hull.Facet ⟨pts, [], [], []⟩ i j k :=
  ⟨fun h => ⟨h.i_lt, h.j_lt, h.k_lt, h.ij, h.ik, h.jk, h.oneSide⟩, fun h => ⟨h.i_lt, h.j_lt, h.k_lt, h.ij, h.ik, h.jk, h.oneSide⟩⟩

theorem netOf_net {pts : List (V3 ℝ)} (hg : General pts) : (netOf pts).Net := by
  have hfac : ∀ s ∈ (netOf pts).simplices, (netOf pts).Facet s.1 s.2.1 s.2.2 := fun s hs => netOf_facet.mpr (mem_facetList.mp hs).2.2
  have hall : ∀ i j k, (netOf pts).Facet i j k → ∃ s ∈ (netOf pts).simplices, ∀ x, Corner s x ↔ Corner (i, j, k) x := by
    intro i j k hf
    obtain ⟨s, h1, h2, hc⟩ := exists_sorted hf.ij hf.ik hf.jk
    exact ⟨s, mem_facetList.mpr ⟨h1, h2, netOf_facet.mp (hf.congr hc (by omega) (by omega) (by omega))⟩, hc⟩
  have honce : ∀ (k k' : Nat) s s', (netOf pts).simplices[k]? = some s → (netOf pts).simplices[k']? = some s' → (∀ x, Corner s x ↔ Corner s' x) → k = k' := by
    intro k k' s s' hs hs' hc
    have h1 := mem_facetList.mp (List.mem_of_getElem? hs)
    have h2 := mem_facetList.mp (List.mem_of_getElem? hs')
    obtain rfl := sorted_corners h1.1 h1.2.1 h2.1 h2.2.1 hc
    obtain ⟨l1, e1⟩ := List.getElem?_eq_some_iff.mp hs
    obtain ⟨l2, e2⟩ := List.getElem?_eq_some_iff.mp hs'
    exact (List.Nodup.getElem_inj_iff (facetList_nodup pts)).mp (e1.trans e2.symm)
  refine ⟨fun i hi => List.mem_range.mp hi, fun s hs i hi => List.mem_range.mpr ?_, hfac, hall, honce, by simp [netOf], ?_, ?_⟩
  · have hf := hfac s hs
    rcases hi with rfl | rfl | rfl
    · exact hf.i_lt
    · exact hf.j_lt
    · exact hf.k_lt
  · intro k s nb hs hnb n
    simp only [netOf, List.getElem?_map, Option.map_eq_some_iff] at hnb
    obtain ⟨k', hk', rfl⟩ := hnb
    obtain ⟨l1, e1⟩ := List.getElem?_eq_some_iff.mp hk'
    rw [List.getElem_range] at e1
    subst e1
    simp only [sharing, List.mem_filter, List.mem_range, decide_eq_true_eq]
    constructor
    · rintro ⟨-, hn, s', t, hs', ht, hab⟩
      obtain rfl : s' = s := Option.some.inj (hs'.symm.trans hs)
      exact ⟨hn, t, ht, hab⟩
    · rintro ⟨hn, t, ht, hab⟩
      exact ⟨(List.getElem?_eq_some_iff.mp ht).1, hn, s, t, hs, ht, hab⟩
  · intro k s hs a b hab ha hb
    have hf := hfac s (List.mem_of_getElem? hs)
    obtain ⟨c, hac, hbc, hc⟩ := third_corner hf.ij hf.ik hf.jk hab ha hb
    have hfc : (netOf pts).Facet a b c := hf.congr (fun x => (hc x).symm) hab hac hbc
    obtain ⟨d, hdc, hfd⟩ := hfc.pivot hg
    obtain ⟨t, ht, htc⟩ := hall a b d hfd
    obtain ⟨n, hn⟩ := List.getElem?_of_mem ht
    refine ⟨n, ⟨?_, t, hn, (htc a).mpr (.inl rfl), (htc b).mpr (.inr (.inl rfl))⟩, ?_⟩
    · rintro rfl
      obtain rfl : s = t := Option.some.inj (hs.symm.trans hn)
      have := (hc d).mp ((htc d).mpr (.inr (.inr rfl)))
      have e1 := hfd.ik
      have e2 := hfd.jk
      simp only [Corner] at this
      omega
    · rintro n' ⟨hn', t', ht', ha', hb'⟩
      have hf' := hfac t' (List.mem_of_getElem? ht')
      obtain ⟨e, hae, hbe, he⟩ := third_corner hf'.ij hf'.ik hf'.jk hab ha' hb'
      have hfe : (netOf pts).Facet a b e := hf'.congr (fun x => (he x).symm) hab hae hbe
      have hce : c ≠ e := by
        rintro rfl
        exact hn' (honce n' k t' s ht' hs fun x => (he x).trans (hc x).symm)
      have hde := Hull.facets_side hfc hfd hfe (Ne.symm hdc) hce
      subst hde
      exact honce n' n t' t ht' hn fun x => (he x).trans (htc x).symm

/-- four or more points, no four of them in a plane, have a triangulated hull -/
theorem hull_of_general {pts : List (V3 ℝ)} (hg : General pts) : ∃ h : Hull ℝ, h.points = pts ∧ h.IsHull ∧ h.Tidy := by
  refine ⟨netOf pts, rfl, (netOf_net hg).isHull hg, List.nodup_range, fun nb hnb => ?_⟩
  simp only [netOf, List.mem_map] at hnb
  obtain ⟨k, -, rfl⟩ := hnb
  unfold sharing
  exact List.nodup_range.filter _

/-- **C104** And it determines the triangles: a triangle of three of the points is a simplex of a triangulated hull, in some order of its corners, if and only if all other points
are strictly on one side of its plane. -/
theorem C104_unique {h : Hull ℝ} (hh : h.IsHull) (hg : General h.points) {i j k : Nat} (hi : i < h.points.length) (hj : j < h.points.length)
    (hk : k < h.points.length) (hij : i ≠ j) (hik : i ≠ k) (hjk : j ≠ k) :
    (∃ s ∈ h.simplices, ∀ x, Corner s x ↔ Corner (i, j, k) x) ↔
    ∃ n : V3 ℝ, rdot n (h.pt j) = rdot n (h.pt i) ∧ rdot n (h.pt k) = rdot n (h.pt i) ∧
      ∀ l, l < h.points.length → l ≠ i → l ≠ j → l ≠ k → rdot n (h.pt l) < rdot n (h.pt i) := by
  constructor
  · rintro ⟨s, hs, hc⟩
    have hf := (hh.facet hg hs).congr (fun x => (hc x).symm) hij hik hjk
    obtain ⟨n, -, h1, h2, h3⟩ := hf.plane hg
    exact ⟨n, h1, h2, h3⟩
  · rintro ⟨n, h1, h2, h3⟩
    have n0 : n ≠ V3.zeros := by
      rintro rfl
      obtain ⟨l, hl, l1, l2, l3⟩ := Hull.exists_fourth hg i j k
      have := h3 l hl l1 l2 l3
      simp [rdot] at this
    obtain ⟨hf, -⟩ := Hull.facet_of_plane hg n0 (c := rdot n (h.pt i)) (i := i) (j := j) (k := k) (by
      intro l hl
      by_cases l1 : l = i
      · rw [l1]
      by_cases l2 : l = j
      · rw [l2, h1]
      by_cases l3 : l = k
      · rw [l3, h2]
      exact (h3 l hl l1 l2 l3).le) (Hull.mem_contact.mpr ⟨hi, rfl⟩) (Hull.mem_contact.mpr ⟨hj, h1⟩) (Hull.mem_contact.mpr ⟨hk, h2⟩) hij hik hjk
    exact (hh.net hg).all i j k hf

/-- firm points have a triangulated hull: that of points in general position that are near enough -/
theorem hull_of_firm {pts : List (V3 ℝ)} (hf : Firm pts) : ∃ h : Hull ℝ, h.points = pts ∧ h.IsHull ∧ h.Tidy := by
  obtain ⟨ε, e0, he⟩ := C103_firm hf
  obtain ⟨pts', hn, hg⟩ := exists_general (four_of_solid hf.solid) e0
  obtain ⟨h, rfl, hh, ht⟩ := hull_of_general hg
  exact ⟨{ h with points := pts }, rfl, he h hn hh, ht⟩

/-- **C104** What is assumed of the hull library can be met: points that span a solid have a triangulated hull; and only these. -/
theorem C104_exists (pts : List (V3 ℝ)) : (∃ h : Hull ℝ, h.points = pts ∧ h.IsHull ∧ h.Tidy) ↔
    (interior (convexHull ℝ {q : P3 | ∃ p ∈ pts, q = p.toP})).Nonempty := by
  constructor
  · rintro ⟨h, rfl, hh, -⟩
    exact hh.solid
  intro hs
  obtain ⟨E, hnd, hE, hb, hf⟩ := exists_firm (pts := pts) hs
  obtain ⟨h, rfl, hh, ht⟩ := hull_of_firm hf
  have key : ∀ i, ∃ j, i < h.points.length → j < pts.length ∧ at3 pts j = h.pt i := by
    intro i
    by_cases hi : i < h.points.length
    · obtain ⟨j, hj, e⟩ := Hull.exists_index (h := only pts) (hE _ (Hull.pt_mem hi))
      exact ⟨j, fun _ => ⟨hj, e⟩⟩
    · exact ⟨0, fun h => absurd h hi⟩
  choose f hf' using key
  have hinj : ∀ i j, i < h.points.length → j < h.points.length → f i = f j → i = j := by
    intro i j hi hj e
    have h1 := (hf' i hi).2
    have h2 := (hf' j hj).2
    rw [e, h2, pt_of_getElem hi, pt_of_getElem hj] at h1
    exact ((hnd.getElem_inj_iff).mp h1).symm
  refine ⟨reindex h pts f, rfl, reindex_isHull hh hb.symm hf' hinj, ?_, ht.2⟩
  refine List.Nodup.map_on (fun i hi j hj e => hinj i j (hh.vertexIndex i hi) (hh.vertexIndex j hj) e) ht.1

/-- **C104** There is a hull library that is honest, and returns for all points that span a solid; the polyhedron of such points can be built. -/
theorem C104_library : ∃ lib : HullLib ℝ, lib.Honest ∧ ∀ pts : List (V3 ℝ), (interior (convexHull ℝ {q : P3 | ∃ p ∈ pts, q = p.toP})).Nonempty →
    (∃ h, lib.convexHull pts = .ok h ∧ h.Tidy) ∧ ∃ p, polyhedronOf lib pts = .ok p := by
  suffices H : ∃ lib : HullLib ℝ, lib.Honest ∧ ∀ pts : List (V3 ℝ), (interior (convexHull ℝ {q : P3 | ∃ p ∈ pts, q = p.toP})).Nonempty →
      ∃ h, lib.convexHull pts = .ok h ∧ h.Tidy by
    obtain ⟨lib, h1, h2⟩ := H
    refine ⟨lib, h1, fun pts hg => ⟨h2 pts hg, ?_⟩⟩
    obtain ⟨h, hh, -⟩ := h2 pts hg
    unfold polyhedronOf
    rw [hh]
    exact hull_mkPoly_ok (h1 pts h hh).2 _
  classical
  refine ⟨⟨fun pts => if h : ∃ h : Hull ℝ, h.points = pts ∧ h.IsHull ∧ h.Tidy then .ok h.choose else .error .runtimeError, fun _ _ => true⟩, fun pts h hh => ?_,
    fun pts hs => ?_⟩
  · dsimp only at hh
    split at hh
    · rename_i hx
      cases hh
      exact ⟨hx.choose_spec.1, hx.choose_spec.2.1⟩
    · cases hh
  · have hx := (C104_exists pts).mpr hs
    exact ⟨hx.choose, dif_pos hx, hx.choose_spec.2.2⟩

/-! ### Concrete cases -/

/-- it is enough to look at increasing indices -/
theorem general_of_sorted {pts : List (V3 ℝ)} (h4 : 4 ≤ pts.length)
    (h : ∀ i j k l, i < j → j < k → k < l → l < pts.length → vol (at3 pts i) (at3 pts j) (at3 pts k) (at3 pts l) ≠ 0) : General pts := by
  refine ⟨h4, fun i j k l hi hj hk hl ⟨d1, d2, d3, d4, d5, d6⟩ hc => ?_⟩
  let S : Finset Nat := {i, j, k, l}
  have hS : S.card = 4 := by simp [S, d1, d2, d3, d4, d5, d6]
  let e := S.orderEmbOfFin hS
  have he : ∀ m, e m ∈ S := fun m => S.orderEmbOfFin_mem hS m
  have hlt : ∀ m, e m < pts.length := by
    intro m
    have := he m
    simp only [S, Finset.mem_insert, Finset.mem_singleton] at this
    omega
  obtain ⟨n, n0, h1, h2, h3⟩ := hc
  have hn : ∀ m, rdot n (at3 pts (e m)) = rdot n (at3 pts i) := by
    intro m
    have := he m
    simp only [S, Finset.mem_insert, Finset.mem_singleton] at this
    rcases this with e' | e' | e' | e' <;> rw [e']
    · exact h1
    · exact h2
    · exact h3
  refine h (e 0) (e 1) (e 2) (e 3) (e.strictMono (by decide)) (e.strictMono (by decide)) (e.strictMono (by decide)) (hlt 3) (coplanar_iff.mp ⟨n, n0, ?_, ?_, ?_⟩) <;>
    rw [hn, hn]

theorem tetra_general : General tetra.points := by
  refine general_of_sorted (by simp [tetra]) fun i j k l h1 h2 h3 h4 => ?_
  have h5 : l < 4 := h4
  obtain ⟨rfl, rfl, rfl, rfl⟩ : i = 0 ∧ j = 1 ∧ k = 2 ∧ l = 3 := by omega
  simp [vol, triNormal, tetra, at3, rdot]

/-- the corners of a tetrahedron and a fifth point outside -/
def fivePoints : List (V3 ℝ) := [⟨0, 0, 0⟩, ⟨1, 0, 0⟩, ⟨0, 1, 0⟩, ⟨0, 0, 1⟩, ⟨1, 1, 1⟩]

theorem fivePoints_general : General fivePoints := by
  refine general_of_sorted (by simp [fivePoints]) fun i j k l h1 h2 h3 h4 => ?_
  have h5 : l < 5 := h4
  have : (i = 0 ∧ j = 1 ∧ k = 2 ∧ l = 3) ∨ (i = 0 ∧ j = 1 ∧ k = 2 ∧ l = 4) ∨ (i = 0 ∧ j = 1 ∧ k = 3 ∧ l = 4) ∨ (i = 0 ∧ j = 2 ∧ k = 3 ∧ l = 4) ∨
    (i = 1 ∧ j = 2 ∧ k = 3 ∧ l = 4) := by omega
  rcases this with ⟨rfl, rfl, rfl, rfl⟩ | ⟨rfl, rfl, rfl, rfl⟩ | ⟨rfl, rfl, rfl, rfl⟩ | ⟨rfl, rfl, rfl, rfl⟩ | ⟨rfl, rfl, rfl, rfl⟩ <;>
    simp [vol, triNormal, fivePoints, at3, rdot]

/-- C104: a hull of five points; (0,0,0), (1,0,0), (0,1,0) is one of its triangles, and (1,0,0), (0,1,0), (0,0,1), with points on both sides, is not -/
example : ∃ h : Hull ℝ, h.points = fivePoints ∧ h.IsHull ∧ (∃ s ∈ h.simplices, ∀ x, Corner s x ↔ Corner (0, 1, 2) x) ∧
    ¬ ∃ s ∈ h.simplices, ∀ x, Corner s x ↔ Corner (1, 2, 3) x := by
  obtain ⟨h, e, hh, -⟩ := hull_of_general fivePoints_general
  have hl : h.points.length = 5 := by rw [e]; rfl
  have hpt : ∀ i, h.pt i = at3 fivePoints i := fun i => by unfold Hull.pt; rw [e]
  refine ⟨h, e, hh, ?_, ?_⟩
  · rw [C104_unique hh (by rw [e]; exact fivePoints_general) (by omega) (by omega) (by omega) (by omega) (by omega) (by omega)]
    refine ⟨⟨0, 0, -1⟩, ?_, ?_, fun l hl' l1 l2 l3 => ?_⟩
    · simp [hpt, fivePoints, at3, rdot]
    · simp [hpt, fivePoints, at3, rdot]
    · have : l = 3 ∨ l = 4 := by omega
      rcases this with rfl | rfl <;> simp [hpt, fivePoints, at3, rdot]
  · rw [C104_unique hh (by rw [e]; exact fivePoints_general) (by omega) (by omega) (by omega) (by omega) (by omega) (by omega)]
    rintro ⟨n, h1, h2, h3⟩
    have h4 := h3 0 (by omega) (by omega) (by omega) (by omega)
    have h5 := h3 4 (by omega) (by omega) (by omega) (by omega)
    simp [hpt, fivePoints, at3, rdot] at h1 h2 h4 h5
    linarith

/-- C103: the points of a tetrahedron may be moved -/
example : ∃ ε, 0 < ε ∧ ∀ pts', List.Forall₂ (NearV ε) pts' tetra.points → Hull.IsHull { tetra with points := pts' } := by
  obtain ⟨ε, e0, he⟩ := C103_stable tetra_general
  exact ⟨ε, e0, fun pts' hn => ((he pts' hn).2 tetra).mpr tetra_isHull⟩

/-- C103: a tetrahedron of density 2670 seen from (2,3,5), in floating point, with any hull library -/
example : ∃ K, 0 < K ∧ ∀ (rnd : ℝ → ℝ) (δ : ℝ), 0 < δ → δ ≤ 1 / K → (∀ a, |a| ≤ K → |rnd a - a| ≤ δ * max 1 |a|) → ∀ (h' : Hull ℝ) (inHull' : V3 ℝ → Bool),
    h'.points = tetra.points.map (V3.rounded rnd) → h'.IsHull → h'.Tidy → ∃ p' G' T', @mkPoly ℝ (roundArith rnd) h' inHull' = .ok p' ∧
    @Call.onNew ℝ (roundArith rnd) p' ⟨V3.rounded rnd ⟨2, 3, 5⟩, rnd 2670, rnd 1, false⟩ = .ok (G', T') ∧
    |G'.z - 100000 * 1 * 2670 * (attraction tetra.body ⟨2, 3, 5⟩).z| ≤ K * δ := by
  obtain ⟨K, hK, k⟩ := C103_newton_general tetra_isHull tetra_general tetra_decided tetra_tensorRegular_out.regular 2670 1
  refine ⟨K, hK, fun rnd δ h1 h2 h3 h' inHull' e hh ht => ?_⟩
  obtain ⟨p', G', T', k1, k2, -, -, k3⟩ := k rnd δ h1 h2 h3 h' inHull' e hh ht
  exact ⟨p', G', T', k1, k2, k3⟩

/-- and there are such hulls of the rounded points -/
example : ∃ K, 0 < K ∧ ∀ (rnd : ℝ → ℝ) (δ : ℝ), 0 < δ → δ ≤ 1 / K → (∀ a, |a| ≤ K → |rnd a - a| ≤ δ * max 1 |a|) →
    ∃ h' : Hull ℝ, h'.points = tetra.points.map (V3.rounded rnd) ∧ h'.IsHull ∧ h'.Tidy := by
  obtain ⟨ε, e0, he⟩ := C103_stable tetra_general
  obtain ⟨M, h1, h2⟩ := exists_bound tetra.points
  have hM : 0 < M := by linarith
  refine ⟨max M (M / ε), lt_max_of_lt_left hM, fun rnd δ hδ hδK hr => hull_of_general (he _ ?_).1⟩
  have hK : 0 < max M (M / ε) := lt_max_of_lt_left hM
  refine (near_rounded hδ.le h1 (le_max_left M (M / ε)) hr h2).imp fun a b hab => hab.mono ?_
  rw [le_div_iff₀ hK] at hδK
  have h3 : δ * (M / ε) ≤ 1 := (mul_le_mul_of_nonneg_left (le_max_right _ _) hδ.le).trans hδK
  rw [← mul_div_assoc, div_le_one e0] at h3
  exact h3

end

theorem halves_general (ρ ρ' : ℝ) : ∀ m ∈ halvesMasses .CART ρ ρ', General m.dataset.coords.rows := by
  intro m hm
  simp only [halvesMasses, List.mem_cons, List.not_mem_nil, or_false] at hm
  rcases hm with rfl | rfl
  · refine general_of_sorted (by simp) fun i j k l h1 h2 h3 h4 => ?_
    have h5 : l < 4 := h4
    obtain ⟨rfl, rfl, rfl, rfl⟩ : i = 0 ∧ j = 1 ∧ k = 2 ∧ l = 3 := by omega
    simp [vol, triNormal, at3, rdot]
  · refine general_of_sorted (by simp) fun i j k l h1 h2 h3 h4 => ?_
    have h5 : l < 4 := h4
    obtain ⟨rfl, rfl, rfl, rfl⟩ : i = 0 ∧ j = 1 ∧ k = 2 ∧ l = 3 := by omega
    simp [vol, triNormal, at3, rdot]

/-- C103: the run of two bodies that tile a tetrahedron, with any hull library that returns triangulated hulls of the rounded points -/
example : ∃ K, 0 < K ∧ ∀ (rnd : ℝ → ℝ) (δ : ℝ), 0 < δ → δ ≤ 1 / K → (∀ a, |a| ≤ K → |rnd a - a| ≤ δ * max 1 |a|) → ∀ lib : HullLib ℝ,
    (∀ m ∈ halvesMasses .CART 2 2, ∃ H, lib.convexHull (m.dataset.coords.rows.map (V3.rounded rnd)) = .ok H ∧
      H.points = m.dataset.coords.rows.map (V3.rounded rnd) ∧ H.IsHull ∧ H.Tidy) →
    ∃ t row G, @runTable ℝ (roundArith rnd) toyGeo (noFiles.mapNum rnd) lib ((halves "cart" "cart" "ellps" 2 2).mapNum rnd) false = .ok t ∧
    t.rows[0]? = some row ∧ row[5]? = some G ∧
    |G - 100000 * 1 * 2 * sumOver (halvesMasses .CART 2 2) (fun B => (attraction B ⟨2, 3, 5⟩).z)| ≤ K * δ := by
  obtain ⟨K, hK, k⟩ := C103_run_general toyGeo noFiles _ _ (halves_plain 2 2) (halves_show _ _ _ _ _) _
    (halves_masses findMember_cart (.inl rfl) _ _ _ _) (by simp [halvesMasses]) _ (halves_observer (getCrs_plain findMember_cart (.inl rfl) "ellps") _ _ _)
    (List.cons_ne_nil _ _) 2 1 (by
      intro m hm
      simp only [halvesMasses, List.mem_cons, List.not_mem_nil, or_false] at hm
      rcases hm with rfl | rfl <;> exact ⟨rfl, rfl⟩) (halves_general 2 2) (by
      intro m hm
      have h : ∀ p ∈ [(⟨2, 3, 5⟩ : V3 ℝ)], p = ⟨2, 3, 5⟩ := fun p hp => List.mem_singleton.mp hp
      simp only [halvesMasses, List.mem_cons, List.not_mem_nil, or_false] at hm
      rcases hm with rfl | rfl
      · exact ⟨halfA, halfA_points, halfA_isHull, fun p hp => h p hp ▸ ⟨halfA_decided, halfA_regular⟩⟩
      · exact ⟨halfB, halfB_points, halfB_isHull, fun p hp => h p hp ▸ ⟨halfB_decided, halfB_regular⟩⟩)
  refine ⟨K, hK, fun rnd δ h1 h2 h3 lib hl => ?_⟩
  obtain ⟨t, k1, -, k2⟩ := k rnd δ h1 h2 h3 lib hl
  obtain ⟨G, e1, -, -, e2⟩ := k2 0 ⟨2, 3, 5⟩ rfl
  obtain ⟨row, e3, e4⟩ := Option.map_eq_some_iff.mp e1
  refine ⟨t, row, G.z, k1, e3, ?_, e2⟩
  have := congrArg (·[5]?) e4
  simpa using this

/-! ### A cube: its faces have four points -/

/-- the corners of the unit cube -/
def cubePoints : List (V3 ℝ) := [⟨0, 0, 0⟩, ⟨1, 0, 0⟩, ⟨0, 1, 0⟩, ⟨1, 1, 0⟩, ⟨0, 0, 1⟩, ⟨1, 0, 1⟩, ⟨0, 1, 1⟩, ⟨1, 1, 1⟩]

/-- whole numbers, 0 or 1 -/
theorem cube_int {i : Nat} (hi : i < 8) : ∃ x y z : ℤ, at3 cubePoints i = ⟨x, y, z⟩ ∧ 0 ≤ x ∧ x ≤ 1 ∧ 0 ≤ y ∧ y ≤ 1 ∧ 0 ≤ z ∧ z ≤ 1 := by
  interval_cases i
  · exact ⟨0, 0, 0, by simp [cubePoints, at3], by norm_num⟩
  · exact ⟨1, 0, 0, by simp [cubePoints, at3], by norm_num⟩
  · exact ⟨0, 1, 0, by simp [cubePoints, at3], by norm_num⟩
  · exact ⟨1, 1, 0, by simp [cubePoints, at3], by norm_num⟩
  · exact ⟨0, 0, 1, by simp [cubePoints, at3], by norm_num⟩
  · exact ⟨1, 0, 1, by simp [cubePoints, at3], by norm_num⟩
  · exact ⟨0, 1, 1, by simp [cubePoints, at3], by norm_num⟩
  · exact ⟨1, 1, 1, by simp [cubePoints, at3], by norm_num⟩

theorem cube_firm : Firm cubePoints := by
  constructor
  · have hm : ∀ i, i < 8 → (at3 cubePoints i).toP ∈ (only cubePoints).body := fun i hi => Hull.mem_body (Hull.pt_mem (h := only cubePoints) hi)
    change (interior (only cubePoints).body).Nonempty
    exact inside_tetra (a := at3 cubePoints 0) (b := at3 cubePoints 1) (c := at3 cubePoints 2) (d := at3 cubePoints 4) (by simp [vol, triNormal, cubePoints, at3, rdot])
      (Hull.body_convex _) (hm 0 (by norm_num)) (hm 1 (by norm_num)) (hm 2 (by norm_num)) (hm 4 (by norm_num))
  · intro i hi
    have hi8 : i < 8 := hi
    right
    refine ⟨⟨2 * (at3 cubePoints i).x - 1, 2 * (at3 cubePoints i).y - 1, 2 * (at3 cubePoints i).z - 1⟩, fun l hl hli => ?_⟩
    have hl8 : l < 8 := hl
    interval_cases i <;> interval_cases l <;> first | exact absurd rfl hli | (simp only [cubePoints, at3, rdot, List.getD_cons_zero, List.getD_cons_succ]; norm_num)

/-- for every triangulation of the cube, the point (2,3,5) is outside, regular and without ties -/
theorem cube_outside {h : Hull ℝ} (e : h.points = cubePoints) (hh : h.IsHull) :
    h.Decided ⟨2, 3, 5⟩ ∧ h.TensorRegular ⟨2, 3, 5⟩ ∧ (⟨2, 3, 5⟩ : V3 ℝ).toP ∉ h.body := by
  have hpt : ∀ i, h.pt i = at3 cubePoints i := fun i => by unfold Hull.pt; rw [e]
  have hlt : ∀ t ∈ h.simplices, ∀ i, Corner t i → i < 8 := fun t ht i hi => by have := hh.cornerIndex t ht i hi; rwa [e] at this
  have hclear : ∀ t ∈ h.simplices, ∀ i j, Corner t i → Corner t j → i ≠ j → ClearOf (h.pt i) (h.pt j) ⟨2, 3, 5⟩ := by
    intro t ht i j hi hj hij
    have hi8 := hlt t ht i hi
    have hj8 := hlt t ht j hj
    rw [hpt, hpt]
    interval_cases i <;> interval_cases j <;> first
      | exact absurd rfl hij
      | (apply clearOf_bounds <;> simp only [cubePoints, at3, rdot, cross_x, cross_y, cross_z, sub_x, sub_y, sub_z, List.getD_cons_zero, List.getD_cons_succ] <;> norm_num)
  have hreg : h.Regular ⟨2, 3, 5⟩ := by
    apply regular_bounds
    intro t ht
    obtain ⟨a1, a2, a3, ea, ha1, ha2, ha3, ha4, ha5, ha6⟩ := cube_int (hlt t ht _ (.inl rfl))
    obtain ⟨b1, b2, b3, eb, hb1, hb2, hb3, hb4, hb5, hb6⟩ := cube_int (hlt t ht _ (.inr (.inl rfl)))
    obtain ⟨c1, c2, c3, ec, hc1, hc2, hc3, hc4, hc5, hc6⟩ := cube_int (hlt t ht _ (.inr (.inr rfl)))
    have key : ∀ m : ℤ, rdot (cross ((h.pt t.2.1).sub (h.pt t.1)) ((h.pt t.2.2).sub (h.pt t.1))) ((h.pt t.1).sub ⟨2, 3, 5⟩) = (m : ℝ) →
        rdot (cross ((h.pt t.2.1).sub (h.pt t.1)) ((h.pt t.2.2).sub (h.pt t.1))) ((h.pt t.1).sub ⟨2, 3, 5⟩) = 0 ∨
        1 / 1000 ≤ |rdot (cross ((h.pt t.2.1).sub (h.pt t.1)) ((h.pt t.2.2).sub (h.pt t.1))) ((h.pt t.1).sub ⟨2, 3, 5⟩)| := by
      intro m hm
      rw [hm]
      by_cases m0 : m = 0
      · left; rw [m0]; norm_num
      · right
        have : (1 : ℤ) ≤ |m| := Int.one_le_abs m0
        have h1 : (1 : ℝ) ≤ |(m : ℝ)| := by exact_mod_cast this
        linarith
    refine (key (((b2 - a2) * (c3 - a3) - (b3 - a3) * (c2 - a2)) * (a1 - 2) + ((b3 - a3) * (c1 - a1) - (b1 - a1) * (c3 - a3)) * (a2 - 3) +
      ((b1 - a1) * (c2 - a2) - (b2 - a2) * (c1 - a1)) * (a3 - 5)) ?_).imp id fun hk => ⟨?_, hk, hclear t ht⟩
    · rw [hpt, hpt, hpt, ea, eb, ec]
      simp only [rdot, cross_x, cross_y, cross_z, sub_x, sub_y, sub_z]
      push_cast
      ring
    · have sq : ∀ u v w x : ℤ, -1 ≤ u → u ≤ 1 → -1 ≤ v → v ≤ 1 → -1 ≤ w → w ≤ 1 → -1 ≤ x → x ≤ 1 → (u * v - w * x) * (u * v - w * x) ≤ 4 := by
        intro u v w x h1 h2 h3 h4 h5 h6 h7 h8
        interval_cases u <;> interval_cases v <;> interval_cases w <;> interval_cases x <;> norm_num
      have q1 := sq (b2 - a2) (c3 - a3) (b3 - a3) (c2 - a2) (by omega) (by omega) (by omega) (by omega) (by omega) (by omega) (by omega) (by omega)
      have q2 := sq (b3 - a3) (c1 - a1) (b1 - a1) (c3 - a3) (by omega) (by omega) (by omega) (by omega) (by omega) (by omega) (by omega) (by omega)
      have q3 := sq (b1 - a1) (c2 - a2) (b2 - a2) (c1 - a1) (by omega) (by omega) (by omega) (by omega) (by omega) (by omega) (by omega) (by omega)
      rw [hpt, hpt, hpt, ea, eb, ec]
      simp only [rdot, cross_x, cross_y, cross_z, sub_x, sub_y, sub_z]
      have r1 : ((b2 - a2 : ℝ) * (c3 - a3) - (b3 - a3) * (c2 - a2)) * ((b2 - a2) * (c3 - a3) - (b3 - a3) * (c2 - a2)) ≤ 4 := by exact_mod_cast q1
      have r2 : ((b3 - a3 : ℝ) * (c1 - a1) - (b1 - a1) * (c3 - a3)) * ((b3 - a3) * (c1 - a1) - (b1 - a1) * (c3 - a3)) ≤ 4 := by exact_mod_cast q2
      have r3 : ((b1 - a1 : ℝ) * (c2 - a2) - (b2 - a2) * (c1 - a1)) * ((b1 - a1) * (c2 - a2) - (b2 - a2) * (c1 - a1)) ≤ 4 := by exact_mod_cast q3
      linarith
  have hout : (⟨2, 3, 5⟩ : V3 ℝ).toP ∉ h.body := by
    intro hf
    have h1 : form ⟨1, 0, 0⟩ (V3.toP ⟨2, 3, 5⟩) ≤ 1 := by
      refine Hull.body_le (h := h) (fun i hi => ?_) hf
      rw [e] at hi
      obtain ⟨x, y, z, ep, -, h2, -⟩ := cube_int hi
      rw [hpt, ep]
      simp only [rdot, one_mul, zero_mul, add_zero]
      exact_mod_cast h2
    simp [form, rdot, V3.toP, P3.toV] at h1
  have htr : h.TensorRegular ⟨2, 3, 5⟩ := ⟨hreg, hclear, fun hf => hout (h.body_compact.isClosed.frontier_subset hf)⟩
  refine ⟨Hull.TensorRegular.decided hh htr fun t ht i hi => ?_, htr, hout⟩
  have e3 : repsilon < 1 := by unfold repsilon; norm_num
  refine e3.trans_le ?_
  obtain ⟨x, y, z, ep, -, h2, -⟩ := cube_int (hlt t ht i hi)
  have h2' : (x : ℝ) ≤ 1 := by exact_mod_cast h2
  rw [hpt, ep]
  unfold vlen
  apply Real.le_sqrt_of_sq_le
  simp only [rdot, sub_x, sub_y, sub_z]
  nlinarith [mul_self_nonneg ((y : ℝ) - 3), mul_self_nonneg ((z : ℝ) - 5)]

/-- it is not on the line of an edge -/
theorem cube_offLines {h : Hull ℝ} (e : h.points = cubePoints) (hh : h.IsHull) : h.OffLines ⟨2, 3, 5⟩ := by
  intro t ht i j hi hj hij h0
  have hpt : ∀ i, h.pt i = at3 cubePoints i := fun i => by unfold Hull.pt; rw [e]
  have hi8 : i < 8 := by have := hh.cornerIndex t ht i hi; rwa [e] at this
  have hj8 : j < 8 := by have := hh.cornerIndex t ht j hj; rwa [e] at this
  have hx := congrArg V3.x h0
  have hy := congrArg V3.y h0
  have hz := congrArg V3.z h0
  rw [hpt, hpt] at hx hy hz
  interval_cases i <;> interval_cases j <;> first | exact hij rfl | skip
  all_goals simp only [cubePoints, at3, List.getD_cons_zero, List.getD_cons_succ, cross_x, cross_y, cross_z, sub_x, sub_y, sub_z, zeros_x, zeros_y, zeros_z] at hx hy hz
  all_goals first | (norm_num at hx; done) | norm_num at hy

/-- C103: a cube of density 2670 seen from (2,3,5), in floating point, with any hull library: whichever of the two triangulations of each face it finds -/
example : ∃ K, 0 < K ∧ ∀ (rnd : ℝ → ℝ) (δ : ℝ), 0 < δ → δ ≤ 1 / K → (∀ a, |a| ≤ K → |rnd a - a| ≤ δ * max 1 |a|) → ∀ (h' : Hull ℝ) (inHull' : V3 ℝ → Bool),
    h'.points = cubePoints.map (V3.rounded rnd) → h'.IsHull → h'.Tidy → ∃ p' G' T', @mkPoly ℝ (roundArith rnd) h' inHull' = .ok p' ∧
    @Call.onNew ℝ (roundArith rnd) p' ⟨V3.rounded rnd ⟨2, 3, 5⟩, rnd 2670, rnd 1, false⟩ = .ok (G', T') ∧
    |G'.z - 100000 * 1 * 2670 * (attraction (convexHull ℝ {q | ∃ p ∈ cubePoints, q = p.toP}) ⟨2, 3, 5⟩).z| ≤ K * δ := by
  obtain ⟨K, hK, k⟩ := C103_newton cube_firm (s := ⟨2, 3, 5⟩) (fun h e hh => ⟨(cube_outside e hh).1, (cube_outside e hh).2.1.regular⟩) 2670 1
  refine ⟨K, hK, fun rnd δ h1 h2 h3 h' inHull' e hh ht => ?_⟩
  obtain ⟨p', G', T', k1, k2, -, -, k3⟩ := k rnd δ h1 h2 h3 h' inHull' e hh ht
  exact ⟨p', G', T', k1, k2, k3⟩

/-- C104: the cube has a triangulated hull -/
example : ∃ h : Hull ℝ, h.points = cubePoints ∧ h.IsHull ∧ h.Tidy := (C104_exists cubePoints).mpr cube_firm.solid

end Geec
