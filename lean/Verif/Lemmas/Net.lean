import Verif.Lemmas.Facets
/-
For points in general position the contract of the hull library says: the simplices are the facets.
-/
namespace Geec
open Arith
noncomputable section

theorem vol_rot (a b c d : V3 ℝ) : vol b c a d = vol a b c d := by
  simp [vol, triNormal, rdot]; ring

theorem vol_swap (a b c d : V3 ℝ) : vol a c b d = -vol a b c d := by
  simp [vol, triNormal, rdot]; ring

theorem vol_swap_last (a b c d : V3 ℝ) : vol a b d c = -vol a b c d := by
  simp [vol, triNormal, rdot]; ring

namespace Hull
variable {h : Hull ℝ}

theorem Facet.rot {i j k : Nat} (hf : h.Facet i j k) : h.Facet j k i := by
  refine ⟨hf.j_lt, hf.k_lt, hf.i_lt, hf.jk, hf.ij.symm, hf.ik.symm, hf.oneSide.imp ?_ ?_⟩ <;>
  · intro hs l hl h1 h2 h3
    have := hs l hl h3 h1 h2
    unfold vol at this ⊢
    rw [vol_rot]
    exact this

theorem Facet.swap {i j k : Nat} (hf : h.Facet i j k) : h.Facet i k j := by
  refine ⟨hf.i_lt, hf.k_lt, hf.j_lt, hf.ik, hf.ij, hf.jk.symm, hf.oneSide.symm.imp ?_ ?_⟩ <;>
  · intro hs l hl h1 h2 h3
    have := hs l hl h1 h3 h2
    unfold vol at this ⊢
    rw [vol_swap]
    linarith

/-- a facet with the same corners -/
theorem Facet.congr {i j k a b c : Nat} (hf : h.Facet i j k) (hc : ∀ x, Corner (a, b, c) x ↔ Corner (i, j, k) x) (hab : a ≠ b) (hac : a ≠ c) (hbc : b ≠ c) :
    h.Facet a b c := by
  have ha := (hc a).mp (Or.inl rfl)
  have hb := (hc b).mp (Or.inr (Or.inl rfl))
  have hd := (hc c).mp (Or.inr (Or.inr rfl))
  simp only [Corner] at ha hb hd
  rcases ha with rfl | rfl | rfl <;> rcases hb with rfl | rfl | rfl <;> rcases hd with rfl | rfl | rfl <;>
    first
    | exact absurd rfl hab
    | exact absurd rfl hac
    | exact absurd rfl hbc
    | exact hf
    | exact hf.rot
    | exact hf.rot.rot
    | exact hf.swap
    | exact hf.swap.rot
    | exact hf.swap.rot.rot

theorem tri_eq (s : Nat × Nat × Nat) : h.tri s = convexHull ℝ {p | ∃ x, Corner s x ∧ p = (h.pt x).toP} := by
  unfold tri triangle
  congr 1
  ext p
  simp only [Set.mem_insert_iff, Set.mem_singleton_iff, Set.mem_ofPred_eq, Corner]
  constructor
  · rintro (e | e | e)
    · exact ⟨_, .inl rfl, e⟩
    · exact ⟨_, .inr (.inl rfl), e⟩
    · exact ⟨_, .inr (.inr rfl), e⟩
  · rintro ⟨x, rfl | rfl | rfl, e⟩
    · exact .inl e
    · exact .inr (.inl e)
    · exact .inr (.inr e)

theorem tri_congr {s t : Nat × Nat × Nat} (hc : ∀ x, Corner s x ↔ Corner t x) : h.tri s = h.tri t := by
  rw [tri_eq, tri_eq]
  simp only [hc]

/-- the convex set of all points of the body that do not need a corner of a facet -/
theorem Facet.corner (hg : General h.points) {i j k : Nat} (hf : h.Facet i j k) : ∃ D : Set P3, Convex ℝ D ∧
    (∀ l, l < h.points.length → l ≠ i → (h.pt l).toP ∈ D) ∧
    ∀ u v w : ℝ, 0 < u → u + v + w = 1 → u • (h.pt i).toP + v • (h.pt j).toP + w • (h.pt k).toP ∉ D := by
  obtain ⟨n, n0, hj, hk, hlt⟩ := hf.plane hg
  have hN := normal_ne_of_general hg hf.i_lt hf.j_lt hf.k_lt hf.ij hf.ik hf.jk
  set N := triNormal (h.pt i) (h.pt j) (h.pt k) with hNd
  set g := cross N ((h.pt k).sub (h.pt j)) with hgd
  have g1 : rdot g (h.pt k) = rdot g (h.pt j) := by
    have : rdot g ((h.pt k).sub (h.pt j)) = 0 := rdot_cross_right _ _
    rw [rdot_sub] at this
    linarith
  have g2 : rdot g (h.pt i) ≠ rdot g (h.pt j) := by
    intro e
    have h1 : rdot g ((h.pt i).sub (h.pt j)) = rdot N N := by
      rw [hgd, hNd]
      simp only [triNormal, rdot, cross_x, cross_y, cross_z, sub_x, sub_y, sub_z]
      ring
    rw [rdot_sub, e, sub_self] at h1
    have := rdot_self_pos hN
    linarith
  have hB : Convex ℝ {q : P3 | form g q = rdot g (h.pt j)} := by
    intro x hx y hy a b _ _ hab
    simp only [Set.mem_ofPred_eq] at hx hy ⊢
    rw [form_add, hx, hy, ← add_mul, hab, one_mul]
  refine ⟨_, convex_below n (rdot n (h.pt i)) hB, fun l hl hli => ?_, fun u v w hu huvw hD => ?_⟩
  · by_cases h2 : l = j
    · rw [h2]; exact Or.inr ⟨hj, rfl⟩
    by_cases h3 : l = k
    · rw [h3]; exact Or.inr ⟨hk, g1⟩
    exact Or.inl (hlt l hl hli h2 h3)
  · have e : ∀ m : V3 ℝ, form m (u • (h.pt i).toP + v • (h.pt j).toP + w • (h.pt k).toP) = u * rdot m (h.pt i) + v * rdot m (h.pt j) + w * rdot m (h.pt k) := by
      intro m
      have := form_add m (u • (h.pt i).toP + v • (h.pt j).toP) (h.pt k).toP 1 w
      rw [one_smul, form_add, one_mul] at this
      exact this
    have hu' : u = 1 - v - w := by linarith
    rcases hD with hD | ⟨-, hD⟩
    · rw [e, hj, hk, hu'] at hD
      nlinarith
    · simp only [Set.mem_ofPred_eq] at hD
      rw [e, g1] at hD
      have : u * (rdot g (h.pt i) - rdot g (h.pt j)) = 0 := by rw [hu'] at hD ⊢; linarith
      rcases mul_eq_zero.mp this with h1 | h1
      · exact hu.ne' h1
      · exact g2 (by linarith)

/-- a triangle with a point of the inside of a facet has its corners -/
theorem Facet.meets (hg : General h.points) {i j k : Nat} (hf : h.Facet i j k) {q : P3} (hq : q ∈ h.otri (i, j, k)) {s : Nat × Nat × Nat}
    (hs : ∀ x, Corner s x → x < h.points.length) (hqs : q ∈ h.tri s) : Corner s i ∧ Corner s j ∧ Corner s k := by
  obtain ⟨u, v, w, hu, hv, hw, huvw, rfl⟩ := hq
  have key : ∀ {i j k : Nat} (hf : h.Facet i j k) {u v w : ℝ}, 0 < u → u + v + w = 1 → u • (h.pt i).toP + v • (h.pt j).toP + w • (h.pt k).toP ∈ h.tri s →
      Corner s i := by
    intro i j k hf u v w hu huvw hq
    by_contra hcon
    obtain ⟨D, hD, h1, h2⟩ := hf.corner hg
    refine h2 u v w hu huvw ?_
    rw [tri_eq] at hq
    refine convexHull_min ?_ hD hq
    rintro _ ⟨x, hx, rfl⟩
    exact h1 x (hs x hx) (fun e => hcon (e ▸ hx))
  refine ⟨key hf hu huvw hqs, key hf.rot (u := v) (v := w) (w := u) hv (by linarith) ?_, key hf.rot.rot (u := w) (v := u) (w := v) hw (by linarith) ?_⟩
  · convert hqs using 1; simp only; abel
  · convert hqs using 1; simp only; abel

theorem centre_otri (i j k : Nat) : (1 / 3 : ℝ) • (h.pt i).toP + (1 / 3 : ℝ) • (h.pt j).toP + (1 / 3 : ℝ) • (h.pt k).toP ∈ h.otri (i, j, k) :=
  ⟨1 / 3, 1 / 3, 1 / 3, by norm_num, by norm_num, by norm_num, by norm_num, rfl⟩

theorem otri_subset_tri (s : Nat × Nat × Nat) : h.otri s ⊆ h.tri s := by
  rintro _ ⟨u, v, w, hu, hv, hw, huvw, rfl⟩
  have hc : Convex ℝ (h.tri s) := convex_convexHull ℝ _
  have := hc.sum_mem (t := (Finset.univ : Finset (Fin 3))) (w := ![u, v, w]) (z := ![(h.pt s.1).toP, (h.pt s.2.1).toP, (h.pt s.2.2).toP])
    (by intro i _; fin_cases i <;> simp <;> linarith) (by simp [Fin.sum_univ_three]; linarith)
    (by intro i _; fin_cases i <;> exact subset_convexHull ℝ _ (by simp))
  simpa [Fin.sum_univ_three] using this

/-- The simplices are the facets, each of them once.  Only indices, and signs of volumes. -/
structure Net (h : Hull ℝ) : Prop where
  vertexIndex : ∀ i ∈ h.vertices, i < h.points.length
  cornerVertex : ∀ s ∈ h.simplices, ∀ i, Corner s i → i ∈ h.vertices
  facet : ∀ s ∈ h.simplices, h.Facet s.1 s.2.1 s.2.2
  all : ∀ i j k, h.Facet i j k → ∃ s ∈ h.simplices, ∀ x, Corner s x ↔ Corner (i, j, k) x
  once : ∀ (k k' : Nat) s s', h.simplices[k]? = some s → h.simplices[k']? = some s' → (∀ x, Corner s x ↔ Corner s' x) → k = k'
  rows : h.neighbors.length = h.simplices.length
  neighbor : ∀ (k : Nat) s nb, h.simplices[k]? = some s → h.neighbors[k]? = some nb → ∀ n : Nat, n ∈ nb ↔
    n ≠ k ∧ ∃ t, h.simplices[n]? = some t ∧ ∃ a b, a ≠ b ∧ Corner s a ∧ Corner s b ∧ Corner t a ∧ Corner t b
  side : ∀ (k : Nat) s, h.simplices[k]? = some s → ∀ a b, a ≠ b → Corner s a → Corner s b →
    ∃! n : Nat, n ≠ k ∧ ∃ t, h.simplices[n]? = some t ∧ Corner t a ∧ Corner t b

/-- corners of a triple of different indices that contains a triple of different indices -/
theorem corner_iff {s : Nat × Nat × Nat} {i j k : Nat} (hij : i ≠ j) (hik : i ≠ k) (hjk : j ≠ k) (hi : Corner s i) (hj : Corner s j) (hk : Corner s k) (x : Nat) :
    Corner s x ↔ Corner (i, j, k) x := by
  simp only [Corner] at *
  omega

theorem IsHull.facet (hh : h.IsHull) (hg : General h.points) {s : Nat × Nat × Nat} (hs : s ∈ h.simplices) : h.Facet s.1 s.2.1 s.2.2 := by
  have key : ∀ t : Nat × Nat × Nat, h.Outward t → t.1 < h.points.length → t.2.1 < h.points.length → t.2.2 < h.points.length → h.Facet t.1 t.2.1 t.2.2 := by
    intro t ho h1 h2 h3
    obtain ⟨d1, d2, d3⟩ := outward_distinct ho
    have e1 : t.1 ≠ t.2.1 := fun e => d1 (by rw [e])
    have e2 : t.1 ≠ t.2.2 := fun e => by first | exact d2 (by rw [e]) | exact d3 (by rw [e])
    have e3 : t.2.1 ≠ t.2.2 := fun e => by first | exact d3 (by rw [e]) | exact d2 (by rw [e])
    refine ⟨h1, h2, h3, e1, e2, e3, Or.inr fun l hl l1 l2 l3 => ?_⟩
    have h4 := ho.le _ (mem_body (pt_mem hl))
    have h5 := vol_ne hg h1 h2 h3 hl ⟨e1, e2, l1.symm, e3, l2.symm, l3.symm⟩
    refine lt_of_le_of_ne ?_ h5
    rw [vol, Geec.vol, rdot_sub]
    rw [toP_toV] at h4
    unfold normal at h4
    linarith
  have hc := hh.cornerIndex s hs
  rcases hh.outward hs with ho | ho
  · exact key s ho (hc _ (.inl rfl)) (hc _ (.inr (.inl rfl))) (hc _ (.inr (.inr rfl)))
  · exact (key _ ho (hc _ (.inl rfl)) (hc _ (.inr (.inr rfl))) (hc _ (.inr (.inl rfl)))).swap

theorem IsHull.net (hh : h.IsHull) (hg : General h.points) : h.Net where
  vertexIndex := hh.vertexIndex
  cornerVertex := by
    have key : ∀ i j k, h.Facet i j k → i ∈ h.vertices := by
      intro i j k hf
      by_contra hcon
      obtain ⟨D, hD, h1, h2⟩ := hf.corner hg
      have h3 := h2 1 0 0 one_pos (by norm_num)
      rw [one_smul, zero_smul, zero_smul, add_zero, add_zero] at h3
      refine h3 (convexHull_min ?_ hD (hh.vertexHull (mem_body (pt_mem hf.i_lt))))
      rintro _ ⟨l, hl, rfl⟩
      exact h1 l (hh.vertexIndex l hl) fun e => hcon (e ▸ hl)
    intro s hs i hi
    have hf := hh.facet hg hs
    rcases hi with rfl | rfl | rfl
    · exact key _ _ _ hf
    · exact key _ _ _ hf.rot
    · exact key _ _ _ hf.rot.rot
  facet := fun s hs => hh.facet hg hs
  all := by
    intro i j k hf
    have hm := centre_otri (h := h) i j k
    have hq := hf.mem_frontier hg (otri_subset_tri _ hm)
    rw [hh.cover] at hq
    obtain ⟨s, hs, hqs⟩ := hq
    obtain ⟨h1, h2, h3⟩ := hf.meets hg hm (hh.cornerIndex s hs) hqs
    exact ⟨s, hs, corner_iff hf.ij hf.ik hf.jk h1 h2 h3⟩
  once := by
    intro k k' s s' hs hs' hc
    by_contra hne
    have hf := hh.facet hg (List.mem_of_getElem? hs)
    have hf' := hh.facet hg (List.mem_of_getElem? hs')
    have hd := hh.disjoint k k' s s' hs hs' hne
    have hm := centre_otri (h := h) s.1 s.2.1 s.2.2
    refine Set.disjoint_left.mp hd hm (openTriangle_perm ?_ hm)
    have h1 := (hc s.1).mp (Or.inl rfl)
    have h2 := (hc s.2.1).mp (Or.inr (Or.inl rfl))
    have h3 := (hc s.2.2).mp (Or.inr (Or.inr rfl))
    have e1 := hf.ij; have e2 := hf.ik; have e3 := hf.jk
    have : List.Perm [s.1, s.2.1, s.2.2] [s'.1, s'.2.1, s'.2.2] := by
      rw [List.perm_ext_iff_of_nodup]
      · intro x
        have := hc x
        simp only [Corner] at this
        simpa using this
      · simp [e1, e2, e3]
      · simp [hf'.ij, hf'.ik, hf'.jk]
    exact this.map h.pt
  rows := hh.rows
  neighbor := hh.neighbor
  side := hh.side

theorem Net.corner_lt (hn : h.Net) {s : Nat × Nat × Nat} (hs : s ∈ h.simplices) {i : Nat} (hi : Corner s i) : i < h.points.length :=
  hn.vertexIndex i (hn.cornerVertex s hs i hi)

theorem Net.cover (hn : h.Net) (hg : General h.points) : frontier h.body = {q | ∃ s ∈ h.simplices, q ∈ h.tri s} := by
  rw [frontier_facets hg]
  ext q
  constructor
  · rintro ⟨i, j, k, hf, hq⟩
    obtain ⟨s, hs, hc⟩ := hn.all i j k hf
    exact ⟨s, hs, by rw [tri_congr hc]; exact hq⟩
  · rintro ⟨s, hs, hq⟩
    exact ⟨_, _, _, hn.facet s hs, hq⟩

theorem Net.isHull (hn : h.Net) (hg : General h.points) : h.IsHull where
  solid := solid_of_general hg
  vertexIndex := hn.vertexIndex
  vertexHull := by
    intro q hq
    by_contra hcon
    have hV : {q : P3 | ∃ i ∈ h.vertices, q = (h.pt i).toP} = (fun i => (h.pt i).toP) '' {i | i ∈ h.vertices} := by
      ext q; constructor
      · rintro ⟨i, hi, rfl⟩; exact ⟨i, hi, rfl⟩
      · rintro ⟨i, hi, rfl⟩; exact ⟨i, hi, rfl⟩
    have hcl : IsClosed (convexHull ℝ {q : P3 | ∃ i ∈ h.vertices, q = (h.pt i).toP}) := by
      rw [hV]
      exact (Set.Finite.isCompact_convexHull ℝ ((List.finite_toSet _).image _)).isClosed
    obtain ⟨f, c, h1, h2⟩ := geometric_hahn_banach_closed_point (convex_convexHull ℝ _) hcl hcon
    obtain ⟨n, hn'⟩ := linear_form f
    have hfn : ∀ p, f p = form n p := fun p => by rw [← toV_toP p, hn']; rfl
    have hf := hg.four
    -- the point where the form is greatest
    obtain ⟨m, hm, hmax⟩ := (Finset.range h.points.length).exists_max_image (fun i => rdot n (h.pt i)) ⟨0, by simp; omega⟩
    rw [Finset.mem_range] at hm
    have hmax' : ∀ i, i < h.points.length → rdot n (h.pt i) ≤ form n (h.pt m).toP := fun i hi => hmax i (Finset.mem_range.mpr hi)
    have hqm : form n q ≤ form n (h.pt m).toP := body_le hmax' hq
    have hmv : ∀ s ∈ h.simplices, h.tri s ⊆ convexHull ℝ {q : P3 | ∃ i ∈ h.vertices, q = (h.pt i).toP} := by
      intro s hs
      rw [tri_eq]
      refine convexHull_mono ?_
      rintro _ ⟨x, hx, rfl⟩
      exact ⟨x, hn.cornerVertex s hs x hx, rfl⟩
    have hout : ∀ s ∈ h.simplices, (h.pt m).toP ∉ h.tri s := by
      intro s hs hms
      have h3 := h1 _ (hmv s hs hms)
      rw [hfn] at h3 h2
      linarith
    by_cases n0 : n = V3.zeros
    · have h4 := frontier_facets hg
      -- there is a facet
      obtain ⟨e, e0, -⟩ := exists_orth3 (e1 := (V3.zeros : V3 ℝ)) (e2 := V3.zeros) (e3 := V3.zeros) (rdot_zeros _)
      obtain ⟨m', hm', hmax2⟩ := (Finset.range h.points.length).exists_max_image (fun i => rdot e (h.pt i)) ⟨0, by simp; omega⟩
      rw [Finset.mem_range] at hm'
      obtain ⟨i, j, k, hf', hq'⟩ := facet_of_max hg (mem_body (pt_mem hm')) e0 fun i hi => hmax2 i (Finset.mem_range.mpr hi)
      obtain ⟨s, hs, hc⟩ := hn.all i j k hf'
      rw [← tri_congr hc] at hq'
      have h3 := h1 _ (hmv s hs hq')
      rw [hfn, n0] at h3 h2
      simp [form, rdot] at h2 h3
      linarith
    · obtain ⟨i, j, k, hf', hq'⟩ := facet_of_max hg (mem_body (pt_mem hm)) n0 hmax'
      obtain ⟨s, hs, hc⟩ := hn.all i j k hf'
      rw [← tri_congr hc] at hq'
      exact hout s hs hq'
  cornerIndex := fun s hs i hi => hn.corner_lt hs hi
  proper := by
    intro s hs hcol
    have hf := hn.facet s hs
    apply normal_ne_of_general hg hf.i_lt hf.j_lt hf.k_lt hf.ij hf.ik hf.jk
    obtain ⟨u, v, hq⟩ := hcol
    obtain ⟨t1, h1⟩ := hq (h.pt s.1) (by simp)
    obtain ⟨t2, h2⟩ := hq (h.pt s.2.1) (by simp)
    obtain ⟨t3, h3⟩ := hq (h.pt s.2.2) (by simp)
    obtain ⟨u1, u2, u3⟩ := u
    obtain ⟨v1, v2, v3⟩ := v
    simp only [V3.toP, Prod.mk_add_mk, Prod.smul_mk, smul_eq_mul, Prod.mk.injEq] at h1 h2 h3
    refine V3.ext' ?_ ?_ ?_ <;> simp only [triNormal, cross_x, cross_y, cross_z, sub_x, sub_y, sub_z, zeros_x, zeros_y, zeros_z,
      h1.1, h1.2.1, h1.2.2, h2.1, h2.2.1, h2.2.2, h3.1, h3.2.1, h3.2.2] <;> ring
  cover := hn.cover hg
  disjoint := by
    intro k k' s s' hs hs' hne
    rw [Set.disjoint_left]
    intro q hq hq'
    have hf := hn.facet s (List.mem_of_getElem? hs)
    obtain ⟨h1, h2, h3⟩ := hf.meets hg hq (s := s') (fun x hx => hn.corner_lt (List.mem_of_getElem? hs') hx) (otri_subset_tri _ hq')
    exact hne (hn.once k k' s s' hs hs' fun x => (corner_iff hf.ij hf.ik hf.jk h1 h2 h3 x).symm)
  rows := hn.rows
  neighbor := hn.neighbor
  side := hn.side

/-- for points in general position, the contract of the hull library in terms of indices and signs of volumes -/
theorem isHull_iff_net (hg : General h.points) : h.IsHull ↔ h.Net := ⟨fun hh => hh.net hg, fun hn => hn.isHull hg⟩

end Hull

end
end Geec
