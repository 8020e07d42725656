import Verif.Spec.Tetra
import Verif.Lemmas.HullGeom
import Verif.Lemmas.ChangeVar
import Verif.Props.Edge
import Mathlib.Analysis.Convex.Combination
import Mathlib.Topology.Algebra.Module.Equiv
/-
More concrete cases of the hull contract: affine images of a hull, the octahedron; bounds that make a station regular.
-/
namespace Geec
open Arith
noncomputable section

/-! ### affine images -/

/-- the map `q ↦ A q + t` on vectors -/
def affV (A : P3 →L[ℝ] P3) (t : P3) (a : V3 ℝ) : V3 ℝ := P3.toV (A a.toP + t)

/-- the hull library's result for the image of the points: the same indices -/
def Hull.affine (h : Hull ℝ) (A : P3 →L[ℝ] P3) (t : P3) : Hull ℝ := { h with points := h.points.map (affV A t) }

variable {h : Hull ℝ} {A B : P3 →L[ℝ] P3} {t : P3}

theorem affine_pt {i : Nat} (hi : i < h.points.length) : (h.affine A t).pt i = affV A t (h.pt i) := by
  unfold Hull.pt at3 Hull.affine
  simp [List.getD_eq_getElem?_getD, hi]

theorem affine_body : (h.affine A t).body = (fun q => A q + t) '' h.body := by
  let f : P3 →ᵃ[ℝ] P3 := (A : P3 →ₗ[ℝ] P3).toAffineMap + AffineMap.const ℝ P3 t
  have hf : (fun q => A q + t) = f := by funext q; simp [f]
  unfold Hull.body
  rw [hf, AffineMap.image_convexHull]
  congr 1
  rw [← hf]
  ext q
  constructor
  · rintro ⟨p, hp, rfl⟩
    obtain ⟨a, ha, rfl⟩ := List.mem_map.mp hp
    exact ⟨a.toP, ⟨a, ha, rfl⟩, rfl⟩
  · rintro ⟨_, ⟨a, ha, rfl⟩, rfl⟩
    exact ⟨affV A t a, List.mem_map_of_mem ha, rfl⟩

theorem affine_triangle (a b c : V3 ℝ) : triangle (affV A t a) (affV A t b) (affV A t c) = (fun q => A q + t) '' triangle a b c := by
  let f : P3 →ᵃ[ℝ] P3 := (A : P3 →ₗ[ℝ] P3).toAffineMap + AffineMap.const ℝ P3 t
  have hf : (fun q => A q + t) = f := by funext q; simp [f]
  unfold triangle
  rw [hf, AffineMap.image_convexHull]
  congr 1
  rw [← hf]
  simp [Set.image_insert_eq, affV]

theorem affine_openTriangle (a b c : V3 ℝ) : openTriangle (affV A t a) (affV A t b) (affV A t c) ⊆ (fun q => A q + t) '' openTriangle a b c := by
  rintro q ⟨u, v, w, hu, hv, hw, hs, rfl⟩
  refine ⟨_, ⟨u, v, w, hu, hv, hw, hs, rfl⟩, ?_⟩
  simp only [map_add, map_smul, affV, toV_toP, smul_add]
  have : t = (u + v + w) • t := by rw [hs, one_smul]
  conv_lhs => rw [this, add_smul, add_smul]
  abel

/-- an affine bijection maps a hull to a hull -/
theorem Hull.IsHull.affine (hh : h.IsHull) (hAB : ∀ q, A (B q) = q) (hBA : ∀ q, B (A q) = q) (t : P3) : (h.affine A t).IsHull := by
  let E : P3 ≃L[ℝ] P3 := ContinuousLinearEquiv.equivOfInverse A B hBA hAB
  let F : P3 ≃ₜ P3 := E.toHomeomorph.trans (Homeomorph.addRight t)
  have hF : ⇑F = fun q => A q + t := rfl
  have hinj : Function.Injective (fun q => A q + t) := hF ▸ F.injective
  have hpt : ∀ s ∈ h.simplices, ∀ i, Corner s i → (h.affine A t).pt i = affV A t (h.pt i) :=
    fun s hs i hi => affine_pt (hh.cornerIndex s hs i hi)
  have htri : ∀ s ∈ h.simplices, (h.affine A t).tri s = (fun q => A q + t) '' h.tri s := by
    intro s hs
    unfold Hull.tri
    rw [hpt s hs _ (.inl rfl), hpt s hs _ (.inr (.inl rfl)), hpt s hs _ (.inr (.inr rfl)), affine_triangle]
  refine ⟨?_, ?_, ?_, ?_, ?_, ?_, ?_, hh.rows, hh.neighbor, hh.side⟩
  · rw [affine_body, ← hF, ← F.image_interior]; exact hh.solid.image _
  · intro i hi; rw [show (h.affine A t).points.length = h.points.length from List.length_map _]; exact hh.vertexIndex i hi
  · rw [affine_body]
    let f : P3 →ᵃ[ℝ] P3 := (A : P3 →ₗ[ℝ] P3).toAffineMap + AffineMap.const ℝ P3 t
    have hf : (fun q => A q + t) = f := by funext q; simp [f]
    refine (Set.image_mono hh.vertexHull).trans ?_
    rw [hf, AffineMap.image_convexHull, ← hf]
    apply convexHull_mono
    rintro _ ⟨_, ⟨i, hi, rfl⟩, rfl⟩
    exact ⟨i, hi, by rw [affine_pt (hh.vertexIndex i hi)]; rfl⟩
  · intro s hs i hi; rw [show (h.affine A t).points.length = h.points.length from List.length_map _]; exact hh.cornerIndex s hs i hi
  · intro s hs hc
    apply hh.proper s hs
    rw [hpt s hs _ (.inl rfl), hpt s hs _ (.inr (.inl rfl)), hpt s hs _ (.inr (.inr rfl))] at hc
    obtain ⟨u, v, hq⟩ := hc
    refine ⟨B (u - t), B v, fun q hq' => ?_⟩
    have : affV A t q ∈ [affV A t (h.pt s.1), affV A t (h.pt s.2.1), affV A t (h.pt s.2.2)] := by
      have := List.mem_map_of_mem (f := affV A t) hq'
      simpa using this
    obtain ⟨c, hc⟩ := hq _ this
    refine ⟨c, ?_⟩
    rw [← map_smul, ← map_add, ← hBA q.toP]
    congr 1
    have hc : A q.toP + t = u + c • v := hc
    rw [eq_sub_of_add_eq hc]; abel
  · rw [affine_body, ← hF, ← F.image_frontier, hh.cover]
    ext q
    constructor
    · rintro ⟨q', ⟨s, hs, hq'⟩, rfl⟩
      exact ⟨s, hs, by rw [htri s hs]; exact ⟨q', hq', rfl⟩⟩
    · rintro ⟨s, hs, hq⟩
      rw [htri s hs] at hq
      obtain ⟨q', hq', rfl⟩ := hq
      exact ⟨q', ⟨s, hs, hq'⟩, rfl⟩
  · intro k k' s s' hk hk' hne
    have hd := hh.disjoint k k' s s' hk hk' hne
    have hm := List.mem_of_getElem? hk
    have hm' := List.mem_of_getElem? hk'
    unfold Hull.otri
    have hm1 : s ∈ h.simplices := hm
    have hm2 : s' ∈ h.simplices := hm'
    rw [hpt s hm1 _ (.inl rfl), hpt s hm1 _ (.inr (.inl rfl)), hpt s hm1 _ (.inr (.inr rfl)),
      hpt s' hm2 _ (.inl rfl), hpt s' hm2 _ (.inr (.inl rfl)), hpt s' hm2 _ (.inr (.inr rfl))]
    exact ((Set.disjoint_image_iff hinj).mpr hd).mono (affine_openTriangle _ _ _) (affine_openTriangle _ _ _)

/-! ### the octahedron -/

/-- triangles of the octahedron -/
def octaSimplices : List (Nat × Nat × Nat) :=
  [(0, 2, 4), (0, 2, 5), (0, 3, 4), (0, 3, 5), (1, 2, 4), (1, 2, 5), (1, 3, 4), (1, 3, 5)]

def octaNeighbors : List (List Nat) :=
  [[1, 2, 4], [0, 3, 5], [3, 0, 6], [2, 1, 7], [5, 6, 0], [4, 7, 1], [7, 4, 2], [6, 5, 3]]

/-- the octahedron with corners on the axes -/
def octa : Hull ℝ where
  points := [⟨1, 0, 0⟩, ⟨-1, 0, 0⟩, ⟨0, 1, 0⟩, ⟨0, -1, 0⟩, ⟨0, 0, 1⟩, ⟨0, 0, -1⟩]
  vertices := [0, 1, 2, 3, 4, 5]
  simplices := octaSimplices
  neighbors := octaNeighbors

theorem octa_pt0 : octa.pt 0 = ⟨1, 0, 0⟩ := rfl
theorem octa_pt1 : octa.pt 1 = ⟨-1, 0, 0⟩ := rfl
theorem octa_pt2 : octa.pt 2 = ⟨0, 1, 0⟩ := rfl
theorem octa_pt3 : octa.pt 3 = ⟨0, -1, 0⟩ := rfl
theorem octa_pt4 : octa.pt 4 = ⟨0, 0, 1⟩ := rfl
theorem octa_pt5 : octa.pt 5 = ⟨0, 0, -1⟩ := rfl

/-- sum of the absolute values of the coordinates -/
def l1 (q : P3) : ℝ := |q.1| + |q.2.1| + |q.2.2|

theorem octa_body : octa.body = {q : P3 | l1 q ≤ 1} := by
  apply Set.Subset.antisymm
  · apply convexHull_min
    · rintro q ⟨p, hp, rfl⟩
      simp only [octa, List.mem_cons, List.not_mem_nil, or_false] at hp
      rcases hp with rfl | rfl | rfl | rfl | rfl | rfl <;> simp [V3.toP, l1]
    · rintro ⟨x, y, z⟩ h1 ⟨x', y', z'⟩ h2 s t hs ht hst
      simp only [Set.mem_ofPred_eq, l1, Prod.smul_mk, Prod.mk_add_mk, smul_eq_mul] at *
      have k : ∀ a b : ℝ, |s * a + t * b| ≤ s * |a| + t * |b| := by
        intro a b
        refine (abs_add_le _ _).trans ?_
        rw [abs_mul, abs_mul, abs_of_nonneg hs, abs_of_nonneg ht]
      have := k x x'
      have := k y y'
      have := k z z'
      nlinarith [mul_le_mul_of_nonneg_left h1 hs, mul_le_mul_of_nonneg_left h2 ht]
  · rintro ⟨x, y, z⟩ h
    simp only [Set.mem_ofPred_eq, l1] at h
    have hm : ∀ p ∈ octa.points, p.toP ∈ octa.body := fun p hp => subset_convexHull ℝ _ ⟨p, hp, rfl⟩
    have hc : Convex ℝ octa.body := convex_convexHull ℝ _
    have px := abs_nonneg x; have py := abs_nonneg y; have pz := abs_nonneg z
    have := hc.sum_mem (t := Finset.univ)
      (w := ![(|x| + x) / 2 + (1 - |x| - |y| - |z|) / 2, (|x| - x) / 2 + (1 - |x| - |y| - |z|) / 2, (|y| + y) / 2, (|y| - y) / 2, (|z| + z) / 2, (|z| - z) / 2])
      (z := ![(⟨1, 0, 0⟩ : V3 ℝ).toP, (⟨-1, 0, 0⟩ : V3 ℝ).toP, (⟨0, 1, 0⟩ : V3 ℝ).toP, (⟨0, -1, 0⟩ : V3 ℝ).toP, (⟨0, 0, 1⟩ : V3 ℝ).toP, (⟨0, 0, -1⟩ : V3 ℝ).toP])
      (by
        have a1 := neg_abs_le x; have a2 := le_abs_self x
        have b1 := neg_abs_le y; have b2 := le_abs_self y
        have c1 := neg_abs_le z; have c2 := le_abs_self z
        intro i _; fin_cases i <;> simp <;> linarith)
      (by simp [Fin.sum_univ_succ]; ring)
      (by intro i _; fin_cases i <;> exact hm _ (by simp [octa]))
    convert this using 1
    simp [Fin.sum_univ_succ, V3.toP]
    refine ⟨by ring, by ring, by ring⟩

theorem continuous_l1 : Continuous l1 := by unfold l1; fun_prop

theorem octa_interior : interior octa.body = {q : P3 | l1 q < 1} := by
  apply Set.Subset.antisymm
  · intro q hq
    obtain ⟨t, ht, h⟩ := exists_step hq q
    rw [octa_body] at h
    have e : l1 (q + t • q) = (1 + t) * l1 q := by
      have : ∀ a : ℝ, |a + t * a| = (1 + t) * |a| := by
        intro a; rw [show a + t * a = (1 + t) * a by ring, abs_mul, abs_of_pos (show 0 < 1 + t by linarith)]
      unfold l1
      simp only [Prod.fst_add, Prod.snd_add, Prod.smul_fst, Prod.smul_snd, smul_eq_mul, this]
      ring
    have h : l1 (q + t • q) ≤ 1 := h
    rw [e] at h
    show l1 q < 1
    have : 0 ≤ l1 q := by unfold l1; positivity
    nlinarith
  · apply interior_maximal
    · rw [octa_body]; exact fun q (hq : l1 q < 1) => (le_of_lt hq : l1 q ≤ 1)
    · exact isOpen_lt continuous_l1 continuous_const

theorem octa_frontier : frontier octa.body = {q : P3 | l1 q = 1} := by
  have hcl : IsClosed octa.body := by rw [octa_body]; exact isClosed_le continuous_l1 continuous_const
  rw [hcl.frontier_eq, octa_interior, octa_body]
  ext q
  simp only [Set.mem_sdiff, Set.mem_ofPred_eq, not_lt]
  exact ⟨fun h => le_antisymm h.1 h.2, fun h => ⟨h.le, h.ge⟩⟩

instance (s : Nat × Nat × Nat) (i : Nat) : Decidable (Corner s i) := by unfold Corner; infer_instance

theorem octa_side_table : ∀ k : Fin 8, ∀ a b : Fin 6, a ≠ b → Corner octaSimplices[k] a → Corner octaSimplices[k] b →
    ∃ n : Fin 8, (n ≠ k ∧ Corner octaSimplices[n] a ∧ Corner octaSimplices[n] b) ∧
      ∀ n' : Fin 8, n' ≠ k → Corner octaSimplices[n'] a → Corner octaSimplices[n'] b → n' = n := by decide

theorem octa_neighbor_table : ∀ k n : Fin 8, (n : Nat) ∈ octaNeighbors[k] ↔ n ≠ k ∧ ∃ a b : Fin 6, a ≠ b ∧
    Corner octaSimplices[k] a ∧ Corner octaSimplices[k] b ∧ Corner octaSimplices[n] a ∧ Corner octaSimplices[n] b := by decide

theorem octa_neighbor_small : ∀ k : Fin 8, ∀ n ∈ octaNeighbors[k], n < 8 := by decide

theorem octa_corner_small : ∀ k : Fin 8, octaSimplices[k].1 < 6 ∧ octaSimplices[k].2.1 < 6 ∧ octaSimplices[k].2.2 < 6 := by decide

theorem octa_get {k : Nat} {s : Nat × Nat × Nat} (hk : octa.simplices[k]? = some s) : ∃ h : k < 8, s = octaSimplices[k] := by
  obtain ⟨h1, h2⟩ := List.getElem?_eq_some_iff.mp hk
  exact ⟨h1, h2.symm⟩

theorem octa_corner {k : Nat} {s : Nat × Nat × Nat} (hk : octa.simplices[k]? = some s) {a : Nat} (ha : Corner s a) : a < 6 := by
  obtain ⟨h, rfl⟩ := octa_get hk
  obtain ⟨h1, h2, h3⟩ := octa_corner_small ⟨k, h⟩
  rcases ha with rfl | rfl | rfl
  · exact h1
  · exact h2
  · exact h3

/-- the octahedron fulfils the contract -/
theorem octa_isHull : octa.IsHull where
  solid := by rw [octa_interior]; exact ⟨(0, 0, 0), by simp [l1]⟩
  vertexIndex := by decide
  vertexHull := by
    apply convexHull_mono
    rintro q ⟨p, hp, rfl⟩
    simp only [octa, List.mem_cons, List.not_mem_nil, or_false] at hp
    rcases hp with rfl | rfl | rfl | rfl | rfl | rfl
    · exact ⟨0, by decide, rfl⟩
    · exact ⟨1, by decide, rfl⟩
    · exact ⟨2, by decide, rfl⟩
    · exact ⟨3, by decide, rfl⟩
    · exact ⟨4, by decide, rfl⟩
    · exact ⟨5, by decide, rfl⟩
  cornerIndex := by
    intro s hs i hi
    obtain ⟨k, hk⟩ := List.getElem?_of_mem hs
    exact octa_corner hk hi
  proper := by
    intro s hs hc
    have := collinear_cross hc
    simp only [octa, octaSimplices, List.mem_cons, List.not_mem_nil, or_false] at hs
    rcases hs with rfl | rfl | rfl | rfl | rfl | rfl | rfl | rfl <;>
      simp [octa_pt0, octa_pt1, octa_pt2, octa_pt3, octa_pt4, octa_pt5] at this
  cover := by
    rw [octa_frontier]
    ext ⟨x, y, z⟩
    simp only [Set.mem_ofPred_eq, octa, octaSimplices, List.mem_cons, List.not_mem_nil, or_false, exists_eq_or_imp, exists_eq_left]
    have hT : ∀ i j l, (x, y, z) ∈ Hull.tri octa (i, j, l) ↔ (x, y, z) ∈ triangle (octa.pt i) (octa.pt j) (octa.pt l) := fun i j l => Iff.rfl
    show l1 (x, y, z) = 1 ↔ (x, y, z) ∈ Hull.tri octa (0, 2, 4) ∨ (x, y, z) ∈ Hull.tri octa (0, 2, 5) ∨ (x, y, z) ∈ Hull.tri octa (0, 3, 4) ∨
      (x, y, z) ∈ Hull.tri octa (0, 3, 5) ∨ (x, y, z) ∈ Hull.tri octa (1, 2, 4) ∨ (x, y, z) ∈ Hull.tri octa (1, 2, 5) ∨
      (x, y, z) ∈ Hull.tri octa (1, 3, 4) ∨ (x, y, z) ∈ Hull.tri octa (1, 3, 5)
    simp only [hT, octa_pt0, octa_pt1, octa_pt2, octa_pt3, octa_pt4, octa_pt5]
    constructor
    · intro h
      simp only [l1] at h
      rcases le_total 0 x with hx | hx <;> rcases le_total 0 y with hy | hy <;> rcases le_total 0 z with hz | hz <;>
        simp only [abs_of_nonneg, abs_of_nonpos, hx, hy, hz] at h
      · left; exact mem_triangle.mpr ⟨x, y, z, hx, hy, hz, h, by simp [V3.toP]⟩
      · right; left; exact mem_triangle.mpr ⟨x, y, -z, hx, hy, by linarith, h, by simp [V3.toP]⟩
      · right; right; left; exact mem_triangle.mpr ⟨x, -y, z, hx, by linarith, hz, h, by simp [V3.toP]⟩
      · right; right; right; left; exact mem_triangle.mpr ⟨x, -y, -z, hx, by linarith, by linarith, h, by simp [V3.toP]⟩
      · right; right; right; right; left; exact mem_triangle.mpr ⟨-x, y, z, by linarith, hy, hz, h, by simp [V3.toP]⟩
      · right; right; right; right; right; left; exact mem_triangle.mpr ⟨-x, y, -z, by linarith, hy, by linarith, h, by simp [V3.toP]⟩
      · right; right; right; right; right; right; left; exact mem_triangle.mpr ⟨-x, -y, z, by linarith, by linarith, hz, h, by simp [V3.toP]⟩
      · right; right; right; right; right; right; right
        exact mem_triangle.mpr ⟨-x, -y, -z, by linarith, by linarith, by linarith, h, by simp [V3.toP]⟩
    · rintro (h | h | h | h | h | h | h | h) <;> obtain ⟨u, v, w, hu, hv, hw, hs, he⟩ := mem_triangle.mp h <;>
        simp only [V3.toP, Prod.smul_mk, Prod.mk_add_mk, smul_eq_mul, mul_zero, mul_one, mul_neg, add_zero, zero_add, Prod.mk.injEq] at he <;>
        obtain ⟨rfl, rfl, rfl⟩ := he <;> simp only [l1, abs_neg, abs_of_nonneg hu, abs_of_nonneg hv, abs_of_nonneg hw] <;> exact hs
  disjoint := by
    intro k k' s s' hk hk' hne
    rw [Set.disjoint_left]
    rintro ⟨x, y, z⟩ ⟨u, v, w, hu, hv, hw, hs, he⟩ ⟨u', v', w', hu', hv', hw', hs', he'⟩
    obtain ⟨hkl, rfl⟩ := octa_get hk
    obtain ⟨hkl', rfl⟩ := octa_get hk'
    interval_cases k <;> interval_cases k' <;> first | exact absurd rfl hne | skip
    all_goals
      simp only [octaSimplices, List.getElem_cons_zero, List.getElem_cons_succ, octa_pt0, octa_pt1, octa_pt2, octa_pt3, octa_pt4, octa_pt5, V3.toP,
        Prod.smul_mk, Prod.mk_add_mk, smul_eq_mul, mul_zero, mul_one, mul_neg, add_zero, zero_add, Prod.mk.injEq] at he he'
      obtain ⟨a1, a2, a3⟩ := he
      obtain ⟨b1, b2, b3⟩ := he'
      linarith
  rows := rfl
  neighbor := by
    intro k s nb hk hnb n
    obtain ⟨hkl, rfl⟩ := octa_get hk
    obtain ⟨hl, hnb'⟩ := List.getElem?_eq_some_iff.mp hnb
    have hnb' : octaNeighbors[k]'hl = nb := hnb'
    subst hnb'
    constructor
    · intro hn
      have hn8 := octa_neighbor_small ⟨k, hkl⟩ n hn
      obtain ⟨h1, a, b, hab, c1, c2, c3, c4⟩ := (octa_neighbor_table ⟨k, hkl⟩ ⟨n, hn8⟩).mp hn
      exact ⟨fun h => h1 (Fin.ext h), _, List.getElem?_eq_getElem (h := hn8), a, b, fun h => hab (Fin.ext h), c1, c2, c3, c4⟩
    · rintro ⟨hne, t, ht, a, b, hab, c1, c2, c3, c4⟩
      have ha := octa_corner hk c1
      have hb := octa_corner hk c2
      obtain ⟨hn8, rfl⟩ := octa_get ht
      exact (octa_neighbor_table ⟨k, hkl⟩ ⟨n, hn8⟩).mpr ⟨fun h => hne (congrArg Fin.val h), ⟨a, ha⟩, ⟨b, hb⟩,
        fun h => hab (congrArg Fin.val h), c1, c2, c3, c4⟩
  side := by
    intro k s hk a b hab ha hb
    have ha6 := octa_corner hk ha
    have hb6 := octa_corner hk hb
    obtain ⟨hkl, rfl⟩ := octa_get hk
    obtain ⟨n, ⟨h1, h2, h3⟩, hu⟩ := octa_side_table ⟨k, hkl⟩ ⟨a, ha6⟩ ⟨b, hb6⟩ (fun h => hab (congrArg Fin.val h)) ha hb
    refine ⟨n, ⟨fun h => h1 (Fin.ext h), _, List.getElem?_eq_getElem (h := n.2), h2, h3⟩, ?_⟩
    rintro n' ⟨h1', t, ht, c1, c2⟩
    obtain ⟨hn8, rfl⟩ := octa_get ht
    exact congrArg Fin.val (hu ⟨n', hn8⟩ (fun h => h1' (congrArg Fin.val h)) c1 c2)

/-! ### regular stations by bounds -/

theorem clearOf_bounds {a b s : V3 ℝ} (h1 : rdot (a.sub s) (a.sub s) ≤ 100) (h2 : rdot (b.sub a) (b.sub a) ≤ 100)
    (h3 : 1 / 1000 ≤ rdot (cross (a.sub s) (b.sub a)) (cross (a.sub s) (b.sub a))) : ClearOf a b s := by
  apply clearOf_aside
  have e1 : vlen (a.sub s) ≤ 10 := by
    unfold vlen; rw [Real.sqrt_le_left (by norm_num)]; linarith
  have e2 := vlen_nonneg (a.sub s)
  have e3 : repsilon ≤ 1 / 100000000 := by unfold repsilon; norm_num
  have e0 : (0 : ℝ) < repsilon := by unfold repsilon; positivity
  have e4 := rdot_self_nonneg (b.sub a)
  calc 2 * repsilon * vlen (a.sub s) * rdot (b.sub a) (b.sub a) ≤ 2 * (1 / 100000000) * 10 * 100 := by gcongr
    _ < 1 / 1000 := by norm_num
    _ ≤ _ := h3

theorem regular_bounds {h : Hull ℝ} {s : V3 ℝ} (H : ∀ t ∈ h.simplices,
    rdot (cross ((h.pt t.2.1).sub (h.pt t.1)) ((h.pt t.2.2).sub (h.pt t.1))) ((h.pt t.1).sub s) = 0 ∨
    (rdot (cross ((h.pt t.2.1).sub (h.pt t.1)) ((h.pt t.2.2).sub (h.pt t.1))) (cross ((h.pt t.2.1).sub (h.pt t.1)) ((h.pt t.2.2).sub (h.pt t.1))) ≤ 100 ∧
      1 / 1000 ≤ |rdot (cross ((h.pt t.2.1).sub (h.pt t.1)) ((h.pt t.2.2).sub (h.pt t.1))) ((h.pt t.1).sub s)| ∧
      ∀ i j, Corner t i → Corner t j → i ≠ j → ClearOf (h.pt i) (h.pt j) s)) : h.Regular s := by
  intro t ht
  rcases H t ht with h0 | ⟨h1, h2, h3⟩
  · exact .inl h0
  · refine .inr ⟨?_, h3⟩
    set N := cross ((h.pt t.2.1).sub (h.pt t.1)) ((h.pt t.2.2).sub (h.pt t.1))
    have e1 : vlen N ≤ 10 := by
      unfold vlen; rw [Real.sqrt_le_left (by norm_num)]; linarith
    have e2 := vlen_nonneg N
    have e3 : repsilon ≤ 1 / 100000000 := by unfold repsilon; norm_num
    have e0 : (0 : ℝ) < repsilon := by unfold repsilon; positivity
    calc repsilon * vlen N ≤ 1 / 100000000 * 10 := by gcongr
      _ < 1 / 1000 := by norm_num
      _ ≤ _ := h2

theorem tetra_regular {s : V3 ℝ} (hc : ∀ a b, a < 4 → b < 4 → a ≠ b → ClearOf (tetra.pt a) (tetra.pt b) s)
    (hz : 1 / 1000 ≤ |s.z|) (hy : 1 / 1000 ≤ |s.y|) (hx : 1 / 1000 ≤ |s.x|) (h1 : 1 / 1000 ≤ |1 - s.x - s.y - s.z|) : tetra.Regular s := by
  apply regular_bounds
  intro t ht
  right
  have hco : ∀ i, Corner t i → i < 4 := fun i hi => tetra_isHull.cornerIndex t ht i hi
  refine ⟨?_, ?_, fun i j hi hj hij => hc i j (hco i hi) (hco j hj) hij⟩
  · simp only [tetra, List.mem_cons, List.not_mem_nil, or_false] at ht
    rcases ht with rfl | rfl | rfl | rfl <;> simp [tetra_pt0, tetra_pt1, tetra_pt2, tetra_pt3, rdot] <;> norm_num
  · simp only [tetra, List.mem_cons, List.not_mem_nil, or_false] at ht
    rcases ht with rfl | rfl | rfl | rfl <;> simp only [tetra_pt0, tetra_pt1, tetra_pt2, tetra_pt3, rdot, cross_x, cross_y, cross_z, sub_x, sub_y, sub_z]
    · refine hz.trans (le_of_eq ?_); rw [← abs_neg]; congr 1; ring
    · refine hy.trans (le_of_eq ?_); congr 1; ring
    · refine hx.trans (le_of_eq ?_); rw [← abs_neg]; congr 1; ring
    · refine h1.trans (le_of_eq ?_); congr 1; ring

/-- outside -/
theorem tetra_regular_out : tetra.Regular ⟨2, 3, 5⟩ := by
  apply tetra_regular
  · intro a b ha hb hne
    apply clearOf_bounds <;> interval_cases a <;> interval_cases b <;> first | exact absurd rfl hne | skip
    all_goals simp only [rdot, cross_x, cross_y, cross_z, sub_x, sub_y, sub_z, tetra_pt0, tetra_pt1, tetra_pt2, tetra_pt3]; norm_num
  all_goals norm_num

/-- inside -/
theorem tetra_regular_in : tetra.Regular ⟨1 / 2, 1 / 8, 1 / 4⟩ := by
  apply tetra_regular
  · intro a b ha hb hne
    apply clearOf_bounds <;> interval_cases a <;> interval_cases b <;> first | exact absurd rfl hne | skip
    all_goals simp only [rdot, cross_x, cross_y, cross_z, sub_x, sub_y, sub_z, tetra_pt0, tetra_pt1, tetra_pt2, tetra_pt3]; norm_num
  all_goals norm_num

/-- on an edge -/
theorem tetra_regular_edge : tetra.Regular ⟨1 / 2, 0, 0⟩ := by
  apply regular_bounds
  intro t ht
  simp only [tetra, List.mem_cons, List.not_mem_nil, or_false] at ht
  rcases ht with rfl | rfl | rfl | rfl
  · left; simp [tetra_pt0, tetra_pt1, tetra_pt2, tetra_pt3, rdot]
  · left; simp [tetra_pt0, tetra_pt1, tetra_pt2, tetra_pt3, rdot]
  all_goals
    right
    refine ⟨?_, ?_, ?_⟩
    · simp [tetra_pt0, tetra_pt1, tetra_pt2, tetra_pt3, rdot] <;> norm_num
    · simp [tetra_pt0, tetra_pt1, tetra_pt2, tetra_pt3, rdot] <;> norm_num
    · intro i j hi hj hne
      rcases hi with rfl | rfl | rfl <;> rcases hj with rfl | rfl | rfl <;> first | exact absurd rfl hne | skip
      all_goals
        apply clearOf_bounds <;> simp only [rdot, cross_x, cross_y, cross_z, sub_x, sub_y, sub_z, tetra_pt0, tetra_pt1, tetra_pt2, tetra_pt3] <;> norm_num

/-- the centre of the octahedron -/
theorem octa_regular_centre : octa.Regular ⟨0, 0, 0⟩ := by
  apply regular_bounds
  intro t ht
  right
  simp only [octa, octaSimplices, List.mem_cons, List.not_mem_nil, or_false] at ht
  rcases ht with rfl | rfl | rfl | rfl | rfl | rfl | rfl | rfl
  all_goals
    refine ⟨?_, ?_, ?_⟩
    · simp [octa_pt0, octa_pt1, octa_pt2, octa_pt3, octa_pt4, octa_pt5, rdot] <;> norm_num
    · simp [octa_pt0, octa_pt1, octa_pt2, octa_pt3, octa_pt4, octa_pt5, rdot] <;> norm_num
    · intro i j hi hj hne
      rcases hi with rfl | rfl | rfl <;> rcases hj with rfl | rfl | rfl <;> first | exact absurd rfl hne | skip
      all_goals
        apply clearOf_bounds <;> simp only [rdot, cross_x, cross_y, cross_z, sub_x, sub_y, sub_z, octa_pt0, octa_pt1, octa_pt2, octa_pt3, octa_pt4, octa_pt5] <;> norm_num

end
end Geec
