import Verif.Lemmas.Reindex
import Verif.Props.RunJoint
import Mathlib.Topology.MetricSpace.Pseudo.Pi
import Mathlib.Data.Set.Finite.List
/-
C103: the hull library works on the rounded points, and nothing is assumed about the triangulation it returns.
-/
namespace Geec
open Filter
noncomputable section

/-! ### Signs of volumes do not change when the points are moved a little -/

/-- the volume in terms of points of space -/
theorem vol_continuous : Continuous fun P : P3 × P3 × P3 × P3 => vol (P3.toV P.1) (P3.toV P.2.1) (P3.toV P.2.2.1) (P3.toV P.2.2.2) := by
  unfold vol triNormal rdot cross V3.sub P3.toV
  simp only [r_sub, r_mul]
  fun_prop

theorem pt_of_getElem {h : Hull ℝ} {i : Nat} (hi : i < h.points.length) : h.pt i = h.points[i] := by
  unfold Hull.pt at3
  rw [List.getD_eq_getElem?_getD, List.getElem?_eq_getElem hi, Option.getD_some]

/-- the points of the second hull lie like those of the first: all volumes have the same signs -/
def SameSigns (h h' : Hull ℝ) : Prop := h'.points.length = h.points.length ∧
  ∀ i j k l, i < h.points.length → j < h.points.length → k < h.points.length → l < h.points.length → Distinct4 i j k l → 0 < h.vol i j k l * h'.vol i j k l

theorem signs_near {h : Hull ℝ} (hg : General h.points) : ∃ ε, 0 < ε ∧ ∀ h' : Hull ℝ, List.Forall₂ (NearV ε) h'.points h.points → SameSigns h h' := by
  let n := h.points.length
  let P0 : Fin n → P3 := fun i => (h.pt i).toP
  have key : ∀ᶠ P : Fin n → P3 in nhds P0, ∀ i j k l : Fin n, Distinct4 i j k l →
      0 < h.vol i j k l * vol (P3.toV (P i)) (P3.toV (P j)) (P3.toV (P k)) (P3.toV (P l)) := by
    rw [eventually_all]; intro i
    rw [eventually_all]; intro j
    rw [eventually_all]; intro k
    rw [eventually_all]; intro l
    by_cases hd : Distinct4 i j k l
    · have hc : Continuous fun P : Fin n → P3 => h.vol i j k l * vol (P3.toV (P i)) (P3.toV (P j)) (P3.toV (P k)) (P3.toV (P l)) := by
        refine continuous_const.mul ?_
        exact vol_continuous.comp (g := fun P : P3 × P3 × P3 × P3 => vol (P3.toV P.1) (P3.toV P.2.1) (P3.toV P.2.2.1) (P3.toV P.2.2.2))
          (f := fun P : Fin n → P3 => (P i, P j, P k, P l)) (by fun_prop)
      have h0 : 0 < h.vol i j k l * vol (P3.toV (P0 i)) (P3.toV (P0 j)) (P3.toV (P0 k)) (P3.toV (P0 l)) :=
        mul_self_pos.mpr (Hull.vol_ne hg i.2 j.2 k.2 l.2 hd)
      exact ((hc.continuousAt.eventually_const_lt h0)).mono fun P hP _ => hP
    · exact Eventually.of_forall fun P h => absurd h hd
  obtain ⟨ε, e0, he⟩ := Metric.eventually_nhds_iff.mp key
  refine ⟨ε / 2, by linarith, fun h' hn => ?_⟩
  have hlen : h'.points.length = h.points.length := hn.length_eq
  refine ⟨hlen, fun i j k l hi hj hk hl hd => ?_⟩
  let P : Fin n → P3 := fun i => (h'.pt i).toP
  have hP : dist P P0 < ε := by
    refine lt_of_le_of_lt ((dist_pi_le_iff (by linarith)).mpr fun m => ?_) (by linarith : ε / 2 < ε)
    have h1 : NearV (ε / 2) (h'.points[m.1]'(by rw [hlen]; exact m.2)) h.points[m.1] := hn.get (by rw [hlen]; exact m.2) m.2
    rw [← pt_of_getElem, ← pt_of_getElem] at h1
    rw [Prod.dist_eq, Prod.dist_eq]
    exact max_le h1.1 (max_le h1.2.1 h1.2.2)
  exact he hP ⟨i, hi⟩ ⟨j, hj⟩ ⟨k, hk⟩ ⟨l, hl⟩ hd

theorem SameSigns.symm {h h' : Hull ℝ} (hs : SameSigns h h') : SameSigns h' h := by
  refine ⟨hs.1.symm, fun i j k l hi hj hk hl hd => ?_⟩
  rw [hs.1] at hi hj hk hl
  rw [mul_comm]
  exact hs.2 i j k l hi hj hk hl hd

theorem SameSigns.general {h h' : Hull ℝ} (hs : SameSigns h h') (hg : General h.points) : General h'.points := by
  refine ⟨by rw [hs.1]; exact hg.four, fun i j k l hi hj hk hl hd hc => ?_⟩
  rw [hs.1] at hi hj hk hl
  have h1 := hs.2 i j k l hi hj hk hl hd
  have h2 : h'.vol i j k l = 0 := coplanar_iff.mp hc
  rw [h2, mul_zero] at h1
  exact lt_irrefl _ h1

theorem SameSigns.facet {h h' : Hull ℝ} (hs : SameSigns h h') {i j k : Nat} (hf : h.Facet i j k) : h'.Facet i j k := by
  have e := hs.1
  refine ⟨by rw [e]; exact hf.i_lt, by rw [e]; exact hf.j_lt, by rw [e]; exact hf.k_lt, hf.ij, hf.ik, hf.jk, hf.oneSide.imp ?_ ?_⟩
  · intro ho l hl l1 l2 l3
    rw [e] at hl
    have h1 := hs.2 i j k l hf.i_lt hf.j_lt hf.k_lt hl ⟨hf.ij, hf.ik, l1.symm, hf.jk, l2.symm, l3.symm⟩
    exact (pos_iff_pos_of_mul_pos h1).mp (ho l hl l1 l2 l3)
  · intro ho l hl l1 l2 l3
    rw [e] at hl
    have h1 := hs.2 i j k l hf.i_lt hf.j_lt hf.k_lt hl ⟨hf.ij, hf.ik, l1.symm, hf.jk, l2.symm, l3.symm⟩
    exact (neg_iff_neg_of_mul_pos h1).mp (ho l hl l1 l2 l3)

/-- the contract of the hull library for one of two sets of points that lie alike, from that for the other -/
theorem SameSigns.isHull {h h' : Hull ℝ} (hs : SameSigns h h') (hg : General h.points) (hh : h.IsHull) (e : h' = { h with points := h'.points }) : h'.IsHull := by
  refine Hull.Net.isHull ?_ (hs.general hg)
  have hn := hh.net hg
  have ev : h'.vertices = h.vertices := by rw [e]
  have es : h'.simplices = h.simplices := by rw [e]
  have en : h'.neighbors = h.neighbors := by rw [e]
  constructor
  · rw [ev, hs.1]; exact hn.vertexIndex
  · rw [ev, es]; exact hn.cornerVertex
  · rw [es]; exact fun s hs' => hs.facet (hn.facet s hs')
  · rw [es]; exact fun i j k hf => hn.all i j k (hs.symm.facet hf)
  · rw [es]; exact hn.once
  · rw [es, en]; exact hn.rows
  · rw [es, en]; exact hn.neighbor
  · rw [es]; exact hn.side

/-- **C103** The triangulations of points in general position: there is an `ε` such that, when the points are moved by at most `ε`, they remain in general
position, and what is a triangulated hull of the moved points (indices of corners, of simplices and of neighbours) is one of the points, and conversely. -/
theorem C103_stable {pts : List (V3 ℝ)} (hg : General pts) : ∃ ε, 0 < ε ∧ ∀ pts', List.Forall₂ (NearV ε) pts' pts → General pts' ∧
    ∀ h : Hull ℝ, Hull.IsHull { h with points := pts' } ↔ Hull.IsHull { h with points := pts } := by
  obtain ⟨ε, e0, he⟩ := signs_near (h := ⟨pts, [], [], []⟩) hg
  refine ⟨ε, e0, fun pts' hn => ?_⟩
  have h0 := he ⟨pts', [], [], []⟩ hn
  refine ⟨h0.general hg, fun h => ?_⟩
  have h1 : SameSigns { h with points := pts } { h with points := pts' } := h0
  exact ⟨fun hh => h1.symm.isHull (h0.general hg) hh rfl, fun hh => h1.isHull hg hh rfl⟩

/-- **C103** The triangulations of firm points, as those of a prism, where four points are in a plane: there is an `ε` such that, when the points are moved by at most `ε`, what is
a triangulated hull of the moved points is one of the points.  (The converse is not true: moved points of a square face have only one of its two triangulations.) -/
theorem C103_firm {pts : List (V3 ℝ)} (hf : Firm pts) : ∃ ε, 0 < ε ∧ ∀ h : Hull ℝ, List.Forall₂ (NearV ε) h.points pts → h.IsHull →
    Hull.IsHull { h with points := pts } := by
  obtain ⟨ε, e0, he⟩ := eventually_close.mp (close_isHull hf)
  exact ⟨ε, e0, he⟩

/-! ### All triangulations of the same points -/

/-- no index twice -/
def Hull.Tidy (h : Hull ℝ) : Prop := h.vertices.Nodup ∧ ∀ nb ∈ h.neighbors, nb.Nodup

theorem finite_lists {α : Type} {S : Set α} (hS : S.Finite) (N : Nat) : {l : List α | l.length ≤ N ∧ ∀ x ∈ l, x ∈ S}.Finite := by
  have := hS.to_subtype
  refine ((List.finite_length_le S N).image (List.map Subtype.val)).subset ?_
  rintro l ⟨h1, h2⟩
  exact ⟨l.attach.map fun x => ⟨x.1, h2 x.1 x.2⟩, by simpa using h1, by simp [List.map_map, Function.comp_def]⟩

theorem finite_nodup {α : Type} {S : Set α} (hS : S.Finite) : {l : List α | l.Nodup ∧ ∀ x ∈ l, x ∈ S}.Finite := by
  classical
  refine (finite_lists hS hS.toFinset.card).subset ?_
  rintro l ⟨h1, h2⟩
  refine ⟨?_, h2⟩
  rw [← List.toFinset_card_of_nodup h1]
  exact Finset.card_le_card fun x hx => hS.mem_toFinset.mpr (h2 x (List.mem_toFinset.mp hx))

theorem simplices_nodup {h : Hull ℝ} (hh : h.IsHull) : h.simplices.Nodup := by
  rw [List.nodup_iff_getElem?_ne_getElem?]
  intro i j hij hj e
  have hi : i < h.simplices.length := by omega
  have h1 := List.getElem?_eq_getElem hi
  have h2 := e.symm.trans h1
  exact Set.disjoint_left.mp (hh.disjoint i j _ _ h1 h2 (by omega)) (Hull.centre_otri _ _ _) (Hull.centre_otri _ _ _)

theorem finite_hulls (pts : List (V3 ℝ)) : {h : Hull ℝ | h.points = pts ∧ h.IsHull ∧ h.Tidy}.Finite := by
  set n := pts.length
  have hI : {i : Nat | i < n}.Finite := Set.finite_lt_nat n
  have hV := finite_nodup hI
  have hT : {s : Nat × Nat × Nat | s.1 < n ∧ s.2.1 < n ∧ s.2.2 < n}.Finite := by
    refine (hI.prod (hI.prod hI)).subset ?_
    rintro ⟨a, b, c⟩ ⟨h1, h2, h3⟩
    exact ⟨h1, h2, h3⟩
  have hS := finite_nodup hT
  have hM := finite_nodup (Set.finite_lt_nat hT.toFinset.card)
  have hN := finite_lists hM hT.toFinset.card
  refine (((hV.prod (hS.prod hN))).image fun x => (⟨pts, x.1, x.2.1, x.2.2⟩ : Hull ℝ)).subset ?_
  rintro ⟨p, v, s, nb⟩ ⟨rfl, hh, ht⟩
  have hs := simplices_nodup hh
  have hsT : ∀ x ∈ s, x ∈ {s : Nat × Nat × Nat | s.1 < n ∧ s.2.1 < n ∧ s.2.2 < n} := fun x hx =>
    ⟨hh.cornerIndex x hx _ (.inl rfl), hh.cornerIndex x hx _ (.inr (.inl rfl)), hh.cornerIndex x hx _ (.inr (.inr rfl))⟩
  have hlen : s.length ≤ hT.toFinset.card := by
    classical
    rw [← List.toFinset_card_of_nodup hs]
    exact Finset.card_le_card fun x hx => hT.mem_toFinset.mpr (hsT x (List.mem_toFinset.mp hx))
  have hrows : nb.length = s.length := hh.rows
  refine ⟨⟨v, s, nb⟩, ⟨⟨ht.1, hh.vertexIndex⟩, ⟨hs, hsT⟩, by rw [hrows]; exact hlen, fun r hr => ⟨ht.2 r hr, fun m hm => ?_⟩⟩, rfl⟩
  obtain ⟨k, hk⟩ := List.getElem?_of_mem hr
  have hk' : k < s.length := by rw [← hrows]; exact (List.getElem?_eq_some_iff.mp hk).1
  obtain ⟨-, t, h1, -⟩ := (hh.neighbor k _ r (List.getElem?_eq_getElem hk') hk m).mp hm
  exact lt_of_lt_of_le (List.getElem?_eq_some_iff.mp h1).1 hlen

/-! ### What is required of a station does not depend on the triangulation -/

theorem corners_ind {R : Nat → Nat → Nat → Prop} (rot : ∀ {i j k}, R i j k → R j k i) (swap : ∀ {i j k}, R i j k → R i k j) {i j k a b c : Nat}
    (hf : R i j k) (hc : ∀ x, Corner (a, b, c) x ↔ Corner (i, j, k) x) (hab : a ≠ b) (hac : a ≠ c) (hbc : b ≠ c) : R a b c := by
  have ha := (hc a).mp (Or.inl rfl)
  have hb := (hc b).mp (Or.inr (Or.inl rfl))
  have hd := (hc c).mp (Or.inr (Or.inr rfl))
  simp only [Corner] at ha hb hd
  rcases ha with rfl | rfl | rfl <;> rcases hb with rfl | rfl | rfl <;> rcases hd with rfl | rfl | rfl <;>
    first
    | exact absurd rfl hab
    | exact absurd rfl hac
    | exact absurd rfl hbc
    | exact hf
    | exact rot hf
    | exact rot (rot hf)
    | exact swap hf
    | exact rot (swap hf)
    | exact rot (rot (swap hf))

theorem same_plane {h h' : Hull ℝ} (e : h'.points = h.points) {t t' : Nat × Nat × Nat} (hc : ∀ x, Corner t' x ↔ Corner t x) (h1 : t'.1 ≠ t'.2.1) (h2 : t'.1 ≠ t'.2.2)
    (h3 : t'.2.1 ≠ t'.2.2) (s : V3 ℝ) :
    |rdot (cross ((h'.pt t'.2.1).sub (h'.pt t'.1)) ((h'.pt t'.2.2).sub (h'.pt t'.1))) ((h'.pt t'.1).sub s)| =
      |rdot (cross ((h.pt t.2.1).sub (h.pt t.1)) ((h.pt t.2.2).sub (h.pt t.1))) ((h.pt t.1).sub s)| ∧
    vlen (cross ((h'.pt t'.2.1).sub (h'.pt t'.1)) ((h'.pt t'.2.2).sub (h'.pt t'.1))) = vlen (cross ((h.pt t.2.1).sub (h.pt t.1)) ((h.pt t.2.2).sub (h.pt t.1))) := by
  have ep : ∀ i, h'.pt i = h.pt i := fun i => by unfold Hull.pt; rw [e]
  simp only [ep]
  refine corners_ind (R := fun a b c => |rdot (triNormal (h.pt a) (h.pt b) (h.pt c)) ((h.pt a).sub s)| =
      |rdot (triNormal (h.pt t.1) (h.pt t.2.1) (h.pt t.2.2)) ((h.pt t.1).sub s)| ∧
    vlen (triNormal (h.pt a) (h.pt b) (h.pt c)) = vlen (triNormal (h.pt t.1) (h.pt t.2.1) (h.pt t.2.2))) ?_ ?_ ⟨rfl, rfl⟩ hc h1 h2 h3
  · rintro i j k ⟨h1, h2⟩
    rw [← triNormal_rot, ← h1, h2]
    refine ⟨?_, rfl⟩
    congr 1
    simp only [triNormal, rdot, cross_x, cross_y, cross_z, sub_x, sub_y, sub_z]
    ring
  · rintro i j k ⟨h1, h2⟩
    have e : triNormal (h.pt i) (h.pt k) (h.pt j) = (triNormal (h.pt i) (h.pt j) (h.pt k)).neg := cross_neg_swap _ _
    rw [e, neg_rdot, abs_neg, h1, ← h2]
    refine ⟨rfl, ?_⟩
    unfold vlen
    rw [neg_rdot, rdot_neg, neg_neg]

/-- two triangulations of points in general position have the same triangles -/
theorem same_simplices {h h' : Hull ℝ} (hh : h.IsHull) (hh' : h'.IsHull) (e : h'.points = h.points) (hg : General h.points) {t' : Nat × Nat × Nat}
    (ht : t' ∈ h'.simplices) : ∃ t ∈ h.simplices, ∀ x, Corner t' x ↔ Corner t x := by
  have hf := hh'.facet (by rw [e]; exact hg) ht
  have hs : SameSigns h' h := by
    refine ⟨by rw [e], fun i j k l hi hj hk hl hd => ?_⟩
    have ev : h.vol i j k l = h'.vol i j k l := by unfold Hull.vol Hull.pt; rw [e]
    rw [ev]
    exact mul_self_pos.mpr (Hull.vol_ne (by rw [e]; exact hg) hi hj hk hl hd)
  obtain ⟨t, ht', hc⟩ := (hh.net hg).all _ _ _ (hs.facet hf)
  exact ⟨t, ht', fun x => (hc x).symm⟩

theorem decided_any {h h' : Hull ℝ} (hh : h.IsHull) (hh' : h'.IsHull) (e : h'.points = h.points) (hg : General h.points) {s : V3 ℝ} (hs : h.Decided s) :
    h'.Decided s := by
  have ep : ∀ i, h'.pt i = h.pt i := fun i => by unfold Hull.pt; rw [e]
  refine ⟨fun t' ht i hi => ?_, fun t' ht => ?_, fun t' ht i j hi hj hij => ?_⟩ <;> obtain ⟨t, ht', hc⟩ := same_simplices hh hh' e hg ht
  · rw [ep]; exact hs.corners t ht' i ((hc i).mp hi)
  · have hf := hh'.facet (by rw [e]; exact hg) ht
    obtain ⟨k1, k2⟩ := same_plane e hc hf.ij hf.ik hf.jk s
    rw [k1, k2]
    exact hs.planes t ht'
  · rw [ep, ep]; exact hs.edges t ht' i j ((hc i).mp hi) ((hc j).mp hj) hij

theorem regular_any {h h' : Hull ℝ} (hh : h.IsHull) (hh' : h'.IsHull) (e : h'.points = h.points) (hg : General h.points) {s : V3 ℝ} (hs : h.Regular s) :
    h'.Regular s := by
  have ep : ∀ i, h'.pt i = h.pt i := fun i => by unfold Hull.pt; rw [e]
  intro t' ht
  obtain ⟨t, ht', hc⟩ := same_simplices hh hh' e hg ht
  have hf := hh'.facet (by rw [e]; exact hg) ht
  obtain ⟨k1, k2⟩ := same_plane e hc hf.ij hf.ik hf.jk s
  rw [← abs_eq_zero, k1, k2, abs_eq_zero]
  refine (hs t ht').imp id fun hr => ⟨hr.1, fun i j hi hj hij => ?_⟩
  rw [ep, ep]
  exact hr.2 i j ((hc i).mp hi) ((hc j).mp hj) hij

/-! ### The theorems -/

theorem near_rounded {rnd : ℝ → ℝ} {δ K M : ℝ} (hδ : 0 ≤ δ) (hM : 1 ≤ M) (hMK : M ≤ K) (hr : ∀ a, |a| ≤ K → |rnd a - a| ≤ δ * max 1 |a|) {l : List (V3 ℝ)}
    (hl : ∀ p ∈ l, |p.x| ≤ M ∧ |p.y| ≤ M ∧ |p.z| ≤ M) : List.Forall₂ (NearV (δ * M)) (l.map (V3.rounded rnd)) l := by
  have h1 : ∀ a, |a| ≤ M → |rnd a - a| ≤ δ * M := fun a ha => (hr a (ha.trans hMK)).trans (mul_le_mul_of_nonneg_left (max_le hM ha) hδ)
  induction l with
  | nil => exact .nil
  | cons p l ih =>
    refine .cons ?_ (ih fun q hq => hl q (by simp [hq]))
    obtain ⟨a, b, c⟩ := hl p (by simp)
    exact ⟨h1 _ a, h1 _ b, h1 _ c⟩

theorem exists_bound (l : List (V3 ℝ)) : ∃ M : ℝ, 1 ≤ M ∧ ∀ p ∈ l, |p.x| ≤ M ∧ |p.y| ≤ M ∧ |p.z| ≤ M := by
  induction l with
  | nil => exact ⟨1, le_rfl, by simp⟩
  | cons p l ih =>
    obtain ⟨M, h1, h2⟩ := ih
    refine ⟨M + |p.x| + |p.y| + |p.z|, by linarith [abs_nonneg p.x, abs_nonneg p.y, abs_nonneg p.z], fun q hq => ?_⟩
    have a := abs_nonneg p.x
    have b := abs_nonneg p.y
    have c := abs_nonneg p.z
    rcases List.mem_cons.mp hq with rfl | hq
    · exact ⟨by linarith, by linarith, by linarith⟩
    · obtain ⟨x, y, z⟩ := h2 q hq
      exact ⟨by linarith, by linarith, by linarith⟩

/-- rounded points are triangulated like the points -/
theorem hull_of_rounded {pts : List (V3 ℝ)} (hf : Firm pts) : ∃ K, 0 < K ∧ ∀ (rnd : ℝ → ℝ) (δ : ℝ), 0 < δ → δ ≤ 1 / K →
    (∀ a, |a| ≤ K → |rnd a - a| ≤ δ * max 1 |a|) → ∀ h : Hull ℝ, h.points = pts.map (V3.rounded rnd) → h.IsHull → Hull.IsHull { h with points := pts } := by
  obtain ⟨ε, e0, he⟩ := C103_firm hf
  obtain ⟨M, h1, h2⟩ := exists_bound pts
  have hM : 0 < M := by linarith
  refine ⟨max M (M / ε), lt_max_of_lt_left hM, fun rnd δ hδ hδK hr h hp hh => ?_⟩
  have hK : 0 < max M (M / ε) := lt_max_of_lt_left hM
  have hn := near_rounded hδ.le h1 (le_max_left M (M / ε)) hr h2
  have hle : δ * M ≤ ε := by
    rw [le_div_iff₀ hK] at hδK
    have h3 : δ * (M / ε) ≤ 1 := (mul_le_mul_of_nonneg_left (le_max_right _ _) hδ.le).trans hδK
    rw [← mul_div_assoc, div_le_one e0] at h3
    exact h3
  have hn' : List.Forall₂ (NearV ε) (pts.map (V3.rounded rnd)) pts := hn.imp fun a b hab => hab.mono hle
  exact he h (by rw [hp]; exact hn') hh

/-- **C103** Floating point, with any hull library: let the points of a body be firm, and the station regular and no comparison a tie, for all triangulations of the points.  The points, the station,
the density and the constant are rounded with the unit roundoff `δ ≤ 1 / K`, the hull library triangulates the rounded points in any way, and all operations are rounded.
The polyhedron is built and what is returned is within `K δ` of `1e5 Gc ρ` times the attraction of the exact body at the exact station. -/
theorem C103_newton {pts : List (V3 ℝ)} (hf : Firm pts) {s : V3 ℝ} (hs : ∀ h : Hull ℝ, h.points = pts → h.IsHull → h.Decided s ∧ h.Regular s) (ρ Gc : ℝ) :
    ∃ K, 0 < K ∧ ∀ (rnd : ℝ → ℝ) (δ : ℝ), 0 < δ → δ ≤ 1 / K → (∀ a, |a| ≤ K → |rnd a - a| ≤ δ * max 1 |a|) → ∀ (h' : Hull ℝ) (inHull' : V3 ℝ → Bool),
      h'.points = pts.map (V3.rounded rnd) → h'.IsHull → h'.Tidy → ∃ p' G' T',
      @mkPoly ℝ (roundArith rnd) h' inHull' = .ok p' ∧
      @Call.onNew ℝ (roundArith rnd) p' ⟨s.rounded rnd, rnd ρ, rnd Gc, false⟩ = .ok (G', T') ∧
      |G'.x - 100000 * Gc * ρ * (attraction (convexHull ℝ {q | ∃ p ∈ pts, q = p.toP}) s).x| ≤ K * δ ∧ |G'.y - 100000 * Gc * ρ * (attraction (convexHull ℝ {q | ∃ p ∈ pts, q = p.toP}) s).y| ≤ K * δ ∧
      |G'.z - 100000 * Gc * ρ * (attraction (convexHull ℝ {q | ∃ p ∈ pts, q = p.toP}) s).z| ≤ K * δ := by
  obtain ⟨K0, hK0, k0⟩ := hull_of_rounded hf
  have hfin := finite_hulls pts
  have key : ∀ H ∈ {H : Hull ℝ | H.points = pts ∧ H.IsHull ∧ H.Tidy}, ∃ K, 0 < K ∧ ∀ (rnd : ℝ → ℝ) (δ : ℝ), 0 < δ → δ ≤ 1 / K →
      (∀ a, |a| ≤ K → |rnd a - a| ≤ δ * max 1 |a|) → ∀ inHull' : V3 ℝ → Bool, ∃ p' G' T',
      @mkPoly ℝ (roundArith rnd) { H with points := H.points.map (V3.rounded rnd) } inHull' = .ok p' ∧
      @Call.onNew ℝ (roundArith rnd) p' ⟨s.rounded rnd, rnd ρ, rnd Gc, false⟩ = .ok (G', T') ∧
      |G'.x - 100000 * Gc * ρ * (attraction (convexHull ℝ {q | ∃ p ∈ pts, q = p.toP}) s).x| ≤ K * δ ∧ |G'.y - 100000 * Gc * ρ * (attraction (convexHull ℝ {q | ∃ p ∈ pts, q = p.toP}) s).y| ≤ K * δ ∧
      |G'.z - 100000 * Gc * ρ * (attraction (convexHull ℝ {q | ∃ p ∈ pts, q = p.toP}) s).z| ≤ K * δ := by
    rintro H ⟨e, hH, -⟩
    have := C101_newton hH (hs H e hH).1 (hs H e hH).2 ρ Gc
    unfold Hull.body at this
    rw [e] at this ⊢
    exact this
  choose! k hk hkey using key
  obtain ⟨K1, hK1⟩ := (hfin.image k).bddAbove
  refine ⟨max K0 K1, lt_max_of_lt_left hK0, fun rnd δ hδ hδK hr h' inHull' hp hh' ht => ?_⟩
  have hKpos : 0 < max K0 K1 := lt_max_of_lt_left hK0
  have hH : { h' with points := pts } ∈ {H : Hull ℝ | H.points = pts ∧ H.IsHull ∧ H.Tidy} :=
    ⟨rfl, k0 rnd δ hδ (hδK.trans (one_div_le_one_div_of_le hK0 (le_max_left _ _))) (fun a ha => hr a (ha.trans (le_max_left _ _))) h' hp hh', ht⟩
  have hle : k { h' with points := pts } ≤ max K0 K1 := (hK1 ⟨_, hH, rfl⟩).trans (le_max_right _ _)
  obtain ⟨p', G', T', j1, j2, j3, j4, j5⟩ := hkey _ hH rnd δ hδ (hδK.trans (one_div_le_one_div_of_le (hk _ hH) hle)) (fun a ha => hr a (ha.trans hle)) inHull'
  have e' : { ({ h' with points := pts } : Hull ℝ) with points := pts.map (V3.rounded rnd) } = h' := by
    rw [← hp]
  have hm := mul_le_mul_of_nonneg_right hle hδ.le
  refine ⟨p', G', T', ?_, j2, j3.trans hm, j4.trans hm, j5.trans hm⟩
  rw [← e']
  exact j1

/-- **C103** For points in general position it is enough that the station is regular and without ties for one triangulation. -/
theorem C103_newton_general {h : Hull ℝ} (hh : h.IsHull) (hg : General h.points) {s : V3 ℝ} (hs : h.Decided s) (hr : h.Regular s) (ρ Gc : ℝ) :
    ∃ K, 0 < K ∧ ∀ (rnd : ℝ → ℝ) (δ : ℝ), 0 < δ → δ ≤ 1 / K → (∀ a, |a| ≤ K → |rnd a - a| ≤ δ * max 1 |a|) → ∀ (h' : Hull ℝ) (inHull' : V3 ℝ → Bool),
      h'.points = h.points.map (V3.rounded rnd) → h'.IsHull → h'.Tidy → ∃ p' G' T',
      @mkPoly ℝ (roundArith rnd) h' inHull' = .ok p' ∧
      @Call.onNew ℝ (roundArith rnd) p' ⟨s.rounded rnd, rnd ρ, rnd Gc, false⟩ = .ok (G', T') ∧
      |G'.x - 100000 * Gc * ρ * (attraction h.body s).x| ≤ K * δ ∧ |G'.y - 100000 * Gc * ρ * (attraction h.body s).y| ≤ K * δ ∧
      |G'.z - 100000 * Gc * ρ * (attraction h.body s).z| ≤ K * δ :=
  C103_newton hg.firm (fun _ e hH => ⟨decided_any hh hH e hg hs, regular_any hh hH e hg hr⟩) ρ Gc

/-- the points of the bodies, as an index type -/
abbrev Rows (ms : List (Mass ℝ)) : Type := {pts : List (V3 ℝ) // ∃ m ∈ ms, m.dataset.coords.rows = pts}

theorem rows_finite (ms : List (Mass ℝ)) : Finite (Rows ms) := by
  have : {pts : List (V3 ℝ) | ∃ m ∈ ms, m.dataset.coords.rows = pts}.Finite := by
    refine ((List.finite_toSet ms).image fun m => m.dataset.coords.rows).subset ?_
    rintro pts ⟨m, hm, rfl⟩
    exact ⟨m, hm, rfl⟩
  exact this.to_subtype

/-- a library that returns given hulls of the bodies -/
def pick (ms : List (Mass ℝ)) (c : Rows ms → Hull ℝ) : HullLib ℝ := by
  classical
  exact ⟨fun pts => if h : ∃ m ∈ ms, m.dataset.coords.rows = pts then .ok (c ⟨pts, h⟩) else .error .runtimeError, fun _ _ => true⟩

theorem pick_eq {ms : List (Mass ℝ)} (c : Rows ms → Hull ℝ) {m : Mass ℝ} (hm : m ∈ ms) : (pick ms c).convexHull m.dataset.coords.rows = .ok (c ⟨_, m, hm, rfl⟩) := by
  unfold pick
  exact dif_pos ⟨m, hm, rfl⟩

theorem pick_honest {ms : List (Mass ℝ)} {c : Rows ms → Hull ℝ} (hc : ∀ r : Rows ms, (c r).points = r.1 ∧ (c r).IsHull) : (pick ms c).Honest := by
  intro pts h hh
  unfold pick at hh
  simp only at hh
  split at hh
  · cases hh
    exact hc _
  · cases hh

/-- **C103** `geec run` in floating point, with any hull library.  A plain configuration has bodies of equal density and constant, with firm points, and
observation points that are regular and where no comparison is a tie, for all triangulations of the points.  All its numbers are rounded on reading and all operations are rounded, with the unit roundoff
`δ ≤ 1 / K`; the hull library returns for the rounded points of every body some triangulated hull.  Then the run returns a table, whose line of the i-th point holds its
rounded coordinates and, to within `K δ`, `1e5 Gc ρ` times the attraction at the point as written of the solids spanned by the points as written. -/
theorem C103_run (g : Geodesy ℝ) (o : Outside ℝ) (cfg : View ℝ) (l : List (View ℝ)) (hcfg : PlainConfig cfg l)
    (hshow : configShow cfg = .ok ()) (ms : List (Mass ℝ)) (hms : getMasses g o cfg = .ok ms) (hne : ms ≠ []) (ob : Observer ℝ)
    (hob : getObserver g o cfg = .ok ob) (hne' : ob.dataset.coords.rows ≠ []) (ρ Gc : ℝ) (hρ : ∀ m ∈ ms, m.density = ρ ∧ m.gravityConstant = Gc)
    (hf : ∀ m ∈ ms, Firm m.dataset.coords.rows)
    (hd : ∀ m ∈ ms, ∀ h : Hull ℝ, h.points = m.dataset.coords.rows → h.IsHull → ∀ p ∈ ob.dataset.coords.rows, h.Decided p ∧ h.Regular p) :
    ∃ K, 0 < K ∧ ∀ (rnd : ℝ → ℝ) (δ : ℝ), 0 < δ → δ ≤ 1 / K → (∀ a, |a| ≤ K → |rnd a - a| ≤ δ * max 1 |a|) → ∀ lib : HullLib ℝ,
      (∀ m ∈ ms, ∃ H, lib.convexHull (m.dataset.coords.rows.map (V3.rounded rnd)) = .ok H ∧ H.points = m.dataset.coords.rows.map (V3.rounded rnd) ∧
        H.IsHull ∧ H.Tidy) →
      ∃ t, @runTable ℝ (roundArith rnd) g (o.mapNum rnd) lib (cfg.mapNum rnd) false = .ok t ∧ t.rows.length = ob.dataset.coords.rows.length ∧
      ∀ (i : Nat) (p : V3 ℝ), ob.dataset.coords.rows[i]? = some p →
        ∃ G : V3 ℝ, (t.rows[i]?).map (List.take 6) = some [rnd p.x, rnd p.y, rnd p.z, G.x, G.y, G.z] ∧
        |G.x - 100000 * Gc * ρ * sumOver ms (fun B => (attraction B p).x)| ≤ K * δ ∧
        |G.y - 100000 * Gc * ρ * sumOver ms (fun B => (attraction B p).y)| ≤ K * δ ∧
        |G.z - 100000 * Gc * ρ * sumOver ms (fun B => (attraction B p).z)| ≤ K * δ := by
  have := rows_finite ms
  have hgr : ∀ r : Rows ms, Firm r.1 := by
    rintro ⟨_, m, hm, rfl⟩
    exact hf m hm
  -- rounded points are triangulated like the points
  choose k0 k0pos k0key using fun r : Rows ms => hull_of_rounded (hgr r)
  obtain ⟨K0, hK0⟩ := (Set.finite_range k0).bddAbove
  -- the choices of a triangulation for every body
  let C : Rows ms → Set (Hull ℝ) := fun r => {h : Hull ℝ | h.points = r.1 ∧ h.IsHull ∧ h.Tidy}
  have hfin : ({c : Rows ms → Hull ℝ | ∀ r, c r ∈ C r}).Finite := Set.Finite.pi' fun r => finite_hulls r.1
  have key : ∀ c ∈ {c : Rows ms → Hull ℝ | ∀ r, c r ∈ C r}, ∃ K, 0 < K ∧ ∀ (rnd : ℝ → ℝ) (δ : ℝ), 0 < δ → δ ≤ 1 / K →
      (∀ a, |a| ≤ K → |rnd a - a| ≤ δ * max 1 |a|) → ∀ lib' : HullLib ℝ,
      (∀ m ∈ ms, ∀ H, (pick ms c).convexHull m.dataset.coords.rows = .ok H →
        lib'.convexHull (m.dataset.coords.rows.map (V3.rounded rnd)) = .ok { H with points := H.points.map (V3.rounded rnd) }) →
      ∃ t, @runTable ℝ (roundArith rnd) g (o.mapNum rnd) lib' (cfg.mapNum rnd) false = .ok t ∧ t.rows.length = ob.dataset.coords.rows.length ∧
      ∀ (i : Nat) (p : V3 ℝ), ob.dataset.coords.rows[i]? = some p →
        ∃ G : V3 ℝ, (t.rows[i]?).map (List.take 6) = some [rnd p.x, rnd p.y, rnd p.z, G.x, G.y, G.z] ∧
        |G.x - 100000 * Gc * ρ * sumOver ms (fun B => (attraction B p).x)| ≤ K * δ ∧
        |G.y - 100000 * Gc * ρ * sumOver ms (fun B => (attraction B p).y)| ≤ K * δ ∧
        |G.z - 100000 * Gc * ρ * sumOver ms (fun B => (attraction B p).z)| ≤ K * δ := by
    intro c hc
    refine C101_run_newton g o (pick ms c) (pick_honest fun r => ⟨(hc r).1, (hc r).2.1⟩) cfg l hcfg hshow ms hms hne ob hob hne'
      (fun m hm => ⟨_, pick_eq c hm⟩) ρ Gc hρ fun p hp => ⟨fun m hm H hH => ?_, fun m hm H hH => ?_⟩ <;>
    · rw [pick_eq c hm] at hH
      cases hH
      have hc' := hc ⟨_, m, hm, rfl⟩
      have hdr := hd m hm _ hc'.1 hc'.2.1 p hp
      first
      | exact hdr.1
      | exact hdr.2
  choose! k hk hkey using key
  obtain ⟨K1, hK1⟩ := (hfin.image k).bddAbove
  have hKpos : 0 < max 1 (max K0 K1) := lt_max_of_lt_left one_pos
  refine ⟨max 1 (max K0 K1), hKpos, fun rnd δ hδ hδK hr lib hl => ?_⟩
  have hl' : ∀ r : Rows ms, ∃ H, lib.convexHull (r.1.map (V3.rounded rnd)) = .ok H ∧ H.points = r.1.map (V3.rounded rnd) ∧ H.IsHull ∧ H.Tidy := by
    rintro ⟨_, m, hm, rfl⟩
    exact hl m hm
  choose H H1 H2 H3 H4 using hl'
  let c : Rows ms → Hull ℝ := fun r => { H r with points := r.1 }
  have hc : c ∈ {c : Rows ms → Hull ℝ | ∀ r, c r ∈ C r} := by
    intro r
    have hle : k0 r ≤ max 1 (max K0 K1) := (hK0 ⟨r, rfl⟩).trans ((le_max_left _ _).trans (le_max_right _ _))
    exact ⟨rfl, k0key r rnd δ hδ (hδK.trans (one_div_le_one_div_of_le (k0pos r) hle)) (fun a ha => hr a (ha.trans hle)) (H r) (H2 r) (H3 r), H4 r⟩
  have hle : k c ≤ max 1 (max K0 K1) := (hK1 ⟨_, hc, rfl⟩).trans ((le_max_right _ _).trans (le_max_right _ _))
  have hm := mul_le_mul_of_nonneg_right hle hδ.le
  obtain ⟨t, j1, j2, j3⟩ := hkey c hc rnd δ hδ (hδK.trans (one_div_le_one_div_of_le (hk _ hc) hle)) (fun a ha => hr a (ha.trans hle)) lib (by
    intro m hm H' hH'
    rw [pick_eq c hm] at hH'
    cases hH'
    rw [H1 ⟨_, m, hm, rfl⟩]
    have e : ({ H ⟨_, m, hm, rfl⟩ with points := m.dataset.coords.rows.map (V3.rounded rnd) } : Hull ℝ) = H ⟨_, m, hm, rfl⟩ := by
      rw [← H2 ⟨_, m, hm, rfl⟩]
    exact congrArg Except.ok e.symm)
  refine ⟨t, j1, j2, fun i p hi => ?_⟩
  obtain ⟨G, g1, g2, g3, g4⟩ := j3 i p hi
  exact ⟨G, g1, g2.trans hm, g3.trans hm, g4.trans hm⟩

/-- **C103** For bodies with points in general position it is enough that the observation points are regular and without ties for one triangulation of each. -/
theorem C103_run_general (g : Geodesy ℝ) (o : Outside ℝ) (cfg : View ℝ) (l : List (View ℝ)) (hcfg : PlainConfig cfg l)
    (hshow : configShow cfg = .ok ()) (ms : List (Mass ℝ)) (hms : getMasses g o cfg = .ok ms) (hne : ms ≠ []) (ob : Observer ℝ)
    (hob : getObserver g o cfg = .ok ob) (hne' : ob.dataset.coords.rows ≠ []) (ρ Gc : ℝ) (hρ : ∀ m ∈ ms, m.density = ρ ∧ m.gravityConstant = Gc)
    (hg : ∀ m ∈ ms, General m.dataset.coords.rows)
    (hd : ∀ m ∈ ms, ∃ h : Hull ℝ, h.points = m.dataset.coords.rows ∧ h.IsHull ∧ ∀ p ∈ ob.dataset.coords.rows, h.Decided p ∧ h.Regular p) :
    ∃ K, 0 < K ∧ ∀ (rnd : ℝ → ℝ) (δ : ℝ), 0 < δ → δ ≤ 1 / K → (∀ a, |a| ≤ K → |rnd a - a| ≤ δ * max 1 |a|) → ∀ lib : HullLib ℝ,
      (∀ m ∈ ms, ∃ H, lib.convexHull (m.dataset.coords.rows.map (V3.rounded rnd)) = .ok H ∧ H.points = m.dataset.coords.rows.map (V3.rounded rnd) ∧
        H.IsHull ∧ H.Tidy) →
      ∃ t, @runTable ℝ (roundArith rnd) g (o.mapNum rnd) lib (cfg.mapNum rnd) false = .ok t ∧ t.rows.length = ob.dataset.coords.rows.length ∧
      ∀ (i : Nat) (p : V3 ℝ), ob.dataset.coords.rows[i]? = some p →
        ∃ G : V3 ℝ, (t.rows[i]?).map (List.take 6) = some [rnd p.x, rnd p.y, rnd p.z, G.x, G.y, G.z] ∧
        |G.x - 100000 * Gc * ρ * sumOver ms (fun B => (attraction B p).x)| ≤ K * δ ∧
        |G.y - 100000 * Gc * ρ * sumOver ms (fun B => (attraction B p).y)| ≤ K * δ ∧
        |G.z - 100000 * Gc * ρ * sumOver ms (fun B => (attraction B p).z)| ≤ K * δ :=
  C103_run g o cfg l hcfg hshow ms hms hne ob hob hne' ρ Gc hρ (fun m hm => (hg m hm).firm) fun m hm H e hH p hp => by
    obtain ⟨h, e', hh, hdr⟩ := hd m hm
    have hg' : General h.points := by rw [e']; exact hg m hm
    exact ⟨decided_any hh hH (e.trans e'.symm) hg' (hdr p hp).1, regular_any hh hH (e.trans e'.symm) hg' (hdr p hp).2⟩

end
end Geec
