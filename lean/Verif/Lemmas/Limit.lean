import Verif.Lemmas.Net
import Verif.Spec.Setting
import Mathlib.Analysis.Convex.Topology
import Mathlib.Analysis.Normed.Module.Convex
import Mathlib.Topology.Connected.Clopen
import Mathlib.Data.List.GetD
/-
Triangulated hulls of points that are moved a little: for firm points they are triangulated hulls of the points.
-/
namespace Geec
open Filter Pointwise
noncomputable section

/-- hulls whose points are near the given ones -/
def close (pts : List (V3 ℝ)) : Filter (Hull ℝ) := ⨅ ε : {ε : ℝ // 0 < ε}, 𝓟 {h' | List.Forall₂ (NearV ε.1) h'.points pts}

theorem eventually_close {pts : List (V3 ℝ)} {Q : Hull ℝ → Prop} :
    (∀ᶠ h' in close pts, Q h') ↔ ∃ ε, 0 < ε ∧ ∀ h' : Hull ℝ, List.Forall₂ (NearV ε) h'.points pts → Q h' := by
  unfold close
  have hne : Nonempty {ε : ℝ // 0 < ε} := ⟨⟨1, one_pos⟩⟩
  rw [Filter.Eventually, mem_iInf_of_directed]
  · simp only [mem_principal]
    exact ⟨fun ⟨ε, h⟩ => ⟨ε.1, ε.2, h⟩, fun ⟨ε, e0, h⟩ => ⟨⟨ε, e0⟩, h⟩⟩
  · rintro ⟨a, ha⟩ ⟨b, hb⟩
    refine ⟨⟨min a b, lt_min ha hb⟩, ?_, ?_⟩ <;> refine principal_mono.mpr fun h' hh => List.Forall₂.imp (fun x y hxy => ?_) hh
    · exact ⟨hxy.1.trans (min_le_left _ _), hxy.2.1.trans (min_le_left _ _), hxy.2.2.trans (min_le_left _ _)⟩
    · exact ⟨hxy.1.trans (min_le_right _ _), hxy.2.1.trans (min_le_right _ _), hxy.2.2.trans (min_le_right _ _)⟩

/-- the hull with nothing but points -/
abbrev only (pts : List (V3 ℝ)) : Hull ℝ := ⟨pts, [], [], []⟩

theorem close_dist (pts : List (V3 ℝ)) {ε : ℝ} (e0 : 0 < ε) :
    ∀ᶠ h' in close pts, h'.points.length = pts.length ∧ ∀ i, dist (h'.pt i).toP ((only pts).pt i).toP ≤ ε := by
  refine eventually_close.mpr ⟨ε, e0, fun h' hn => ?_⟩
  have hlen := hn.length_eq
  refine ⟨hlen, fun i => ?_⟩
  unfold Hull.pt at3
  by_cases hi : i < pts.length
  · have hi' : i < h'.points.length := by omega
    have h1 : NearV ε h'.points[i] pts[i] := hn.get hi' hi
    rw [List.getD_eq_getElem _ _ hi, List.getD_eq_getElem _ _ hi']
    rw [Prod.dist_eq, Prod.dist_eq]
    exact max_le h1.1 (max_le h1.2.1 h1.2.2)
  · rw [List.getD_eq_default _ _ (by omega), List.getD_eq_default _ _ (by simp only; omega), dist_self]
    exact e0.le

theorem close_length (pts : List (V3 ℝ)) : ∀ᶠ h' in close pts, h'.points.length = pts.length := (close_dist pts one_pos).mono fun _ h => h.1

theorem tendsto_pt (pts : List (V3 ℝ)) (i : Nat) : Tendsto (fun h' : Hull ℝ => (h'.pt i).toP) (close pts) (nhds ((only pts).pt i).toP) := by
  rw [Metric.tendsto_nhds]
  intro ε e0
  exact (close_dist pts (half_pos e0)).mono fun h' hh => (hh.2 i).trans_lt (by linarith)

/-- a continuous function of four points -/
theorem tendsto_vol (pts : List (V3 ℝ)) (i j k l : Nat) : Tendsto (fun h' : Hull ℝ => h'.vol i j k l) (close pts) (nhds ((only pts).vol i j k l)) := by
  have hc : Continuous fun P : P3 × P3 × P3 × P3 => vol (P3.toV P.1) (P3.toV P.2.1) (P3.toV P.2.2.1) (P3.toV P.2.2.2) := by
    unfold vol triNormal rdot cross V3.sub P3.toV
    simp only [r_sub, r_mul]
    fun_prop
  have := (hc.tendsto (((only pts).pt i).toP, ((only pts).pt j).toP, ((only pts).pt k).toP, ((only pts).pt l).toP)).comp
    ((tendsto_pt pts i).prodMk_nhds ((tendsto_pt pts j).prodMk_nhds ((tendsto_pt pts k).prodMk_nhds (tendsto_pt pts l))))
  exact this

/-! ### Convex hulls of moved points -/

/-- moved points span a set that is near -/
theorem near_hull {S T : Set P3} {ε : ℝ} (h : ∀ p ∈ S, ∃ p' ∈ T, dist p p' ≤ ε) {q : P3} (hq : q ∈ convexHull ℝ S) : ∃ q' ∈ convexHull ℝ T, dist q q' ≤ ε := by
  have hc : Convex ℝ (convexHull ℝ T + Metric.closedBall (0 : P3) ε) := (convex_convexHull ℝ T).add (convex_closedBall _ _)
  have h1 : S ⊆ convexHull ℝ T + Metric.closedBall (0 : P3) ε := by
    intro p hp
    obtain ⟨p', hp', hd⟩ := h p hp
    refine ⟨p', subset_convexHull ℝ _ hp', p - p', ?_, by simp⟩
    rw [Metric.mem_closedBall, dist_zero_right, ← dist_eq_norm]
    exact hd
  obtain ⟨q', hq', e, he, rfl⟩ := convexHull_min h1 hc hq
  refine ⟨q', hq', ?_⟩
  rw [Metric.mem_closedBall, dist_zero_right] at he
  simpa [dist_eq_norm] using he

theorem body_near {h h' : Hull ℝ} {ε : ℝ} (hlen : h'.points.length = h.points.length) (hd : ∀ i, dist (h.pt i).toP (h'.pt i).toP ≤ ε) {q : P3} (hq : q ∈ h.body) :
    ∃ q' ∈ h'.body, dist q q' ≤ ε := by
  refine near_hull ?_ hq
  rintro _ ⟨p, hp, rfl⟩
  obtain ⟨i, hi, rfl⟩ := Hull.exists_index hp
  exact ⟨_, ⟨_, Hull.pt_mem (h := h') (i := i) (by omega), rfl⟩, hd i⟩

theorem tri_near {h h' : Hull ℝ} {ε : ℝ} (hd : ∀ i, dist (h.pt i).toP (h'.pt i).toP ≤ ε) (s : Nat × Nat × Nat) {q : P3} (hq : q ∈ h.tri s) :
    ∃ q' ∈ h'.tri s, dist q q' ≤ ε := by
  rw [Hull.tri_eq] at hq
  rw [Hull.tri_eq]
  refine near_hull ?_ hq
  rintro _ ⟨x, hx, rfl⟩
  exact ⟨_, ⟨x, hx, rfl⟩, hd x⟩

/-- the sum of the entries without signs -/
def size1 (n : V3 ℝ) : ℝ := |n.x| + |n.y| + |n.z|

theorem size1_pos {n : V3 ℝ} (n0 : n ≠ V3.zeros) : 0 < size1 n := by
  by_contra hcon
  unfold size1 at hcon
  have a := abs_nonneg n.x
  have b := abs_nonneg n.y
  have c := abs_nonneg n.z
  refine n0 (V3.ext' (abs_eq_zero.mp ?_) (abs_eq_zero.mp ?_) (abs_eq_zero.mp ?_)) <;> linarith

theorem form_dist (n : V3 ℝ) {p q : P3} {ε : ℝ} (h : dist p q ≤ ε) : form n p ≤ form n q + ε * size1 n := by
  rw [Prod.dist_eq, Prod.dist_eq, max_le_iff, max_le_iff, Real.dist_eq, Real.dist_eq, Real.dist_eq] at h
  have key : ∀ a d : ℝ, |d| ≤ ε → a * d ≤ ε * |a| := fun a d hd => by
    calc a * d ≤ |a * d| := le_abs_self _
      _ = |a| * |d| := abs_mul _ _
      _ ≤ |a| * ε := mul_le_mul_of_nonneg_left hd (abs_nonneg a)
      _ = ε * |a| := mul_comm _ _
  have h1 := key n.x _ h.1
  have h2 := key n.y _ h.2.1
  have h3 := key n.z _ h.2.2
  simp only [form, rdot, P3.toV, size1]
  linarith

/-- a point further in the direction of a form -/
theorem exists_ahead (n : V3 ℝ) (q : P3) {r : ℝ} (hr : 0 ≤ r) : ∃ x : P3, dist x q ≤ r ∧ form n x = form n q + r * size1 n := by
  have key : ∀ a : ℝ, ∃ d : ℝ, |d| ≤ r ∧ a * d = r * |a| := by
    intro a
    rcases le_total 0 a with h | h
    · exact ⟨r, (abs_of_nonneg hr).le, by rw [abs_of_nonneg h]; ring⟩
    · exact ⟨-r, by rw [abs_neg, abs_of_nonneg hr], by rw [abs_of_nonpos h]; ring⟩
  obtain ⟨d1, h1, e1⟩ := key n.x
  obtain ⟨d2, h2, e2⟩ := key n.y
  obtain ⟨d3, h3, e3⟩ := key n.z
  refine ⟨(q.1 + d1, q.2.1 + d2, q.2.2 + d3), ?_, ?_⟩
  · rw [Prod.dist_eq, Prod.dist_eq]
    simp only [Real.dist_eq, add_sub_cancel_left]
    exact max_le h1 (max_le h2 h3)
  · simp only [form, rdot, P3.toV, size1]
    linarith

/-! ### A point in the inside stays in the inside -/

theorem close_inside {pts : List (V3 ℝ)} {i : Nat} (hi : ((only pts).pt i).toP ∈ interior (only pts).body) :
    ∀ᶠ h' in close pts, (interior h'.body).Nonempty → (h'.pt i).toP ∉ frontier h'.body := by
  obtain ⟨r, r0, hr⟩ := Metric.isOpen_iff.mp isOpen_interior _ hi
  refine (close_dist pts (ε := r / 8) (by linarith)).mono fun h' ⟨hlen, hd⟩ hs hf => ?_
  obtain ⟨n, n0, hn⟩ := max_of_frontier (Hull.body_convex h') hs hf
  have hL := size1_pos n0
  obtain ⟨x, hx, hfx⟩ := exists_ahead n ((only pts).pt i).toP (r := r / 2) (by linarith)
  have hxb : x ∈ (only pts).body := interior_subset (hr (lt_of_le_of_lt hx (by linarith)))
  obtain ⟨x', hx', hxx⟩ := body_near hlen (fun i => by rw [dist_comm]; exact hd i) hxb
  have h1 := form_dist n hxx
  have h2 := hn x' hx'
  have h3 := form_dist n (hd i)
  rw [hfx] at h1
  nlinarith

/-! ### Corners -/

/-- three different points, each touched by a plane that touches no other one, are not on a line -/
theorem not_collinear {a b c na nb nc : V3 ℝ} (a1 : rdot na b < rdot na a) (a2 : rdot na c < rdot na a) (b1 : rdot nb a < rdot nb b) (b2 : rdot nb c < rdot nb b)
    (c1 : rdot nc a < rdot nc c) (c2 : rdot nc b < rdot nc c) : ¬ Collinear3 a b c := by
  rintro ⟨u, v, hq⟩
  obtain ⟨t1, h1⟩ := hq a (by simp)
  obtain ⟨t2, h2⟩ := hq b (by simp)
  obtain ⟨t3, h3⟩ := hq c (by simp)
  have e : ∀ (n p : V3 ℝ) (t : ℝ), p.toP = u + t • v → rdot n p = form n u + t * form n v := by
    intro n p t hp
    have := form_add n u v 1 t
    rw [one_smul, one_mul, ← hp, form_toP] at this
    exact this
  have key : ∀ {n : V3 ℝ} {x y z : ℝ}, x ≤ y → y ≤ z → form n u + x * form n v < form n u + y * form n v → form n u + z * form n v < form n u + y * form n v → False := by
    intro n x y z hxy hyz k1 k2
    have k3 : 0 < (y - x) * form n v := by linarith
    have k4 : (z - y) * form n v < 0 := by linarith
    rcases le_total 0 (form n v) with hv | hv
    · nlinarith [mul_nonneg (sub_nonneg.mpr hyz) hv]
    · nlinarith [mul_nonneg (sub_nonneg.mpr hxy) (neg_nonneg.mpr hv)]
  rw [e _ _ _ h1, e _ _ _ h2] at a1 b1
  rw [e _ _ _ h1, e _ _ _ h3] at a2 c1
  rw [e _ _ _ h2, e _ _ _ h3] at b2 c2
  rcases le_total t1 t2 with h12 | h12 <;> rcases le_total t2 t3 with h23 | h23 <;> rcases le_total t1 t3 with h13 | h13
  · exact key h12 h23 b1 b2
  · exact key h12 h23 b1 b2
  · exact key h13 h23 c1 c2
  · exact key h13 h12 a2 a1
  · exact key h12 h13 a1 a2
  · exact key h23 h13 c2 c1
  · exact key h23 h12 b2 b1
  · exact key h23 h12 b2 b1

/-- the side of a point of a plane of three points -/
theorem outward_vol {h : Hull ℝ} {s : Nat × Nat × Nat} (ho : h.Outward s) {l : Nat} (hl : l < h.points.length) : h.vol s.1 s.2.1 s.2.2 l ≤ 0 := by
  have h4 := ho.le _ (Hull.mem_body (Hull.pt_mem hl))
  rw [toP_toV] at h4
  rw [Hull.vol, vol, rdot_sub]
  unfold Hull.normal at h4
  linarith

theorem close_vol (pts : List (V3 ℝ)) : ∀ᶠ h' in close pts, ∀ i j k l, i < pts.length → j < pts.length → k < pts.length → l < pts.length →
    0 < (only pts).vol i j k l → 0 < h'.vol i j k l := by
  have : ∀ᶠ h' in close pts, ∀ i j k l : Fin pts.length, 0 < (only pts).vol i j k l → 0 < h'.vol i j k l := by
    rw [eventually_all]; intro i
    rw [eventually_all]; intro j
    rw [eventually_all]; intro k
    rw [eventually_all]; intro l
    by_cases h0 : 0 < (only pts).vol i j k l
    · exact ((tendsto_vol pts i j k l).eventually_const_lt h0).mono fun _ h _ => h
    · exact Eventually.of_forall fun _ h => absurd h h0
  exact this.mono fun h' h i j k l hi hj hk hl => h ⟨i, hi⟩ ⟨j, hj⟩ ⟨k, hk⟩ ⟨l, hl⟩

/-- an outward triangle of the moved points that is a triangle of the points is outward, or at least has no point in front -/
theorem close_outward (pts : List (V3 ℝ)) : ∀ᶠ h' in close pts, ∀ s : Nat × Nat × Nat, (∀ i, Corner s i → i < pts.length) → h'.Outward s →
    ∀ q ∈ (only pts).body, form ((only pts).normal s) q ≤ rdot ((only pts).normal s) ((only pts).pt s.1) := by
  filter_upwards [close_vol pts, close_length pts] with h' hv hlen s hs ho q hq
  refine Hull.body_le (fun l hl => ?_) hq
  by_contra hcon
  have h1 : 0 < (only pts).vol s.1 s.2.1 s.2.2 l := by
    rw [Hull.vol, vol, rdot_sub]
    unfold Hull.normal at hcon
    linarith
  have h2 := hv s.1 s.2.1 s.2.2 l (hs _ (.inl rfl)) (hs _ (.inr (.inl rfl))) (hs _ (.inr (.inr rfl))) hl h1
  have h3 := outward_vol ho (l := l) (by rw [hlen]; exact hl)
  linarith

/-- corners of simplices of the moved points are corners of the solid -/
theorem close_corner {pts : List (V3 ℝ)} (hf : Firm pts) : ∀ᶠ h' in close pts, h'.IsHull → ∀ s ∈ h'.simplices, ∀ i, Corner s i →
    ∃ n : V3 ℝ, ∀ l, l < pts.length → l ≠ i → rdot n ((only pts).pt l) < rdot n ((only pts).pt i) := by
  have : ∀ᶠ h' in close pts, ∀ i : Fin pts.length, ((only pts).pt i).toP ∈ interior (only pts).body → (interior h'.body).Nonempty → (h'.pt i).toP ∉ frontier h'.body := by
    rw [eventually_all]
    intro i
    by_cases hi : ((only pts).pt i).toP ∈ interior (only pts).body
    · exact (close_inside hi).mono fun _ h _ => h
    · exact Eventually.of_forall fun _ h => absurd h hi
  filter_upwards [this, close_length pts] with h' h1 hlen hh s hs i hi
  have hlt : i < pts.length := by rw [← hlen]; exact hh.cornerIndex s hs i hi
  refine (hf.corner i hlt).resolve_left fun hin => h1 ⟨i, hlt⟩ hin hh.solid ?_
  rw [hh.cover]
  refine ⟨s, hs, ?_⟩
  rw [Hull.tri_eq]
  exact subset_convexHull ℝ _ ⟨i, hi, rfl⟩

theorem close_proper {pts : List (V3 ℝ)} (hf : Firm pts) : ∀ᶠ h' in close pts, h'.IsHull → ∀ s ∈ h'.simplices,
    ¬ Collinear3 ((only pts).pt s.1) ((only pts).pt s.2.1) ((only pts).pt s.2.2) := by
  filter_upwards [close_corner hf, close_length pts] with h' h1 hlen hh s hs
  have hd : s.1 ≠ s.2.1 ∧ s.1 ≠ s.2.2 ∧ s.2.1 ≠ s.2.2 := by
    have hN := hh.normal_ne hs
    refine ⟨fun e => hN ?_, fun e => hN ?_, fun e => hN ?_⟩ <;> unfold Hull.normal triNormal <;> rw [e] <;>
      refine V3.ext' ?_ ?_ ?_ <;> simp
    all_goals ring
  have hlt : ∀ i, Corner s i → i < pts.length := fun i hi => by rw [← hlen]; exact hh.cornerIndex s hs i hi
  obtain ⟨na, ha⟩ := h1 hh s hs s.1 (.inl rfl)
  obtain ⟨nb, hb⟩ := h1 hh s hs s.2.1 (.inr (.inl rfl))
  obtain ⟨nc, hc⟩ := h1 hh s hs s.2.2 (.inr (.inr rfl))
  have l1 := hlt s.1 (.inl rfl)
  have l2 := hlt s.2.1 (.inr (.inl rfl))
  have l3 := hlt s.2.2 (.inr (.inr rfl))
  exact not_collinear (ha _ l2 hd.1.symm) (ha _ l3 hd.2.1.symm) (hb _ l1 hd.1) (hb _ l3 hd.2.2.symm) (hc _ l1 hd.2.1) (hc _ l2 hd.2.2)

/-! ### The triangles cover the boundary -/

theorem tri_closed {h : Hull ℝ} (s : Nat × Nat × Nat) : IsClosed (h.tri s) := by
  unfold Hull.tri triangle
  exact (Set.Finite.isCompact_convexHull ℝ (by simp)).isClosed

/-- a connected set with points in and outside of a set has one on its boundary -/
theorem meets_frontier {t A : Set P3} (ht : IsPreconnected t) (h1 : (t ∩ A).Nonempty) (h2 : (t ∩ Aᶜ).Nonempty) : (t ∩ frontier A).Nonempty := by
  by_contra hcon
  have hn : ∀ x ∈ t, x ∉ frontier A := fun x hx hf => hcon ⟨x, hx, hf⟩
  have key : ∀ x ∈ t, (x ∈ A → x ∈ interior A) ∧ (x ∉ A → x ∈ interior Aᶜ) := by
    intro x hx
    have := hn x hx
    refine ⟨fun hA => by_contra fun hi => this ⟨subset_closure hA, hi⟩, fun hA => by_contra fun hi => this ?_⟩
    rw [← frontier_compl]
    exact ⟨subset_closure hA, hi⟩
  obtain ⟨a, ha, haA⟩ := h1
  obtain ⟨b, hb, hbA⟩ := h2
  obtain ⟨c, -, hc1, hc2⟩ := ht (interior A) (interior Aᶜ) isOpen_interior isOpen_interior
    (fun x hx => (em (x ∈ A)).imp (key x hx).1 (key x hx).2) ⟨a, ha, (key a ha).1 haA⟩ ⟨b, hb, (key b hb).2 hbA⟩
  exact interior_subset hc2 (interior_subset hc1)

/-- a set of triangles that does not cover the boundary is not the triangulation of moved points -/
theorem close_cover_of {pts : List (V3 ℝ)} (hs : (interior (only pts).body).Nonempty) (S : Finset (Nat × Nat × Nat))
    (hS : ¬ frontier (only pts).body ⊆ {q | ∃ s ∈ S, q ∈ (only pts).tri s}) :
    ∀ᶠ h' in close pts, h'.IsHull → ¬ ∀ s ∈ h'.simplices, s ∈ S := by
  obtain ⟨q, hq, hqS⟩ := Set.not_subset.mp hS
  have hcl : IsClosed {q | ∃ s ∈ S, q ∈ (only pts).tri s} := by
    have e : {q | ∃ s ∈ S, q ∈ (only pts).tri s} = ⋃ s ∈ S, (only pts).tri s := by ext; simp
    rw [e]
    exact S.finite_toSet.isClosed_biUnion fun s _ => tri_closed s
  obtain ⟨d, d0, hd⟩ := Metric.isOpen_iff.mp hcl.isOpen_compl q hqS
  obtain ⟨n, n0, hn⟩ := max_of_frontier (Hull.body_convex _) hs hq
  have hL := size1_pos n0
  set ε := d / 8 with hε
  have e0 : 0 < ε := by rw [hε]; linarith
  refine (close_dist pts e0).mono fun h' ⟨hlen, hdist⟩ hh hsub => ?_
  have hqb : q ∈ (only pts).body := by
    have : IsClosed (only pts).body := (Hull.body_compact _).isClosed
    exact this.frontier_subset hq
  obtain ⟨q', hq', hqq⟩ := body_near hlen (fun i => by rw [dist_comm]; exact hdist i) hqb
  obtain ⟨x, hx, hfx⟩ := exists_ahead n q (r := 2 * ε) (by linarith)
  have hxb : x ∉ h'.body := by
    intro hxb
    obtain ⟨y, hy, hxy⟩ := body_near (h := h') (h' := only pts) hlen.symm hdist hxb
    have h1 := form_dist n hxy
    have h2 := hn y hy
    rw [hfx] at h1
    nlinarith
  obtain ⟨z, hz, hzf⟩ := meets_frontier (A := h'.body) (convex_segment (𝕜 := ℝ) q' x).isPreconnected
    ⟨q', left_mem_segment ℝ q' x, hq'⟩ ⟨x, right_mem_segment ℝ q' x, hxb⟩
  have hzq : dist z q ≤ 2 * ε := by
    have : segment ℝ q' x ⊆ Metric.closedBall q (2 * ε) := (convex_closedBall q (2 * ε)).segment_subset
      (by rw [Metric.mem_closedBall, dist_comm]; linarith) hx
    exact this hz
  rw [hh.cover] at hzf
  obtain ⟨s, hs', hzs⟩ := hzf
  obtain ⟨z', hz', hzz⟩ := tri_near (h := h') (h' := only pts) hdist s hzs
  have hm : z' ∈ Metric.ball q d := ?_
  · exact hd hm ⟨s, hsub s hs', hz'⟩
  rw [Metric.mem_ball]
  calc dist z' q ≤ dist z' z + dist z q := dist_triangle _ _ _
    _ ≤ ε + 2 * ε := add_le_add (by rw [dist_comm]; exact hzz) hzq
    _ < d := by rw [hε]; linarith

theorem close_cover {pts : List (V3 ℝ)} (hs : (interior (only pts).body).Nonempty) :
    ∀ᶠ h' in close pts, h'.IsHull → frontier (only pts).body ⊆ {q | ∃ s ∈ h'.simplices, q ∈ (only pts).tri s} := by
  classical
  let T : Finset (Nat × Nat × Nat) := Finset.range pts.length ×ˢ (Finset.range pts.length ×ˢ Finset.range pts.length)
  have : ∀ᶠ h' in close pts, ∀ S ∈ T.powerset, ¬ frontier (only pts).body ⊆ {q | ∃ s ∈ S, q ∈ (only pts).tri s} → h'.IsHull → ¬ ∀ s ∈ h'.simplices, s ∈ S := by
    rw [Finset.eventually_all]
    intro S _
    by_cases hS : frontier (only pts).body ⊆ {q | ∃ s ∈ S, q ∈ (only pts).tri s}
    · exact Eventually.of_forall fun _ h => absurd hS h
    · exact (close_cover_of hs S hS).mono fun _ h _ => h
  filter_upwards [this, close_length pts] with h' h1 hlen hh
  have hT : h'.simplices.toFinset ∈ T.powerset := by
    rw [Finset.mem_powerset]
    intro s hs
    rw [List.mem_toFinset] at hs
    have := hh.cornerIndex s hs
    rw [hlen] at this
    simp only [T, Finset.mem_product, Finset.mem_range]
    exact ⟨this _ (.inl rfl), this _ (.inr (.inl rfl)), this _ (.inr (.inr rfl))⟩
  by_contra hcon
  refine h1 _ hT ?_ hh fun s hs => List.mem_toFinset.mpr hs
  simpa only [List.mem_toFinset] using hcon

/-! ### The vertices span the solid -/

theorem close_vertices_of {pts : List (V3 ℝ)} (V : Finset Nat) {i : Nat} (hi : i < pts.length) (hV : ((only pts).pt i).toP ∉ convexHull ℝ {q : P3 | ∃ i ∈ V, q = ((only pts).pt i).toP}) :
    ∀ᶠ h' in close pts, h'.IsHull → ¬ ∀ v ∈ h'.vertices, v ∈ V := by
  have hcl : IsClosed (convexHull ℝ {q : P3 | ∃ i ∈ V, q = ((only pts).pt i).toP}) := by
    have e : {q : P3 | ∃ i ∈ V, q = ((only pts).pt i).toP} = (fun i => ((only pts).pt i).toP) '' (V : Set Nat) := by
      ext q; constructor
      · rintro ⟨i, hi, rfl⟩; exact ⟨i, hi, rfl⟩
      · rintro ⟨i, hi, rfl⟩; exact ⟨i, hi, rfl⟩
    rw [e]
    exact (Set.Finite.isCompact_convexHull ℝ (V.finite_toSet.image _)).isClosed
  obtain ⟨d, d0, hd⟩ := Metric.isOpen_iff.mp hcl.isOpen_compl _ hV
  refine (close_dist pts (ε := d / 4) (by linarith)).mono fun h' ⟨hlen, hdist⟩ hh hsub => ?_
  have h1 := hh.vertexHull (Hull.mem_body (Hull.pt_mem (h := h') (i := i) (by omega)))
  obtain ⟨q, hq, hqd⟩ := near_hull (T := {q : P3 | ∃ i ∈ V, q = ((only pts).pt i).toP}) (ε := d / 4) (by
    rintro _ ⟨v, hv, rfl⟩
    exact ⟨_, ⟨v, hsub v hv, rfl⟩, hdist v⟩) h1
  have hm : q ∈ Metric.ball ((only pts).pt i).toP d := ?_
  · exact hd hm hq
  rw [Metric.mem_ball]
  calc dist q ((only pts).pt i).toP ≤ dist q (h'.pt i).toP + dist (h'.pt i).toP ((only pts).pt i).toP := dist_triangle _ _ _
    _ ≤ d / 4 + d / 4 := add_le_add (by rw [dist_comm]; exact hqd) (hdist i)
    _ < d := by linarith

theorem close_vertices (pts : List (V3 ℝ)) :
    ∀ᶠ h' in close pts, h'.IsHull → (only pts).body ⊆ convexHull ℝ {q : P3 | ∃ i ∈ h'.vertices, q = ((only pts).pt i).toP} := by
  classical
  have : ∀ᶠ h' in close pts, ∀ V ∈ (Finset.range pts.length).powerset, ∀ i ∈ Finset.range pts.length,
      ((only pts).pt i).toP ∉ convexHull ℝ {q : P3 | ∃ i ∈ V, q = ((only pts).pt i).toP} → h'.IsHull → ¬ ∀ v ∈ h'.vertices, v ∈ V := by
    rw [Finset.eventually_all]
    intro V _
    rw [Finset.eventually_all]
    intro i hi
    by_cases hV : ((only pts).pt i).toP ∈ convexHull ℝ {q : P3 | ∃ i ∈ V, q = ((only pts).pt i).toP}
    · exact Eventually.of_forall fun _ h => absurd hV h
    · exact (close_vertices_of V (Finset.mem_range.mp hi) hV).mono fun _ h _ => h
  filter_upwards [this, close_length pts] with h' h1 hlen hh
  refine convexHull_min ?_ (convex_convexHull ℝ _)
  rintro _ ⟨p, hp, rfl⟩
  obtain ⟨i, hi, rfl⟩ := Hull.exists_index (h := only pts) hp
  by_contra hcon
  refine h1 h'.vertices.toFinset ?_ i (Finset.mem_range.mpr hi) ?_ hh fun v hv => List.mem_toFinset.mpr hv
  · rw [Finset.mem_powerset]
    intro v hv
    rw [List.mem_toFinset] at hv
    exact Finset.mem_range.mpr (by rw [← hlen]; exact hh.vertexIndex v hv)
  · simpa only [List.mem_toFinset] using hcon

/-! ### The triangles do not overlap -/

/-- twice the area of a triangle with two given corners, seen along `N` -/
def seen (N q b c : V3 ℝ) : ℝ := rdot N (cross (b.sub q) (c.sub q))

theorem seen_continuous (N q : V3 ℝ) : Continuous fun P : P3 × P3 => seen N q (P3.toV P.1) (P3.toV P.2) := by
  unfold seen rdot cross V3.sub P3.toV
  simp only [r_sub, r_mul]
  fun_prop

theorem tendsto_seen (pts : List (V3 ℝ)) (N q : V3 ℝ) (i j : Nat) :
    Tendsto (fun h' : Hull ℝ => seen N q (h'.pt i) (h'.pt j)) (close pts) (nhds (seen N q ((only pts).pt i) ((only pts).pt j))) := by
  have := ((seen_continuous N q).tendsto (((only pts).pt i).toP, ((only pts).pt j).toP)).comp ((tendsto_pt pts i).prodMk_nhds (tendsto_pt pts j))
  exact this

theorem normal_continuous (N : V3 ℝ) : Continuous fun P : P3 × P3 × P3 => rdot (triNormal (P3.toV P.1) (P3.toV P.2.1) (P3.toV P.2.2)) N := by
  unfold triNormal rdot cross V3.sub P3.toV
  simp only [r_sub, r_mul]
  fun_prop

theorem tendsto_normal (pts : List (V3 ℝ)) (N : V3 ℝ) (s : Nat × Nat × Nat) :
    Tendsto (fun h' : Hull ℝ => rdot (h'.normal s) N) (close pts) (nhds (rdot ((only pts).normal s) N)) := by
  have := ((normal_continuous N).tendsto (((only pts).pt s.1).toP, ((only pts).pt s.2.1).toP, ((only pts).pt s.2.2).toP)).comp
    ((tendsto_pt pts s.1).prodMk_nhds ((tendsto_pt pts s.2.1).prodMk_nhds (tendsto_pt pts s.2.2)))
  exact this

/-- the line through `q` along `N` meets a triangle inside of which `q` is seen along `N` -/
theorem meets_otri {N q a b c : V3 ℝ} (ha : 0 < seen N q b c) (hb : 0 < seen N q c a) (hc : 0 < seen N q a b) : ∃ t : ℝ, q.toP + t • N.toP ∈ openTriangle a b c := by
  set S := seen N q b c + seen N q c a + seen N q a b with hS
  have S0 : 0 < S := by positivity
  refine ⟨rdot (a.sub q) (cross (b.sub q) (c.sub q)) / S, seen N q b c / S, seen N q c a / S, seen N q a b / S, by positivity, by positivity, by positivity, ?_, ?_⟩
  · rw [← add_div, ← add_div, ← hS, div_self S0.ne']
  · simp only [V3.toP, Prod.smul_mk, Prod.mk_add_mk, smul_eq_mul, Prod.mk.injEq]
    refine ⟨?_, ?_, ?_⟩ <;> field_simp <;> rw [hS] <;> simp only [seen, rdot, cross_x, cross_y, cross_z, sub_x, sub_y, sub_z] <;> ring

theorem seen_otri {N q a b c : V3 ℝ} {u v w : ℝ} (h : u + v + w = 1) (hq : q.toP = u • a.toP + v • b.toP + w • c.toP) :
    seen N q b c = u * rdot (triNormal a b c) N ∧ seen N q c a = v * rdot (triNormal a b c) N ∧ seen N q a b = w * rdot (triNormal a b c) N := by
  obtain ⟨qx, qy, qz⟩ := q
  simp only [V3.toP, Prod.smul_mk, Prod.mk_add_mk, smul_eq_mul, Prod.mk.injEq] at hq
  obtain ⟨rfl, rfl, rfl⟩ := hq
  obtain rfl : u = 1 - v - w := by linarith
  refine ⟨?_, ?_, ?_⟩ <;> simp only [seen, triNormal, rdot, cross_x, cross_y, cross_z, sub_x, sub_y, sub_z] <;> ring

theorem form_otri {N a b c : V3 ℝ} {k : ℝ} (ha : rdot N a = k) (hb : rdot N b = k) (hc : rdot N c = k) {x : P3} (hx : x ∈ openTriangle a b c) : form N x = k := by
  obtain ⟨u, v, w, -, -, -, h, rfl⟩ := hx
  have := form_add N (u • a.toP + v • b.toP) c.toP 1 w
  rw [one_smul, form_add, one_mul, form_toP, form_toP, form_toP, ha, hb, hc] at this
  rw [this]
  linear_combination k * h

theorem normal_edges (a b c : V3 ℝ) : rdot (triNormal a b c) b = rdot (triNormal a b c) a ∧ rdot (triNormal a b c) c = rdot (triNormal a b c) a := by
  constructor <;> simp only [triNormal, rdot, cross_x, cross_y, cross_z, sub_x, sub_y, sub_z] <;> ring

/-- an outward triangle has its points in the plane -/
theorem form_normal {h : Hull ℝ} {s : Nat × Nat × Nat} {x : P3} (hx : x ∈ h.otri s) : form (h.normal s) x = rdot (h.normal s) (h.pt s.1) :=
  form_otri rfl (normal_edges _ _ _).1 (normal_edges _ _ _).2 hx

/-- triangles that overlap and are seen from the same side overlap when moved -/
theorem close_overlap_of (pts : List (V3 ℝ)) {N : V3 ℝ} {s s' : Nat × Nat × Nat} (hl : ∀ i, Corner s i → i < pts.length)
    (hl' : ∀ i, Corner s' i → i < pts.length) (hNN1 : 0 < rdot ((only pts).normal s) N) (hNN2 : 0 < rdot ((only pts).normal s') N) {q : P3}
    (hq : q ∈ (only pts).otri s) (hq' : q ∈ (only pts).otri s') :
    ∀ᶠ h' in close pts, h'.Outward s → h'.Outward s' → ¬ Disjoint (h'.otri s) (h'.otri s') := by
  obtain ⟨u', v', w', hu', hv', hw', huv', hqd⟩ := hq'
  obtain ⟨u, v, w, hu, hv, hw, huv, e⟩ := hq
  -- the moved triangles, seen along `N`
  obtain ⟨a1, a2, a3⟩ := seen_otri (N := N) (q := P3.toV q) huv e
  obtain ⟨b1, b2, b3⟩ := seen_otri (N := N) (q := P3.toV q) huv' hqd
  filter_upwards [(tendsto_seen pts N (P3.toV q) s.2.1 s.2.2).eventually_const_lt (u := 0) (by rw [a1]; exact mul_pos hu hNN1),
    (tendsto_seen pts N (P3.toV q) s.2.2 s.1).eventually_const_lt (u := 0) (by rw [a2]; exact mul_pos hv hNN1),
    (tendsto_seen pts N (P3.toV q) s.1 s.2.1).eventually_const_lt (u := 0) (by rw [a3]; exact mul_pos hw hNN1),
    (tendsto_seen pts N (P3.toV q) s'.2.1 s'.2.2).eventually_const_lt (u := 0) (by rw [b1]; exact mul_pos hu' hNN2),
    (tendsto_seen pts N (P3.toV q) s'.2.2 s'.1).eventually_const_lt (u := 0) (by rw [b2]; exact mul_pos hv' hNN2),
    (tendsto_seen pts N (P3.toV q) s'.1 s'.2.1).eventually_const_lt (u := 0) (by rw [b3]; exact mul_pos hw' hNN2),
    (tendsto_normal pts N s).eventually_const_lt (u := 0) hNN1, (tendsto_normal pts N s').eventually_const_lt (u := 0) hNN2, close_length pts]
    with h' c1 c2 c3 c4 c5 c6 c7 c8 hlen ho ho' hdis
  obtain ⟨t, ht⟩ := meets_otri c1 c2 c3
  obtain ⟨t', ht'⟩ := meets_otri c4 c5 c6
  have body_of : ∀ (s : Nat × Nat × Nat) (hl : ∀ i, Corner s i → i < pts.length) (x : P3), x ∈ h'.otri s → x ∈ h'.body := by
    intro s hl x hx
    exact Hull.tri_subset_body (i := s.1) (j := s.2.1) (k := s.2.2) (by rw [hlen]; exact hl _ (.inl rfl)) (by rw [hlen]; exact hl _ (.inr (.inl rfl)))
      (by rw [hlen]; exact hl _ (.inr (.inr rfl))) (Hull.otri_subset_tri _ hx)
  have ex : ∀ (n : V3 ℝ) (t : ℝ), form n ((P3.toV q).toP + t • N.toP) = form n (P3.toV q).toP + t * rdot n N := by
    intro n t
    have := form_add n (P3.toV q).toP N.toP 1 t
    rw [one_smul, one_mul, form_toP n N] at this
    exact this
  have d1 := ho.le _ (body_of s' hl' _ ht')
  have d2 := ho'.le _ (body_of s hl _ ht)
  have d3 : form (h'.normal s) _ = _ := form_normal ht
  have d4 : form (h'.normal s') _ = _ := form_normal ht'
  rw [← d3] at d1
  rw [← d4] at d2
  have d1' : form (h'.normal s) ((P3.toV q).toP + t' • N.toP) ≤ form (h'.normal s) ((P3.toV q).toP + t • N.toP) := d1
  have d2' : form (h'.normal s') ((P3.toV q).toP + t • N.toP) ≤ form (h'.normal s') ((P3.toV q).toP + t' • N.toP) := d2
  rw [ex, ex] at d1' d2'
  have g1 : t' ≤ t := by
    exact le_of_mul_le_mul_right (by linarith) c7
  have g2 : t ≤ t' := by
    exact le_of_mul_le_mul_right (by linarith) c8
  obtain rfl := le_antisymm g1 g2
  exact Set.disjoint_left.mp hdis ht ht'

theorem close_overlap (pts : List (V3 ℝ)) (hs : (interior (only pts).body).Nonempty) {s s' : Nat × Nat × Nat} (hl : ∀ i, Corner s i → i < pts.length)
    (hl' : ∀ i, Corner s' i → i < pts.length) (h0 : (only pts).normal s ≠ V3.zeros) (h0' : (only pts).normal s' ≠ V3.zeros) {q : P3}
    (hq : q ∈ (only pts).otri s) (hq' : q ∈ (only pts).otri s') :
    ∀ᶠ h' in close pts, h'.Outward s → h'.Outward s' → ¬ Disjoint (h'.otri s) (h'.otri s') := by
  set H := only pts with hH
  set N := H.normal s with hN
  by_cases hA : ∀ q ∈ H.body, form N q ≤ rdot N (H.pt s.1)
  swap
  · exact (close_outward pts).mono fun h' hc ho _ _ => hA (hc s hl ho)
  by_cases hA' : ∀ q ∈ H.body, form (H.normal s') q ≤ rdot (H.normal s') (H.pt s'.1)
  swap
  · exact (close_outward pts).mono fun h' hc _ ho _ => hA' (hc s' hl' ho)
  have hq1 : form N q = rdot N (H.pt s.1) := form_normal hq
  have hq2 := form_normal hq'
  -- both triangles are in one plane
  have hmem : ∀ i, Corner s' i → form N (H.pt i).toP ≤ form N q := fun i hi => by
    rw [hq1]
    exact hA _ (Hull.mem_body (Hull.pt_mem (hl' i hi)))
  obtain ⟨u', v', w', hu', hv', hw', huv', rfl⟩ := hq'
  obtain ⟨u, v, w, hu, hv, hw, huv, e⟩ := hq
  set q : P3 := u' • (H.pt s'.1).toP + v' • (H.pt s'.2.1).toP + w' • (H.pt s'.2.2).toP with hqd
  have hexp : form N q = u' * rdot N (H.pt s'.1) + v' * rdot N (H.pt s'.2.1) + w' * rdot N (H.pt s'.2.2) := by
    have := form_add N (u' • (H.pt s'.1).toP + v' • (H.pt s'.2.1).toP) (H.pt s'.2.2).toP 1 w'
    rw [one_smul, form_add, one_mul] at this
    exact this
  have k1 := hmem s'.1 (.inl rfl)
  have k2 := hmem s'.2.1 (.inr (.inl rfl))
  have k3 := hmem s'.2.2 (.inr (.inr rfl))
  rw [form_toP] at k1 k2 k3
  have m1 := mul_nonneg hu'.le (sub_nonneg.mpr k1)
  have m2 := mul_nonneg hv'.le (sub_nonneg.mpr k2)
  have m3 := mul_nonneg hw'.le (sub_nonneg.mpr k3)
  have msum : u' * (form N q - rdot N (H.pt s'.1)) + v' * (form N q - rdot N (H.pt s'.2.1)) + w' * (form N q - rdot N (H.pt s'.2.2)) = 0 := by
    linear_combination form N q * huv' + hexp
  have z1 : form N q - rdot N (H.pt s'.1) = 0 := (mul_eq_zero.mp (by linarith : u' * (form N q - rdot N (H.pt s'.1)) = 0)).resolve_left hu'.ne'
  have z2 : form N q - rdot N (H.pt s'.2.1) = 0 := (mul_eq_zero.mp (by linarith : v' * (form N q - rdot N (H.pt s'.2.1)) = 0)).resolve_left hv'.ne'
  have z3 : form N q - rdot N (H.pt s'.2.2) = 0 := (mul_eq_zero.mp (by linarith : w' * (form N q - rdot N (H.pt s'.2.2)) = 0)).resolve_left hw'.ne'
  have hpar := parallel_of_orth (e1 := (H.pt s'.2.1).sub (H.pt s'.1)) (e2 := (H.pt s'.2.2).sub (H.pt s'.1)) (n := N) h0'
    (by rw [rdot_sub]; linarith) (by rw [rdot_sub]; linarith)
  have hNN := rdot_self_pos h0
  -- seen from the same side
  have hpos : 0 < rdot (H.normal s') N := by
    set N' := H.normal s' with hN'
    have hpar' : N = V3.smul (rdot N N' / rdot N' N') N' := hpar
    have hNN' := rdot_self_pos h0'
    by_contra hcon
    rw [rdot_comm] at hcon
    have hle : rdot N N' / rdot N' N' ≤ 0 := div_nonpos_of_nonpos_of_nonneg (not_lt.mp hcon) hNN'.le
    obtain ⟨o, ho⟩ := hs
    have f1 : form N o ≤ form N q := by rw [hq1]; exact hA o (interior_subset ho)
    have f2 : form N' o ≤ form N' q := by rw [hq2]; exact hA' o (interior_subset ho)
    have f3 : form N o = rdot N N' / rdot N' N' * form N' o := by
      conv_lhs => rw [hpar']
      unfold form; rw [smul_rdot]
    have f4 : form N q = rdot N N' / rdot N' N' * form N' q := by
      conv_lhs => rw [hpar']
      unfold form; rw [smul_rdot]
    have f5 : form N o = form N q := by
      refine le_antisymm f1 ?_
      rw [f3, f4]
      exact mul_le_mul_of_nonpos_left f2 hle
    -- then the interior point is on the boundary
    have := frontier_of_max (Hull.body_compact H).isClosed h0 (interior_subset ho) fun p hp => by
      rw [f5, hq1]; exact hA p hp
    exact this.2 ho
  exact close_overlap_of pts hl hl' hNN hpos ⟨u, v, w, hu, hv, hw, huv, e⟩ ⟨u', v', w', hu', hv', hw', huv', rfl⟩

theorem otri_reverse {h : Hull ℝ} (s : Nat × Nat × Nat) : h.otri (reverseTail s) = h.otri s := by
  refine Set.Subset.antisymm (openTriangle_perm ?_) (openTriangle_perm ?_) <;> exact (List.Perm.swap _ _ _).cons _

theorem corner_reverse {s : Nat × Nat × Nat} {i : Nat} : Corner (reverseTail s) i ↔ Corner s i := by
  unfold Corner reverseTail
  simp only
  tauto

theorem close_disjoint {pts : List (V3 ℝ)} (hf : Firm pts) : ∀ᶠ h' in close pts, h'.IsHull → ∀ (k k' : Nat) s s', h'.simplices[k]? = some s →
    h'.simplices[k']? = some s' → k ≠ k' → Disjoint ((only pts).otri s) ((only pts).otri s') := by
  let T : Finset (Nat × Nat × Nat) := Finset.range pts.length ×ˢ (Finset.range pts.length ×ˢ Finset.range pts.length)
  have hT : ∀ s, s ∈ T ↔ ∀ i, Corner s i → i < pts.length := by
    intro s
    simp only [T, Finset.mem_product, Finset.mem_range]
    constructor
    · rintro ⟨h1, h2, h3⟩ i (rfl | rfl | rfl)
      exacts [h1, h2, h3]
    · exact fun h => ⟨h _ (.inl rfl), h _ (.inr (.inl rfl)), h _ (.inr (.inr rfl))⟩
  have key : ∀ᶠ h' in close pts, ∀ s ∈ T, ∀ s' ∈ T, (only pts).normal s ≠ V3.zeros → (only pts).normal s' ≠ V3.zeros →
      ¬ Disjoint ((only pts).otri s) ((only pts).otri s') → h'.Outward s → h'.Outward s' → ¬ Disjoint (h'.otri s) (h'.otri s') := by
    rw [Finset.eventually_all]
    intro s hs
    rw [Finset.eventually_all]
    intro s' hs'
    by_cases h0 : (only pts).normal s ≠ V3.zeros ∧ (only pts).normal s' ≠ V3.zeros ∧ ¬ Disjoint ((only pts).otri s) ((only pts).otri s')
    · obtain ⟨q, hq, hq'⟩ := Set.not_disjoint_iff.mp h0.2.2
      exact (close_overlap pts hf.solid ((hT s).mp hs) ((hT s').mp hs') h0.1 h0.2.1 hq hq').mono fun _ h _ _ _ => h
    · exact Eventually.of_forall fun _ h1 h2 h3 => absurd ⟨h1, h2, h3⟩ h0
  filter_upwards [key, close_proper hf, close_length pts] with h' h1 hp hlen hh k k' s s' hs hs' hne
  by_contra hcon
  -- the simplices in outward order
  have orient : ∀ s ∈ h'.simplices, ∃ t ∈ T, (only pts).normal t ≠ V3.zeros ∧ h'.Outward t ∧ (∀ h : Hull ℝ, h.otri t = h.otri s) := by
    intro s hs
    have hc : ∀ i, Corner s i → i < pts.length := fun i hi => by rw [← hlen]; exact hh.cornerIndex s hs i hi
    have hN : (only pts).normal s ≠ V3.zeros := triNormal_ne (hp hh s hs)
    rcases hh.outward hs with ho | ho
    · exact ⟨s, (hT s).mpr hc, hN, ho, fun _ => rfl⟩
    · refine ⟨reverseTail s, (hT _).mpr fun i hi => hc i (corner_reverse.mp hi), ?_, ho, fun _ => otri_reverse s⟩
      rw [Hull.normal_reverse]
      exact Hull.neg_ne hN
  obtain ⟨t, t1, t2, t3, t4⟩ := orient s (List.mem_of_getElem? hs)
  obtain ⟨t', t1', t2', t3', t4'⟩ := orient s' (List.mem_of_getElem? hs')
  refine h1 t t1 t' t1' t2 t2' (by rw [t4, t4']; exact hcon) t3 t3' ?_
  rw [t4, t4']
  exact hh.disjoint k k' s s' hs hs' hne

/-- a triangulated hull of points that are near firm points is one of the points -/
theorem close_isHull {pts : List (V3 ℝ)} (hf : Firm pts) : ∀ᶠ h' in close pts, h'.IsHull → Hull.IsHull { h' with points := pts } := by
  filter_upwards [close_proper hf, close_cover hf.solid, close_vertices pts, close_disjoint hf, close_outward pts, close_length pts] with h' p1 p2 p3 p4 p5 hlen hh
  have hc : ∀ s ∈ h'.simplices, ∀ i, Corner s i → i < pts.length := fun s hs i hi => by rw [← hlen]; exact hh.cornerIndex s hs i hi
  refine ⟨hf.solid, fun i hi => by rw [← hlen]; exact hh.vertexIndex i hi, p3 hh, hc, p1 hh, Set.Subset.antisymm (p2 hh) ?_, p4 hh, hh.rows, hh.neighbor, hh.side⟩
  rintro q ⟨s, hs, hq⟩
  have key : ∀ t : Nat × Nat × Nat, (∀ i, Corner t i ↔ Corner s i) → (only pts).normal t ≠ V3.zeros → h'.Outward t → q ∈ frontier (only pts).body := by
    intro t ht hN ho
    have hle := p5 t (fun i hi => hc s hs i ((ht i).mp hi)) ho
    have hqt : q ∈ (only pts).tri t := by rw [Hull.tri_congr ht]; exact hq
    have hqb : q ∈ (only pts).body := Hull.tri_subset_body (h := only pts) (hc s hs _ ((ht _).mp (.inl rfl))) (hc s hs _ ((ht _).mp (.inr (.inl rfl))))
      (hc s hs _ ((ht _).mp (.inr (.inr rfl)))) hqt
    have hform : rdot ((only pts).normal t) ((only pts).pt t.1) ≤ form ((only pts).normal t) q := by
      have hcv : Convex ℝ {x : P3 | rdot ((only pts).normal t) ((only pts).pt t.1) ≤ form ((only pts).normal t) x} := by
        intro x hx y hy a b ha hb hab
        simp only [Set.mem_ofPred_eq] at hx hy ⊢
        rw [form_add]
        have := add_le_add (mul_le_mul_of_nonneg_left hx ha) (mul_le_mul_of_nonneg_left hy hb)
        rwa [← add_mul, hab, one_mul] at this
      rw [Hull.tri_eq] at hqt
      refine convexHull_min ?_ hcv hqt
      rintro _ ⟨x, hx, rfl⟩
      simp only [Set.mem_ofPred_eq, form_toP]
      have e := normal_edges ((only pts).pt t.1) ((only pts).pt t.2.1) ((only pts).pt t.2.2)
      rcases hx with rfl | rfl | rfl
      · exact le_rfl
      · exact e.1.ge
      · exact e.2.ge
    exact frontier_of_max (Hull.body_compact _).isClosed hN hqb fun p hp => (hle p hp).trans hform
  have hN : (only pts).normal s ≠ V3.zeros := triNormal_ne (p1 hh s hs)
  rcases hh.outward hs with ho | ho
  · exact key s (fun _ => Iff.rfl) hN ho
  · exact key _ (fun _ => corner_reverse) (by rw [Hull.normal_reverse]; exact Hull.neg_ne hN) ho

end
end Geec
