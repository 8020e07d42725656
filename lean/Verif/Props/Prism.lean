import Verif.Lemmas.PrismGradient
import Verif.Props.EndToEnd
import Verif.Props.HullExists
/-
C116: a rectangular block has the field of the prism formula of Nagy.
-/
namespace Geec
open Arith MeasureTheory Metric Set Filter Topology
noncomputable section

/-- The points span the block: its eight corners are among them, and all of them lie in the block. -/
structure SpansBlock (pts : List (V3 ℝ)) (x1 x2 y1 y2 z1 z2 : ℝ) : Prop where
  hx : x1 < x2
  hy : y1 < y2
  hz : z1 < z2
  corner : ∀ x ∈ [x1, x2], ∀ y ∈ [y1, y2], ∀ z ∈ [z1, z2], (⟨x, y, z⟩ : V3 ℝ) ∈ pts
  inside : ∀ p ∈ pts, x1 ≤ p.x ∧ p.x ≤ x2 ∧ y1 ≤ p.y ∧ p.y ≤ y2 ∧ z1 ≤ p.z ∧ p.z ≤ z2

/-- The coordinate `u` of a station is the coordinate `c` of a plane, or differs from it by more than `eps` and more than `√(2 eps D)`. -/
def Apart (D u c : ℝ) : Prop := u = c ∨ (repsilon < |u - c| ∧ 2 * repsilon * D < (u - c) ^ 2)

/-- The station is, from each of the six planes of the faces, either apart or in the plane; `D` is larger than its distance from the points. -/
structure SeesBlock (pts : List (V3 ℝ)) (x1 x2 y1 y2 z1 z2 D : ℝ) (s : V3 ℝ) : Prop where
  near : ∀ p ∈ pts, vlen (p.sub s) ≤ D
  ax : ∀ c ∈ [x1, x2], Apart D s.x c
  ay : ∀ c ∈ [y1, y2], Apart D s.y c
  az : ∀ c ∈ [z1, z2], Apart D s.z c

/-- the field of the block, by the formula of Nagy; `s` is the station -/
def nagyField (x1 x2 y1 y2 z1 z2 : ℝ) (s : V3 ℝ) : V3 ℝ :=
  ⟨-corners (fun x y z => nagy y z x) (x1 - s.x) (x2 - s.x) (y1 - s.y) (y2 - s.y) (z1 - s.z) (z2 - s.z),
   -corners (fun x y z => nagy z x y) (x1 - s.x) (x2 - s.x) (y1 - s.y) (y2 - s.y) (z1 - s.z) (z2 - s.z),
   -corners (fun x y z => nagy x y z) (x1 - s.x) (x2 - s.x) (y1 - s.y) (y2 - s.y) (z1 - s.z) (z2 - s.z)⟩

variable {pts : List (V3 ℝ)} {x1 x2 y1 y2 z1 z2 : ℝ}

theorem SpansBlock.solid (hb : SpansBlock pts x1 x2 y1 y2 z1 z2) : solidOf pts = block x1 x2 y1 y2 z1 z2 := by
  apply Subset.antisymm
  · apply convexHull_min _ (block_convex _ _ _ _ _ _)
    rintro q ⟨p, hp, rfl⟩
    obtain ⟨h1, h2, h3, h4, h5, h6⟩ := hb.inside p hp
    exact ⟨⟨h1, h2⟩, ⟨h3, h4⟩, ⟨h5, h6⟩⟩
  · have e : block x1 x2 y1 y2 z1 z2 = convexHull ℝ (({x1, x2} : Set ℝ) ×ˢ (({y1, y2} : Set ℝ) ×ˢ ({z1, z2} : Set ℝ))) := by
      rw [convexHull_prod, convexHull_prod, convexHull_pair, convexHull_pair, convexHull_pair, segment_eq_Icc hb.hx.le,
        segment_eq_Icc hb.hy.le, segment_eq_Icc hb.hz.le]
      rfl
    rw [e]
    apply convexHull_mono
    rintro ⟨x, y, z⟩ ⟨h1, h2, h3⟩
    exact ⟨⟨x, y, z⟩, hb.corner x (by simpa using h1) y (by simpa using h2) z (by simpa using h3), rfl⟩

theorem SpansBlock.interior (hb : SpansBlock pts x1 x2 y1 y2 z1 z2) :
    Ioo x1 x2 ×ˢ (Ioo y1 y2 ×ˢ Ioo z1 z2) ⊆ interior (solidOf pts) := by
  rw [hb.solid]
  apply interior_maximal
  · exact Set.prod_mono Ioo_subset_Icc_self (Set.prod_mono Ioo_subset_Icc_self Ioo_subset_Icc_self)
  · exact isOpen_Ioo.prod (isOpen_Ioo.prod isOpen_Ioo)

/-- every triangle of the surface lies in one of the six planes -/
theorem SpansBlock.face (hb : SpansBlock pts x1 x2 y1 y2 z1 z2) {h : Hull ℝ} (hpts : h.points = pts) (hh : h.IsHull)
    {t : Nat × Nat × Nat} (ht : t ∈ h.simplices) :
    (∃ c ∈ [x1, x2], ∀ i, Corner t i → (h.pt i).x = c) ∨ (∃ c ∈ [y1, y2], ∀ i, Corner t i → (h.pt i).y = c) ∨
    (∃ c ∈ [z1, z2], ∀ i, Corner t i → (h.pt i).z = c) := by
  subst hpts
  have hin : ∀ i, Corner t i → _ := fun i hi => hb.inside (h.pt i) (Hull.pt_mem (hh.cornerIndex t ht i hi))
  obtain ⟨a1, a2, a3, a4, a5, a6⟩ := hin _ (.inl rfl)
  obtain ⟨b1, b2, b3, b4, b5, b6⟩ := hin _ (.inr (.inl rfl))
  obtain ⟨c1, c2, c3, c4, c5, c6⟩ := hin _ (.inr (.inr rfl))
  set a := h.pt t.1
  set b := h.pt t.2.1
  set c := h.pt t.2.2
  have hq : ((a.x + b.x + c.x) / 3, (a.y + b.y + c.y) / 3, (a.z + b.z + c.z) / 3) ∈ frontier h.body := by
    rw [hh.cover]
    refine ⟨t, ht, ?_⟩
    refine mem_triangle.mpr ⟨1 / 3, 1 / 3, 1 / 3, by norm_num, by norm_num, by norm_num, by norm_num, ?_⟩
    refine Prod.ext ?_ (Prod.ext ?_ ?_) <;> simp only [V3.toP, Prod.fst_add, Prod.snd_add, Prod.smul_fst, Prod.smul_snd, smul_eq_mul] <;> ring
  have hni : ¬ (((a.x + b.x + c.x) / 3, (a.y + b.y + c.y) / 3, (a.z + b.z + c.z) / 3) : P3) ∈ Ioo x1 x2 ×ˢ (Ioo y1 y2 ×ˢ Ioo z1 z2) :=
    fun hm => hq.2 (hb.interior hm)
  have h3 : ∀ {u : ℝ} {f : V3 ℝ → ℝ}, f a = u → f b = u → f c = u → ∀ i, Corner t i → f (h.pt i) = u := by
    rintro u f ha hb hc i (rfl | rfl | rfl)
    · exact ha
    · exact hb
    · exact hc
  by_contra hcon
  push Not at hcon
  obtain ⟨k1, k2, k3⟩ := hcon
  apply hni
  refine ⟨⟨?_, ?_⟩, ⟨?_, ?_⟩, ⟨?_, ?_⟩⟩
  · show x1 < (a.x + b.x + c.x) / 3
    by_contra hle
    obtain ⟨i, hi, hne⟩ := k1 x1 (by simp)
    exact hne (h3 (f := V3.x) (by linarith) (by linarith) (by linarith) i hi)
  · show (a.x + b.x + c.x) / 3 < x2
    by_contra hle
    obtain ⟨i, hi, hne⟩ := k1 x2 (by simp)
    exact hne (h3 (f := V3.x) (by linarith) (by linarith) (by linarith) i hi)
  · show y1 < (a.y + b.y + c.y) / 3
    by_contra hle
    obtain ⟨i, hi, hne⟩ := k2 y1 (by simp)
    exact hne (h3 (f := V3.y) (by linarith) (by linarith) (by linarith) i hi)
  · show (a.y + b.y + c.y) / 3 < y2
    by_contra hle
    obtain ⟨i, hi, hne⟩ := k2 y2 (by simp)
    exact hne (h3 (f := V3.y) (by linarith) (by linarith) (by linarith) i hi)
  · show z1 < (a.z + b.z + c.z) / 3
    by_contra hle
    obtain ⟨i, hi, hne⟩ := k3 z1 (by simp)
    exact hne (h3 (f := V3.z) (by linarith) (by linarith) (by linarith) i hi)
  · show (a.z + b.z + c.z) / 3 < z2
    by_contra hle
    obtain ⟨i, hi, hne⟩ := k3 z2 (by simp)
    exact hne (h3 (f := V3.z) (by linarith) (by linarith) (by linarith) i hi)

/-- seen from a station apart from a plane, an edge in the plane is clear -/
theorem clear_in_plane {n a b s : V3 ℝ} {c D : ℝ} (hn : rdot n n = 1) (ha : rdot n a = c) (hb : rdot n b = c) (hab : a ≠ b)
    (hD : vlen (a.sub s) ≤ D) (h1 : repsilon < |rdot n s - c|) (h2 : 2 * repsilon * D < (rdot n s - c) ^ 2) : ClearOf a b s := by
  left
  have e0 : 0 < repsilon := by unfold repsilon; positivity
  set R := a.sub s with hR
  set L := b.sub a with hL
  have hnL : rdot n L = 0 := by rw [hL, rdot_sub]; linarith
  have hnR : rdot n R = c - rdot n s := by rw [hR, rdot_sub]; linarith
  have hz : rdot n R ≠ 0 := by
    intro h0
    have : rdot n s - c = 0 := by linarith
    rw [this, abs_zero] at h1
    linarith
  have hL0 : L ≠ V3.zeros := by
    intro h0
    apply hab
    have hx := congrArg V3.x h0
    have hy := congrArg V3.y h0
    have hz := congrArg V3.z h0
    simp only [hL, sub_x, sub_y, sub_z, zeros_x, zeros_y, zeros_z] at hx hy hz
    exact V3.ext' (by linarith) (by linarith) (by linarith)
  constructor
  · intro h0
    apply hL0
    have hx := congrArg V3.x h0
    have hy := congrArg V3.y h0
    have hz' := congrArg V3.z h0
    simp only [cross_x, cross_y, cross_z, zeros_x, zeros_y, zeros_z] at hx hy hz'
    simp only [rdot] at hnL hz
    refine V3.ext' ?_ ?_ ?_ <;> simp only [zeros_x, zeros_y, zeros_z] <;> apply (mul_eq_zero.mp _).resolve_left hz
    · linear_combination R.x * hnL - n.y * hz' + n.z * hy
    · linear_combination R.y * hnL + n.x * hz' - n.z * hx
    · linear_combination R.z * hnL - n.x * hy + n.y * hx
  · have gram : rdot n n * rdot R R * rdot L L + 2 * rdot n R * rdot R L * rdot n L - rdot n n * rdot R L ^ 2 - rdot R R * rdot n L ^ 2 -
        rdot L L * rdot n R ^ 2 = rdot n (cross R L) ^ 2 := by
      simp only [rdot, cross_x, cross_y, cross_z]; ring
    rw [hn, hnL] at gram
    have hLL := rdot_self_pos hL0
    have hvL : 0 < vlen L := Real.sqrt_pos.mpr hLL
    have hvL2 : vlen L ^ 2 = rdot L L := by rw [sq, vlen_sq]
    have hvR2 : vlen R ^ 2 = rdot R R := by rw [sq, vlen_sq]
    have hx : (rdot R L / vlen L) ^ 2 ≤ vlen R ^ 2 - rdot n R ^ 2 := by
      rw [div_pow, hvL2, div_le_iff₀ hLL, hvR2]
      nlinarith [sq_nonneg (rdot n (cross R L))]
    set x := rdot R L / vlen L
    have hζ : (rdot n s - c) ^ 2 = rdot n R ^ 2 := by rw [hnR]; ring
    rw [hζ] at h2
    have hRe : repsilon < vlen R := by
      have : |rdot n R| ≤ vlen R := by
        apply abs_le_of_sq_le_sq _ (vlen_nonneg R)
        nlinarith [sq_nonneg x]
      rw [hnR, abs_sub_comm] at this
      linarith
    by_contra hcon
    have hxle : vlen R - repsilon ≤ -x := by linarith
    have : (vlen R - repsilon) ^ 2 ≤ (-x) ^ 2 := by
      apply pow_le_pow_left₀ (by linarith) hxle
    nlinarith

theorem corner_pt_ne {h : Hull ℝ} (hh : h.IsHull) {t : Nat × Nat × Nat} (ht : t ∈ h.simplices) {i j : Nat} (hi : Corner t i) (hj : Corner t j)
    (hij : i ≠ j) : h.pt i ≠ h.pt j := by
  intro e
  apply hh.normal_ne ht
  have key : h.pt t.1 = h.pt t.2.1 ∨ h.pt t.1 = h.pt t.2.2 ∨ h.pt t.2.1 = h.pt t.2.2 := by
    rcases hi with rfl | rfl | rfl <;> rcases hj with rfl | rfl | rfl <;> first
      | exact absurd rfl hij
      | exact .inl e
      | exact .inl e.symm
      | exact .inr (.inl e)
      | exact .inr (.inl e.symm)
      | exact .inr (.inr e)
      | exact .inr (.inr e.symm)
  show cross ((h.pt t.2.1).sub (h.pt t.1)) ((h.pt t.2.2).sub (h.pt t.1)) = _
  rcases key with k | k | k <;> rw [k] <;> refine V3.ext' ?_ ?_ ?_ <;> simp <;> ring

/-- a triangle in a plane, the station apart from the plane or in it -/
theorem regular_in_plane {h : Hull ℝ} (hh : h.IsHull) {t : Nat × Nat × Nat} (ht : t ∈ h.simplices) {n s : V3 ℝ} {c D : ℝ} (hn : rdot n n = 1)
    (hpl : ∀ i, Corner t i → rdot n (h.pt i) = c) (hD : ∀ i, Corner t i → vlen ((h.pt i).sub s) ≤ D) (hs : Apart D (rdot n s) c) :
    (rdot (cross ((h.pt t.2.1).sub (h.pt t.1)) ((h.pt t.2.2).sub (h.pt t.1))) ((h.pt t.1).sub s) = 0 ∨
    (repsilon * vlen (cross ((h.pt t.2.1).sub (h.pt t.1)) ((h.pt t.2.2).sub (h.pt t.1))) <
        |rdot (cross ((h.pt t.2.1).sub (h.pt t.1)) ((h.pt t.2.2).sub (h.pt t.1))) ((h.pt t.1).sub s)|)) ∧
    (rdot n s ≠ c → ∀ i j, Corner t i → Corner t j → i ≠ j → ClearOf (h.pt i) (h.pt j) s) := by
  have hA := hpl _ (.inl rfl)
  have hB := hpl _ (.inr (.inl rfl))
  have hC := hpl _ (.inr (.inr rfl))
  have hN := hh.normal_ne ht
  have hpar := parallel_of_orth (e1 := (h.pt t.2.1).sub (h.pt t.1)) (e2 := (h.pt t.2.2).sub (h.pt t.1)) (n := n) hN
    (by rw [rdot_sub]; linarith) (by rw [rdot_sub]; linarith)
  change n = V3.smul (rdot n (h.normal t) / rdot (h.normal t) (h.normal t)) (h.normal t) at hpar
  change (rdot (h.normal t) _ = 0 ∨ repsilon * vlen (h.normal t) < |rdot (h.normal t) _|) ∧ _
  set N := h.normal t
  set l := rdot n N / rdot N N
  have hl : l ^ 2 * rdot N N = 1 := by
    rw [← hn, hpar, smul_rdot, rdot_smul]; ring
  have hR : l * rdot N ((h.pt t.1).sub s) = c - rdot n s := by
    rw [← hA, ← rdot_sub, hpar, smul_rdot]
  constructor
  · rcases hs with e | ⟨h1, h2⟩
    · left
      rw [e, sub_self] at hR
      refine (mul_eq_zero.mp hR).resolve_left fun h0 => ?_
      rw [h0] at hl; norm_num at hl
    · right
      have hlN : |l| * vlen N = 1 := by
        have : (|l| * vlen N) ^ 2 = 1 := by rw [mul_pow, sq_abs, sq (vlen N), vlen_sq, hl]
        have h0 := mul_nonneg (abs_nonneg l) (vlen_nonneg N)
        nlinarith
      have h3 : |l| * |rdot N ((h.pt t.1).sub s)| = |rdot n s - c| := by rw [← abs_mul, hR, abs_sub_comm]
      have hl0 : 0 < |l| := by
        rcases (abs_nonneg l).eq_or_lt with h0 | h0
        · rw [← h0] at hlN; norm_num at hlN
        · exact h0
      apply lt_of_mul_lt_mul_left _ hl0.le
      rw [h3, ← mul_assoc, mul_comm |l|, mul_assoc, hlN, mul_one]
      exact h1
  · intro hne i j hi hj hij
    obtain ⟨h1, h2⟩ := hs.resolve_left hne
    exact clear_in_plane hn (hpl i hi) (hpl j hj) (corner_pt_ne hh ht hi hj hij) (hD i hi) h1 h2


/-- the plane of a triangle of the block, and the station -/
theorem SeesBlock.plane (hb : SpansBlock pts x1 x2 y1 y2 z1 z2) {h : Hull ℝ} (hpts : h.points = pts) (hh : h.IsHull) {s : V3 ℝ} {D : ℝ}
    (hs : SeesBlock pts x1 x2 y1 y2 z1 z2 D s) {t : Nat × Nat × Nat} (ht : t ∈ h.simplices) :
    ∃ n c, rdot n n = 1 ∧ (∀ i, Corner t i → rdot n (h.pt i) = c) ∧ Apart D (rdot n s) c ∧
      ((s.x = c ∧ c ∈ [x1, x2]) ∨ (s.y = c ∧ c ∈ [y1, y2]) ∨ (s.z = c ∧ c ∈ [z1, z2]) ∨ rdot n s ≠ c) := by
  rcases hb.face hpts hh ht with ⟨c, hc, k⟩ | ⟨c, hc, k⟩ | ⟨c, hc, k⟩
  · refine ⟨⟨1, 0, 0⟩, c, by simp [rdot], fun i hi => by simp [rdot, k i hi], by simpa [rdot] using hs.ax c hc, ?_⟩
    by_cases e : s.x = c
    · exact .inl ⟨e, hc⟩
    · exact .inr (.inr (.inr (by simpa [rdot] using e)))
  · refine ⟨⟨0, 1, 0⟩, c, by simp [rdot], fun i hi => by simp [rdot, k i hi], by simpa [rdot] using hs.ay c hc, ?_⟩
    by_cases e : s.y = c
    · exact .inr (.inl ⟨e, hc⟩)
    · exact .inr (.inr (.inr (by simpa [rdot] using e)))
  · refine ⟨⟨0, 0, 1⟩, c, by simp [rdot], fun i hi => by simp [rdot, k i hi], by simpa [rdot] using hs.az c hc, ?_⟩
    by_cases e : s.z = c
    · exact .inr (.inr (.inl ⟨e, hc⟩))
    · exact .inr (.inr (.inr (by simpa [rdot] using e)))

theorem SeesBlock.near_corner {h : Hull ℝ} (hpts : h.points = pts) (hh : h.IsHull) {s : V3 ℝ} {D : ℝ}
    (hs : SeesBlock pts x1 x2 y1 y2 z1 z2 D s) {t : Nat × Nat × Nat} (ht : t ∈ h.simplices) : ∀ i, Corner t i → vlen ((h.pt i).sub s) ≤ D := by
  intro i hi
  subst hpts
  exact hs.near _ (Hull.pt_mem (hh.cornerIndex t ht i hi))

/-- a station that is apart from the six planes or in them is regular, whatever triangulation is found -/
theorem SeesBlock.regular (hb : SpansBlock pts x1 x2 y1 y2 z1 z2) {h : Hull ℝ} (hpts : h.points = pts) (hh : h.IsHull) {s : V3 ℝ} {D : ℝ}
    (hs : SeesBlock pts x1 x2 y1 y2 z1 z2 D s) : h.Regular s := by
  intro t ht
  obtain ⟨n, c, hn, hpl, hap, -⟩ := SeesBlock.plane hb hpts hh hs ht
  obtain ⟨k1, k2⟩ := regular_in_plane hh ht hn hpl (SeesBlock.near_corner hpts hh hs ht) hap
  rcases k1 with k1 | k1
  · exact .inl k1
  · by_cases e : rdot n s = c
    · left
      have hA := hpl _ (.inl rfl)
      have hB := hpl _ (.inr (.inl rfl))
      have hC := hpl _ (.inr (.inr rfl))
      have hN := hh.normal_ne ht
      have hpar := parallel_of_orth (e1 := (h.pt t.2.1).sub (h.pt t.1)) (e2 := (h.pt t.2.2).sub (h.pt t.1)) (n := n) hN
        (by rw [rdot_sub]; linarith) (by rw [rdot_sub]; linarith)
      have h0 : rdot n ((h.pt t.1).sub s) = 0 := by rw [rdot_sub]; linarith
      rw [hpar, smul_rdot] at h0
      refine (mul_eq_zero.mp h0).resolve_left fun hl => ?_
      rw [hl] at hpar
      rw [hpar] at hn
      simp [rdot] at hn
    · exact .inr ⟨k1, k2 e⟩

/-- a station off the six planes is clear of all edges, and off the surface -/
theorem SeesBlock.clear (hb : SpansBlock pts x1 x2 y1 y2 z1 z2) {h : Hull ℝ} (hpts : h.points = pts) (hh : h.IsHull) {s : V3 ℝ} {D : ℝ}
    (hs : SeesBlock pts x1 x2 y1 y2 z1 z2 D s) (hx : s.x ∉ [x1, x2]) (hy : s.y ∉ [y1, y2]) (hz : s.z ∉ [z1, z2]) :
    h.Clear s ∧ s.toP ∉ frontier h.body := by
  have hne : ∀ t ∈ h.simplices, ∃ n c, rdot n n = 1 ∧ (∀ i, Corner t i → rdot n (h.pt i) = c) ∧ Apart D (rdot n s) c ∧ rdot n s ≠ c := by
    intro t ht
    obtain ⟨n, c, hn, hpl, hap, k | k | k | k⟩ := SeesBlock.plane hb hpts hh hs ht
    · exact absurd (k.1 ▸ k.2) hx
    · exact absurd (k.1 ▸ k.2) hy
    · exact absurd (k.1 ▸ k.2) hz
    · exact ⟨n, c, hn, hpl, hap, k⟩
  constructor
  · intro t ht
    obtain ⟨n, c, hn, hpl, hap, k⟩ := hne t ht
    exact (regular_in_plane hh ht hn hpl (SeesBlock.near_corner hpts hh hs ht) hap).2 k
  · rw [hh.cover]
    rintro ⟨t, ht, hm⟩
    obtain ⟨n, c, hn, hpl, hap, k⟩ := hne t ht
    obtain ⟨u, v, w, -, -, -, hs1, e⟩ := mem_triangle.mp hm
    apply k
    have hA := hpl _ (.inl rfl)
    have hB := hpl _ (.inr (.inl rfl))
    have hC := hpl _ (.inr (.inr rfl))
    have ex := congrArg Prod.fst e
    have ey := congrArg (fun q => q.2.1) e
    have ez := congrArg (fun q => q.2.2) e
    simp only [V3.toP, Prod.fst_add, Prod.snd_add, Prod.smul_fst, Prod.smul_snd, smul_eq_mul] at ex ey ez
    simp only [rdot] at hA hB hC ⊢
    rw [ex, ey, ez]
    linear_combination u * hA + v * hB + w * hC + c * hs1

/-- **C116** The field of a rectangular block is that of the prism formula of Nagy: for any triangulation of the six faces, any further points in
the block, and any station - outside, inside, in the plane of a face or on a face - that is not closer than `eps` and `√(2 eps D)` to the
plane of a face without lying in it. -/
theorem C116_field (hb : SpansBlock pts x1 x2 y1 y2 z1 z2) {h : Hull ℝ} (hpts : h.points = pts) (hh : h.IsHull) {inHull : V3 ℝ → Bool}
    {p : Poly ℝ} (hp : mkPoly h inHull = .ok p) {s : V3 ℝ} {D : ℝ} (hs : SeesBlock pts x1 x2 y1 y2 z1 z2 D s) {ρ Gc : ℝ} {gr : Bool}
    {G : V3 ℝ} {T : M3 ℝ} (hv : Call.onNew p ⟨s, ρ, Gc, gr⟩ = .ok (G, T)) : G = V3.smul (100000 * Gc * ρ) (nagyField x1 x2 y1 y2 z1 z2 s) := by
  have hbody : h.body = block x1 x2 y1 y2 z1 z2 := by rw [← hb.solid, ← hpts]; rfl
  rw [(C16_newton hh hp (SeesBlock.regular hb hpts hh hs) hv).1, hbody, block_attraction hb.hx.le hb.hy.le hb.hz.le]
  rfl

/-- **C116** The rows of the tensor, where the attraction is differentiable: a station off the surface and clear of the edges.  The row of a
component needs the station off the two planes across its axis (elsewhere Nagy's formula is a limit, not a value). -/
theorem C116_tensor (hb : SpansBlock pts x1 x2 y1 y2 z1 z2) {h : Hull ℝ} (hpts : h.points = pts) (hh : h.IsHull) {inHull : V3 ℝ → Bool}
    {p : Poly ℝ} (hp : mkPoly h inHull = .ok p) {s : V3 ℝ} {D : ℝ} (hs : SeesBlock pts x1 x2 y1 y2 z1 z2 D s) (hc : h.Clear s)
    (hoff : s.toP ∉ frontier h.body) (ρ Gc : ℝ) : ∃ G T, Call.onNew p ⟨s, ρ, Gc, true⟩ = .ok (G, T) ∧
    (s.x ∉ [x1, x2] → T.r0 = V3.smul (1000000000 * Gc * ρ)
      ⟨-corners (fun x y z => Real.arctan (y * z / (x * rad3 x y z))) (x1 - s.x) (x2 - s.x) (y1 - s.y) (y2 - s.y) (z1 - s.z) (z2 - s.z),
       corners (fun x y z => Real.log (z + rad3 x y z)) (x1 - s.x) (x2 - s.x) (y1 - s.y) (y2 - s.y) (z1 - s.z) (z2 - s.z),
       corners (fun x y z => Real.log (y + rad3 x y z)) (x1 - s.x) (x2 - s.x) (y1 - s.y) (y2 - s.y) (z1 - s.z) (z2 - s.z)⟩) ∧
    (s.y ∉ [y1, y2] → T.r1 = V3.smul (1000000000 * Gc * ρ)
      ⟨corners (fun x y z => Real.log (z + rad3 x y z)) (x1 - s.x) (x2 - s.x) (y1 - s.y) (y2 - s.y) (z1 - s.z) (z2 - s.z),
       -corners (fun x y z => Real.arctan (z * x / (y * rad3 x y z))) (x1 - s.x) (x2 - s.x) (y1 - s.y) (y2 - s.y) (z1 - s.z) (z2 - s.z),
       corners (fun x y z => Real.log (x + rad3 x y z)) (x1 - s.x) (x2 - s.x) (y1 - s.y) (y2 - s.y) (z1 - s.z) (z2 - s.z)⟩) ∧
    (s.z ∉ [z1, z2] → T.r2 = V3.smul (1000000000 * Gc * ρ)
      ⟨corners (fun x y z => Real.log (y + rad3 x y z)) (x1 - s.x) (x2 - s.x) (y1 - s.y) (y2 - s.y) (z1 - s.z) (z2 - s.z),
       corners (fun x y z => Real.log (x + rad3 x y z)) (x1 - s.x) (x2 - s.x) (y1 - s.y) (y2 - s.y) (z1 - s.z) (z2 - s.z),
       -corners (fun x y z => Real.arctan (x * y / (z * rad3 x y z))) (x1 - s.x) (x2 - s.x) (y1 - s.y) (y2 - s.y) (z1 - s.z) (z2 - s.z)⟩) := by
  have hbody : h.body = block x1 x2 y1 y2 z1 z2 := by rw [← hb.solid, ← hpts]; rfl
  obtain ⟨G, T, hv, hd⟩ := C64_partial hh hp (SeesBlock.regular hb hpts hh hs) hc hoff ρ Gc
  rw [hbody] at hd
  refine ⟨G, T, hv, fun hx => ?_, fun hy => ?_, fun hz => ?_⟩
  · simp only [List.mem_cons, List.not_mem_nil, or_false, not_or] at hx
    obtain ⟨k1, k2, k3⟩ := block_gradient_x hb.hx.le hb.hy.le hb.hz.le (s := s) hx.1 hx.2
    refine V3.ext' ?_ ?_ ?_
    · simpa [rdot] using (hd ⟨1, 0, 0⟩).1.unique (k1.const_mul _)
    · simpa [rdot] using (hd ⟨0, 1, 0⟩).1.unique (k2.const_mul _)
    · simpa [rdot] using (hd ⟨0, 0, 1⟩).1.unique (k3.const_mul _)
  · simp only [List.mem_cons, List.not_mem_nil, or_false, not_or] at hy
    obtain ⟨k1, k2, k3⟩ := block_gradient_y hb.hx.le hb.hy.le hb.hz.le (s := s) hy.1 hy.2
    refine V3.ext' ?_ ?_ ?_
    · simpa [rdot] using (hd ⟨1, 0, 0⟩).2.1.unique (k1.const_mul _)
    · simpa [rdot] using (hd ⟨0, 1, 0⟩).2.1.unique (k2.const_mul _)
    · simpa [rdot] using (hd ⟨0, 0, 1⟩).2.1.unique (k3.const_mul _)
  · simp only [List.mem_cons, List.not_mem_nil, or_false, not_or] at hz
    obtain ⟨k1, k2, k3⟩ := block_gradient_z hb.hx.le hb.hy.le hb.hz.le (s := s) hz.1 hz.2
    refine V3.ext' ?_ ?_ ?_
    · simpa [rdot] using (hd ⟨1, 0, 0⟩).2.2.unique (k1.const_mul _)
    · simpa [rdot] using (hd ⟨0, 1, 0⟩).2.2.unique (k2.const_mul _)
    · simpa [rdot] using (hd ⟨0, 0, 1⟩).2.2.unique (k3.const_mul _)

/-- **C116** Off the six planes nothing is left to assume: whatever triangulation the hull library finds, the polyhedron is built, the query
returns, and field and tensor are those of the prism formula. -/
theorem C116_block (hb : SpansBlock pts x1 x2 y1 y2 z1 z2) {h : Hull ℝ} (hpts : h.points = pts) (hh : h.IsHull) (inHull : V3 ℝ → Bool)
    {s : V3 ℝ} {D : ℝ} (hs : SeesBlock pts x1 x2 y1 y2 z1 z2 D s) (hx : s.x ∉ [x1, x2]) (hy : s.y ∉ [y1, y2]) (hz : s.z ∉ [z1, z2])
    (ρ Gc : ℝ) : ∃ p G T, mkPoly h inHull = .ok p ∧ Call.onNew p ⟨s, ρ, Gc, true⟩ = .ok (G, T) ∧
    G = V3.smul (100000 * Gc * ρ) (nagyField x1 x2 y1 y2 z1 z2 s) ∧
    T.r0.x = 1000000000 * Gc * ρ * -corners (fun x y z => Real.arctan (y * z / (x * rad3 x y z))) (x1 - s.x) (x2 - s.x) (y1 - s.y) (y2 - s.y) (z1 - s.z) (z2 - s.z) ∧
    T.r1.y = 1000000000 * Gc * ρ * -corners (fun x y z => Real.arctan (z * x / (y * rad3 x y z))) (x1 - s.x) (x2 - s.x) (y1 - s.y) (y2 - s.y) (z1 - s.z) (z2 - s.z) ∧
    T.r2.z = 1000000000 * Gc * ρ * -corners (fun x y z => Real.arctan (x * y / (z * rad3 x y z))) (x1 - s.x) (x2 - s.x) (y1 - s.y) (y2 - s.y) (z1 - s.z) (z2 - s.z) ∧
    T.r0.y = 1000000000 * Gc * ρ * corners (fun x y z => Real.log (z + rad3 x y z)) (x1 - s.x) (x2 - s.x) (y1 - s.y) (y2 - s.y) (z1 - s.z) (z2 - s.z) ∧
    T.r0.z = 1000000000 * Gc * ρ * corners (fun x y z => Real.log (y + rad3 x y z)) (x1 - s.x) (x2 - s.x) (y1 - s.y) (y2 - s.y) (z1 - s.z) (z2 - s.z) ∧
    T.r1.z = 1000000000 * Gc * ρ * corners (fun x y z => Real.log (x + rad3 x y z)) (x1 - s.x) (x2 - s.x) (y1 - s.y) (y2 - s.y) (z1 - s.z) (z2 - s.z) ∧
    T.r1.x = T.r0.y ∧ T.r2.x = T.r0.z ∧ T.r2.y = T.r1.z := by
  obtain ⟨p, hp⟩ := hull_mkPoly_ok hh inHull
  obtain ⟨hc, hoff⟩ := SeesBlock.clear hb hpts hh hs hx hy hz
  obtain ⟨G, T, hv, k0, k1, k2⟩ := C116_tensor hb hpts hh hp hs hc hoff ρ Gc
  refine ⟨p, G, T, hp, hv, C116_field hb hpts hh hp hs hv, ?_⟩
  rw [k0 hx, k1 hy, k2 hz]
  exact ⟨rfl, rfl, rfl, rfl, rfl, rfl, rfl, rfl, rfl⟩

/-- **C116** End to end: a returning run whose bodies are blocks with equal densities and constants writes, on the line of a point that is apart from
the planes of the blocks or in them, the sums of the prism formula. -/
theorem C116_run (g : Geodesy ℝ) (o : Outside ℝ) (lib : HullLib ℝ) (hlib : lib.Honest) (cfg : View ℝ) (gr : Bool) (t : Table ℝ)
    (r : RunData ℝ) (h : runTable g o lib cfg gr = .ok t) (hr : r.Of g o lib cfg) (ρ Gc : ℝ)
    (hd : ∀ m ∈ r.configured, m.density = ρ ∧ m.gravityConstant = Gc) (i : Nat) (p : V3 ℝ) (hp : r.stations.coords.rows[i]? = some p)
    (lo hi : Mass ℝ → V3 ℝ) (D : ℝ)
    (hb : ∀ m ∈ r.masses, SpansBlock m.dataset.coords.rows (lo m).x (hi m).x (lo m).y (hi m).y (lo m).z (hi m).z ∧
      SeesBlock m.dataset.coords.rows (lo m).x (hi m).x (lo m).y (hi m).y (lo m).z (hi m).z D p) :
    ∃ row, t.rows[i]? = some row ∧ row.length = 12 ∧ row.take 6 = [p.x, p.y, p.z,
      100000 * Gc * ρ * (r.masses.map fun m => (nagyField (lo m).x (hi m).x (lo m).y (hi m).y (lo m).z (hi m).z p).x).sum,
      100000 * Gc * ρ * (r.masses.map fun m => (nagyField (lo m).x (hi m).x (lo m).y (hi m).y (lo m).z (hi m).z p).y).sum,
      100000 * Gc * ρ * (r.masses.map fun m => (nagyField (lo m).x (hi m).x (lo m).y (hi m).y (lo m).z (hi m).z p).z).sum] := by
  have key : ∀ f : V3 ℝ → ℝ, sumOver r.masses (fun B => f (attraction B p)) =
      (r.masses.map fun m => f (nagyField (lo m).x (hi m).x (lo m).y (hi m).y (lo m).z (hi m).z p)).sum := by
    intro f
    unfold sumOver
    congr 1
    apply List.map_congr_left
    intro m hm
    obtain ⟨k1, -⟩ := hb m hm
    show f (attraction (solidOf m.dataset.coords.rows) p) = _
    rw [k1.solid, block_attraction k1.hx.le k1.hy.le k1.hz.le]
    rfl
  rw [← key V3.x, ← key V3.y, ← key V3.z]
  exact C69_newton g o lib hlib cfg gr t r h hr ρ Gc hd i p hp fun m hm hu hu' =>
    SeesBlock.regular (hb m hm).1 (hlib _ _ hu').1 (hlib _ _ hu').2 (hb m hm).2

/-! ### The cube of the tests -/

/-- the points of the cube of the tests, /repo/tests/conftest.py:19-28 -/
def testCube : List (V3 ℝ) := [⟨-1/2, -1/2, 0⟩, ⟨1/2, -1/2, 0⟩, ⟨1/2, 1/2, 0⟩, ⟨-1/2, 1/2, 0⟩, ⟨-1/2, -1/2, -1⟩, ⟨1/2, -1/2, -1⟩, ⟨1/2, 1/2, -1⟩, ⟨-1/2, 1/2, -1⟩]

theorem testCube_spans : SpansBlock testCube (-1/2) (1/2) (-1/2) (1/2) (-1) 0 where
  hx := by norm_num
  hy := by norm_num
  hz := by norm_num
  corner := by
    intro x hx y hy z hz
    simp only [List.mem_cons, List.not_mem_nil, or_false] at hx hy hz
    rcases hx with rfl | rfl <;> rcases hy with rfl | rfl <;> rcases hz with rfl | rfl <;> simp [testCube]
  inside := by
    intro p hp
    simp only [testCube, List.mem_cons, List.not_mem_nil, or_false] at hp
    rcases hp with rfl | rfl | rfl | rfl | rfl | rfl | rfl | rfl <;> norm_num

theorem apart_of {u c : ℝ} (h : 1 / 1000 ≤ |u - c|) : Apart 5 u c := by
  have e1 : repsilon < 1 / 1000 := by unfold repsilon; norm_num
  have e2 : 2 * repsilon * 5 < (1 / 1000) ^ 2 := by unfold repsilon; norm_num
  refine .inr ⟨by linarith, ?_⟩
  rw [← sq_abs]
  refine e2.trans_le (pow_le_pow_left₀ (by norm_num) h 2)

/-- stations near the cube -/
theorem testCube_sees {s : V3 ℝ} (h1 : |s.x| ≤ 2) (h2 : |s.y| ≤ 2) (h3 : |s.z| ≤ 2) (ax : ∀ c ∈ [(-1/2 : ℝ), 1/2], Apart 5 s.x c)
    (ay : ∀ c ∈ [(-1/2 : ℝ), 1/2], Apart 5 s.y c) (az : ∀ c ∈ [(-1 : ℝ), 0], Apart 5 s.z c) :
    SeesBlock testCube (-1/2) (1/2) (-1/2) (1/2) (-1) 0 5 s where
  near := by
    intro p hp
    obtain ⟨a1, a2, a3, a4, a5, a6⟩ := testCube_spans.inside p hp
    obtain ⟨b1, b2⟩ := abs_le.mp h1
    obtain ⟨b3, b4⟩ := abs_le.mp h2
    obtain ⟨b5, b6⟩ := abs_le.mp h3
    unfold vlen
    apply Real.sqrt_le_iff.mpr ⟨by norm_num, ?_⟩
    simp only [rdot, sub_x, sub_y, sub_z]
    nlinarith
  ax := ax
  ay := ay
  az := az

/-- the station of the tests, /repo/tests/conftest.py:18; it lies in the plane of the top face, on the line of one of its diagonals -/
def testStation : V3 ℝ := ⟨-21/20, -21/20, 0⟩

theorem testCube_seen : SeesBlock testCube (-1/2) (1/2) (-1/2) (1/2) (-1) 0 5 testStation := by
  refine testCube_sees ?_ ?_ ?_ ?_ ?_ ?_ <;> unfold testStation
  · rw [abs_le]; norm_num
  · rw [abs_le]; norm_num
  · norm_num
  · intro c hc
    apply apart_of
    simp only [List.mem_cons, List.not_mem_nil, or_false] at hc
    rcases hc with rfl | rfl <;> norm_num [abs_of_neg]
  · intro c hc
    apply apart_of
    simp only [List.mem_cons, List.not_mem_nil, or_false] at hc
    rcases hc with rfl | rfl <;> norm_num [abs_of_neg]
  · intro c hc
    simp only [List.mem_cons, List.not_mem_nil, or_false] at hc
    rcases hc with rfl | rfl
    · apply apart_of; norm_num
    · exact .inl rfl

theorem testCube_clear {h : Hull ℝ} (e : h.points = testCube) (hh : h.IsHull) : h.Clear testStation := by
  have hpt : ∀ i, h.pt i = at3 testCube i := fun i => by unfold Hull.pt; rw [e]
  have hlt : ∀ t ∈ h.simplices, ∀ i, Corner t i → i < 8 := fun t ht i hi => by have := hh.cornerIndex t ht i hi; rwa [e] at this
  have hfar : ∀ {a b : V3 ℝ}, 1 ≤ rdot (a.sub b) (a.sub b) * 4 → repsilon < 2 * vlen (a.sub b) := by
    intro a b hab
    have h1 : (1 / 2 : ℝ) ≤ vlen (a.sub b) := by
      apply Real.le_sqrt_of_sq_le
      linarith
    have h2 : repsilon < 1 := by unfold repsilon; norm_num
    linarith
  intro t ht i j hi hj hij
  have hi8 := hlt t ht i hi
  have hj8 := hlt t ht j hj
  rw [hpt, hpt]
  by_cases h02 : i = 0 ∧ j = 2
  · obtain ⟨rfl, rfl⟩ := h02
    refine .inr (.inl ⟨11 / 20, by norm_num, V3.ext' ?_ ?_ ?_, hfar ?_⟩) <;>
      simp only [testCube, testStation, at3, rdot, smul_x, smul_y, smul_z, sub_x, sub_y, sub_z, List.getD_cons_zero, List.getD_cons_succ] <;> norm_num
  by_cases h20 : i = 2 ∧ j = 0
  · obtain ⟨rfl, rfl⟩ := h20
    refine .inr (.inr ⟨11 / 20, by norm_num, V3.ext' ?_ ?_ ?_, hfar ?_⟩) <;>
      simp only [testCube, testStation, at3, rdot, smul_x, smul_y, smul_z, sub_x, sub_y, sub_z, List.getD_cons_zero, List.getD_cons_succ] <;> norm_num
  interval_cases i <;> interval_cases j <;> first
    | exact absurd rfl hij
    | exact absurd ⟨rfl, rfl⟩ h02
    | exact absurd ⟨rfl, rfl⟩ h20
    | (apply clearOf_bounds <;> simp only [testCube, testStation, at3, rdot, cross_x, cross_y, cross_z, sub_x, sub_y, sub_z, List.getD_cons_zero, List.getD_cons_succ] <;> norm_num)

/-- C116: the cube of the tests: for every triangulation of its faces the query at the station of the tests returns the field of the prism formula
(with and without the gradient), the components x and y are equal, and a triangulation exists. -/
example (gr : Bool) : (∃ h : Hull ℝ, h.points = testCube ∧ h.IsHull) ∧ ∀ (h : Hull ℝ) (inHull : V3 ℝ → Bool), h.points = testCube → h.IsHull →
    ∃ p G T, mkPoly h inHull = .ok p ∧ Call.onNew p ⟨testStation, 1000, 667408 / 10 ^ 16, gr⟩ = .ok (G, T) ∧
    G = V3.smul (100000 * (667408 / 10 ^ 16) * 1000) (nagyField (-1/2) (1/2) (-1/2) (1/2) (-1) 0 testStation) ∧ G.x = G.y := by
  refine ⟨?_, fun h inHull e hh => ?_⟩
  · obtain ⟨h, e, hh, -⟩ := (C104_exists testCube).mpr (by
      refine ⟨(0, 0, -1/2), testCube_spans.interior ?_⟩
      refine ⟨?_, ?_, ?_⟩ <;> constructor <;> norm_num)
    exact ⟨h, e, hh⟩
  obtain ⟨p, hp⟩ := hull_mkPoly_ok hh inHull
  obtain ⟨⟨G, T⟩, hv⟩ := onNew_ok_of_clear hh hp (clear_edges hh hp (testCube_clear e hh)) 1000 (667408 / 10 ^ 16) gr
  have hG := C116_field testCube_spans e hh hp testCube_seen hv
  refine ⟨p, G, T, hp, hv, hG, ?_⟩
  rw [hG]
  simp only [smul_x, smul_y, nagyField, corners, testStation, nagy_swap _ _ (-1 / 2 - (-21 / 20)), nagy_swap _ _ (1 / 2 - (-21 / 20))]
  ring

/-- C116: there is such a triangulation; seen from (0, 1, 1/4) the query returns and the diagonal of the tensor is a sum of arctangents -/
example : ∃ (h : Hull ℝ) (p : Poly ℝ) (G : V3 ℝ) (T : M3 ℝ), h.points = testCube ∧ h.IsHull ∧ mkPoly h (fun _ => true) = .ok p ∧
    Call.onNew p ⟨⟨0, 1, 1/4⟩, 1000, 1, true⟩ = .ok (G, T) ∧ G = V3.smul (100000 * 1 * 1000) (nagyField (-1/2) (1/2) (-1/2) (1/2) (-1) 0 ⟨0, 1, 1/4⟩) := by
  obtain ⟨h, e, hh, -⟩ := (C104_exists testCube).mpr (by
    refine ⟨(0, 0, -1/2), testCube_spans.interior ?_⟩
    refine ⟨?_, ?_, ?_⟩ <;> constructor <;> norm_num)
  obtain ⟨p, G, T, h1, h2, h3, -⟩ := C116_block testCube_spans e hh (fun _ => true) (s := ⟨0, 1, 1/4⟩) (testCube_sees (by norm_num) (by norm_num)
    (by rw [abs_le]; norm_num) (by
      intro c hc
      apply apart_of
      simp only [List.mem_cons, List.not_mem_nil, or_false] at hc
      rcases hc with rfl | rfl <;> norm_num) (by
      intro c hc
      apply apart_of
      simp only [List.mem_cons, List.not_mem_nil, or_false] at hc
      rcases hc with rfl | rfl <;> norm_num) (by
      intro c hc
      apply apart_of
      simp only [List.mem_cons, List.not_mem_nil, or_false] at hc
      rcases hc with rfl | rfl <;> norm_num)) (by norm_num) (by norm_num) (by norm_num) 1000 1
  exact ⟨h, p, G, T, e, hh, h1, h2, h3⟩

end
end Geec
