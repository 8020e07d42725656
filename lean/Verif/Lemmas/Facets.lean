import Verif.Spec.General
import Verif.Lemmas.HullSurface
import Mathlib.LinearAlgebra.Matrix.ToLinearEquiv
import Mathlib.Analysis.Convex.Combination
/-
The boundary of the convex hull of points in general position: it is the union of the triangles of those three points that have all others on one side.
-/
namespace Geec
open Arith
noncomputable section

/-- six times the signed volume of a tetrahedron -/
def vol (a b c d : V3 ℝ) : ℝ := rdot (triNormal a b c) (d.sub a)

/-- a vector orthogonal to three vectors with determinant 0 -/
theorem exists_orth3 {e1 e2 e3 : V3 ℝ} (h : rdot (cross e1 e2) e3 = 0) : ∃ n : V3 ℝ, n ≠ V3.zeros ∧ rdot n e1 = 0 ∧ rdot n e2 = 0 ∧ rdot n e3 = 0 := by
  let M : Matrix (Fin 3) (Fin 3) ℝ := !![e1.x, e1.y, e1.z; e2.x, e2.y, e2.z; e3.x, e3.y, e3.z]
  have hM : M.det = 0 := by
    rw [Matrix.det_fin_three]
    simp only [rdot, cross_x, cross_y, cross_z] at h
    simp [M]
    linarith
  obtain ⟨v, v0, hv⟩ := Matrix.exists_mulVec_eq_zero_iff.mpr hM
  have h0 := congrFun hv 0
  have h1 := congrFun hv 1
  have h2 := congrFun hv 2
  simp [M, Matrix.mulVec, dotProduct, Fin.sum_univ_three] at h0 h1 h2
  refine ⟨⟨v 0, v 1, v 2⟩, fun e => v0 ?_, ?_, ?_, ?_⟩
  · have hx := congrArg V3.x e
    have hy := congrArg V3.y e
    have hz := congrArg V3.z e
    ext i
    fin_cases i
    · exact hx
    · exact hy
    · exact hz
  · simp only [rdot]; linarith
  · simp only [rdot]; linarith
  · simp only [rdot]; linarith

theorem coplanar_iff {a b c d : V3 ℝ} : Coplanar4 a b c d ↔ vol a b c d = 0 := by
  constructor
  · rintro ⟨n, n0, h1, h2, h3⟩
    by_contra hv
    have hN : triNormal a b c ≠ V3.zeros := by
      intro h0
      apply hv
      rw [vol, h0]
      simp [rdot]
    have hp := parallel_of_orth (n := n) (e1 := b.sub a) (e2 := c.sub a) hN (by rw [rdot_sub]; linarith) (by rw [rdot_sub]; linarith)
    set l := rdot n (cross (b.sub a) (c.sub a)) / rdot (cross (b.sub a) (c.sub a)) (cross (b.sub a) (c.sub a))
    have h4 : rdot n (d.sub a) = 0 := by rw [rdot_sub]; linarith
    rw [hp, smul_rdot] at h4
    rcases mul_eq_zero.mp h4 with h5 | h5
    · apply n0
      rw [hp, h5]
      refine V3.ext' ?_ ?_ ?_ <;> simp
    · exact hv h5
  · intro hv
    obtain ⟨n, n0, h1, h2, h3⟩ := exists_orth3 (e1 := b.sub a) (e2 := c.sub a) (e3 := d.sub a) hv
    rw [rdot_sub] at h1 h2 h3
    exact ⟨n, n0, by linarith, by linarith, by linarith⟩

/-- a continuous linear form from a vector -/
def form (n : V3 ℝ) : P3 → ℝ := fun q => rdot n (P3.toV q)

theorem form_toP (n a : V3 ℝ) : form n a.toP = rdot n a := rfl

theorem form_add (n : V3 ℝ) (p q : P3) (a b : ℝ) : form n (a • p + b • q) = a * form n p + b * form n q := by
  simp only [form, rdot, P3.toV, Prod.fst_add, Prod.snd_add, Prod.smul_fst, Prod.smul_snd, smul_eq_mul]
  ring

theorem form_continuous (n : V3 ℝ) : Continuous (form n) := by
  unfold form rdot P3.toV
  fun_prop

theorem convex_le (n : V3 ℝ) (c : ℝ) : Convex ℝ {q : P3 | form n q ≤ c} := by
  intro x hx y hy a b ha hb hab
  simp only [Set.mem_ofPred_eq] at hx hy ⊢
  rw [form_add]
  have : c = a * c + b * c := by rw [← add_mul, hab, one_mul]
  nlinarith [mul_le_mul_of_nonneg_left hx ha, mul_le_mul_of_nonneg_left hy hb]

/-- points below a plane, with those of a convex set on the plane -/
theorem convex_below (n : V3 ℝ) (c : ℝ) {B : Set P3} (hB : Convex ℝ B) : Convex ℝ {q : P3 | form n q < c ∨ (form n q = c ∧ q ∈ B)} := by
  intro x hx y hy a b ha hb hab
  rcases ha.eq_or_lt with rfl | ha'
  · rw [zero_add] at hab; subst hab; simpa using hy
  rcases hb.eq_or_lt with rfl | hb'
  · rw [add_zero] at hab; subst hab; simpa using hx
  have hc : c = a * c + b * c := by rw [← add_mul, hab, one_mul]
  simp only [Set.mem_ofPred_eq] at hx hy ⊢
  rw [form_add]
  rcases hx with hx | ⟨hx, hx'⟩ <;> rcases hy with hy | ⟨hy, hy'⟩
  · left; nlinarith [mul_lt_mul_of_pos_left hx ha', mul_lt_mul_of_pos_left hy hb']
  · left; nlinarith [mul_lt_mul_of_pos_left hx ha']
  · left; nlinarith [mul_lt_mul_of_pos_left hy hb']
  · right; exact ⟨by rw [hx, hy]; linarith, hB hx' hy' ha hb hab⟩

/-- what a supporting plane has in common with a convex hull is the convex hull of the points on it -/
theorem mem_face {S : Set P3} {n : V3 ℝ} {c : ℝ} (hS : ∀ q ∈ S, form n q ≤ c) {q : P3} (hq : q ∈ convexHull ℝ S) (hc : form n q = c) :
    q ∈ convexHull ℝ {p ∈ S | form n p = c} := by
  have h : convexHull ℝ S ⊆ {q : P3 | form n q < c ∨ (form n q = c ∧ q ∈ convexHull ℝ {p ∈ S | form n p = c})} :=
    convexHull_min (fun p hp => (hS p hp).lt_or_eq.imp id fun e => ⟨e, subset_convexHull ℝ _ ⟨hp, e⟩⟩) (convex_below n c (convex_convexHull ℝ _))
  rcases h hq with h | h
  · linarith
  · exact h.2

/-- a plane with a point of the boundary, and the body on one side -/
theorem frontier_of_max {A : Set P3} (hA : IsClosed A) {n : V3 ℝ} (n0 : n ≠ V3.zeros) {q : P3} (hq : q ∈ A) (hm : ∀ p ∈ A, form n p ≤ form n q) :
    q ∈ frontier A := by
  rw [hA.frontier_eq]
  refine ⟨hq, fun hi => ?_⟩
  have hc : Continuous fun t : ℝ => q + t • n.toP := by fun_prop
  have h0 : (fun t : ℝ => q + t • n.toP) ⁻¹' interior A ∈ nhds (0 : ℝ) := hc.continuousAt.preimage_mem_nhds (by
    simpa using isOpen_interior.mem_nhds hi)
  obtain ⟨e, e0, he⟩ := Metric.mem_nhds_iff.mp h0
  have h1 : (e / 2) ∈ Metric.ball (0 : ℝ) e := by
    rw [Metric.mem_ball, dist_zero_right, Real.norm_eq_abs, abs_of_pos (by linarith)]
    linarith
  have h2 := hm _ (interior_subset (he h1))
  have h3 : form n (q + (e / 2) • n.toP) = form n q + (e / 2) * rdot n n := by
    have := form_add n q n.toP 1 (e / 2)
    rw [one_smul, one_mul, form_toP] at this
    exact this
  rw [h3] at h2
  have := mul_pos (half_pos e0) (rdot_self_pos n0)
  linarith

/-- and at every point of the boundary there is one -/
theorem max_of_frontier {A : Set P3} (hcv : Convex ℝ A) (hs : (interior A).Nonempty) {q : P3} (hq : q ∈ frontier A) :
    ∃ n : V3 ℝ, n ≠ V3.zeros ∧ ∀ p ∈ A, form n p ≤ form n q := by
  obtain ⟨f, hf⟩ := geometric_hahn_banach_open_point hcv.interior isOpen_interior hq.2
  obtain ⟨n, hn⟩ := linear_form f
  have hfn : ∀ p, f p = form n p := fun p => by rw [← toV_toP p, hn]; rfl
  refine ⟨n, ?_, fun p hp => ?_⟩
  · rintro rfl
    obtain ⟨p, hp⟩ := hs
    have := hf p hp
    rw [hfn, hfn] at this
    simp [form, rdot] at this
  · have hcl : p ∈ closure (interior A) := by
      rw [hcv.closure_interior_eq_closure_of_nonempty_interior hs]
      exact subset_closure hp
    have hclosed : IsClosed {q' : P3 | f q' ≤ f q} := isClosed_le f.continuous continuous_const
    have := closure_minimal (fun a ha => (hf a ha).le) hclosed hcl
    simp only [hfn] at this
    exact this

/-- the inside of a tetrahedron -/
theorem inside_tetra {a b c d : V3 ℝ} (hv : vol a b c d ≠ 0) {A : Set P3} (hA : Convex ℝ A) (ha : a.toP ∈ A) (hb : b.toP ∈ A) (hc : c.toP ∈ A)
    (hd : d.toP ∈ A) : (interior A).Nonempty := by
  set D := vol a b c d with hD
  let u : P3 → ℝ := fun q => rdot (cross (c.sub a) (d.sub a)) ((P3.toV q).sub a) / D
  let v : P3 → ℝ := fun q => rdot (cross (d.sub a) (b.sub a)) ((P3.toV q).sub a) / D
  let w : P3 → ℝ := fun q => rdot (cross (b.sub a) (c.sub a)) ((P3.toV q).sub a) / D
  have hcont : ∀ n : V3 ℝ, Continuous fun q : P3 => rdot n ((P3.toV q).sub a) / D := by
    intro n
    have : (fun q : P3 => rdot n ((P3.toV q).sub a) / D) = fun q => (form n q - rdot n a) / D := by
      ext q; rw [rdot_sub]; rfl
    rw [this]
    exact ((form_continuous n).sub continuous_const).div_const D
  have hu : Continuous u := hcont _
  have hv' : Continuous v := hcont _
  have hw : Continuous w := hcont _
  have hrep : ∀ q : P3, q = (1 - u q - v q - w q) • a.toP + u q • b.toP + v q • c.toP + w q • d.toP := by
    intro q
    have e : D = rdot (cross (b.sub a) (c.sub a)) (d.sub a) := rfl
    have key : ∀ x y : ℝ, D * x = D * y → x = y := fun x y h => mul_left_cancel₀ hv h
    obtain ⟨q1, q2, q3⟩ := q
    refine Prod.ext ?_ (Prod.ext ?_ ?_) <;> apply key <;>
      simp only [u, v, w, Prod.fst_add, Prod.snd_add, Prod.smul_fst, Prod.smul_snd, smul_eq_mul, V3.toP, P3.toV] <;> field_simp <;>
      rw [e] <;> simp only [rdot, cross_x, cross_y, cross_z, sub_x, sub_y, sub_z] <;> ring
  let U : Set P3 := {q | 0 < u q ∧ 0 < v q ∧ 0 < w q ∧ u q + v q + w q < 1}
  have hU : IsOpen U := by
    refine (isOpen_lt continuous_const hu).inter ((isOpen_lt continuous_const hv').inter ((isOpen_lt continuous_const hw).inter
      (isOpen_lt ((hu.add hv').add hw) continuous_const)))
  have hUA : U ⊆ A := by
    rintro q ⟨h1, h2, h3, h4⟩
    rw [hrep q]
    have hx : 0 ≤ 1 - u q - v q - w q := by linarith
    have := hA.sum_mem (t := (Finset.univ : Finset (Fin 4))) (w := ![1 - u q - v q - w q, u q, v q, w q]) (z := ![a.toP, b.toP, c.toP, d.toP])
      (by intro i _; fin_cases i <;> simp <;> linarith) (by simp [Fin.sum_univ_four]; ring) (by intro i _; fin_cases i <;> simpa)
    simpa [Fin.sum_univ_four] using this
  refine ⟨(1 / 4 : ℝ) • (a.toP + b.toP + c.toP + d.toP), interior_maximal hUA hU ?_⟩
  have e : D = rdot (cross (b.sub a) (c.sub a)) (d.sub a) := rfl
  have val : ∀ (n : V3 ℝ), rdot n (P3.toV ((1 / 4 : ℝ) • (a.toP + b.toP + c.toP + d.toP)) |>.sub a) =
      (rdot n (b.sub a) + rdot n (c.sub a) + rdot n (d.sub a)) / 4 := by
    intro n
    simp [P3.toV, V3.toP, rdot]
    ring
  have hu4 : u ((1 / 4 : ℝ) • (a.toP + b.toP + c.toP + d.toP)) = 1 / 4 := by
    simp only [u]
    rw [val, rdot_cross_left, rdot_cross_right, div_eq_iff hv, e]
    simp only [rdot, cross_x, cross_y, cross_z]; ring
  have hv4 : v ((1 / 4 : ℝ) • (a.toP + b.toP + c.toP + d.toP)) = 1 / 4 := by
    simp only [v]
    rw [val, rdot_cross_left, rdot_cross_right, div_eq_iff hv, e]
    simp only [rdot, cross_x, cross_y, cross_z]; ring
  have hw4 : w ((1 / 4 : ℝ) • (a.toP + b.toP + c.toP + d.toP)) = 1 / 4 := by
    simp only [w]
    rw [val, rdot_cross_left, rdot_cross_right, div_eq_iff hv, e]
    ring
  show _ ∧ _ ∧ _ ∧ _
  rw [hu4, hv4, hw4]
  norm_num

namespace Hull
variable {h : Hull ℝ}

/-- six times the signed volume of the tetrahedron of four of the points -/
def vol (h : Hull ℝ) (i j k l : Nat) : ℝ := Geec.vol (h.pt i) (h.pt j) (h.pt k) (h.pt l)

theorem body_convex (h : Hull ℝ) : Convex ℝ h.body := convex_convexHull ℝ _

theorem vol_ne (hg : General h.points) {i j k l : Nat} (hi : i < h.points.length) (hj : j < h.points.length) (hk : k < h.points.length)
    (hl : l < h.points.length) (hd : Distinct4 i j k l) : h.vol i j k l ≠ 0 := fun e =>
  hg.planes i j k l hi hj hk hl hd (coplanar_iff.mpr e)

/-- a fourth index -/
theorem exists_fourth (hg : General h.points) (i j k : Nat) : ∃ l, l < h.points.length ∧ l ≠ i ∧ l ≠ j ∧ l ≠ k := by
  by_contra hcon
  push Not at hcon
  have hf := hg.four
  have h0 := hcon 0 (by omega)
  have h1 := hcon 1 (by omega)
  have h2 := hcon 2 (by omega)
  have h3 := hcon 3 (by omega)
  omega

theorem normal_ne_of_general (hg : General h.points) {i j k : Nat} (hi : i < h.points.length) (hj : j < h.points.length) (hk : k < h.points.length)
    (hij : i ≠ j) (hik : i ≠ k) (hjk : j ≠ k) : triNormal (h.pt i) (h.pt j) (h.pt k) ≠ V3.zeros := by
  obtain ⟨l, hl, h1, h2, h3⟩ := exists_fourth hg i j k
  intro h0
  apply vol_ne hg hi hj hk hl ⟨hij, hik, h1.symm, hjk, h2.symm, h3.symm⟩
  rw [vol, Geec.vol, h0]
  simp [rdot]

theorem solid_of_general (hg : General h.points) : (interior h.body).Nonempty := by
  have hf := hg.four
  have m : ∀ i < 4, (h.pt i).toP ∈ h.body := fun i hi => mem_body (pt_mem (by omega))
  exact inside_tetra (vol_ne hg (by omega) (by omega) (by omega) (by omega) (i := 0) (j := 1) (k := 2) (l := 3) (by unfold Distinct4; omega))
    h.body_convex (m 0 (by omega)) (m 1 (by omega)) (m 2 (by omega)) (m 3 (by omega))

/-- the triangle of three of the points, with all others strictly on one side -/
structure Facet (h : Hull ℝ) (i j k : Nat) : Prop where
  i_lt : i < h.points.length
  j_lt : j < h.points.length
  k_lt : k < h.points.length
  ij : i ≠ j
  ik : i ≠ k
  jk : j ≠ k
  oneSide : (∀ l, l < h.points.length → l ≠ i → l ≠ j → l ≠ k → 0 < h.vol i j k l) ∨
    (∀ l, l < h.points.length → l ≠ i → l ≠ j → l ≠ k → h.vol i j k l < 0)

/-- the indices of the points on a plane -/
def contact (h : Hull ℝ) (n : V3 ℝ) (c : ℝ) : Finset Nat := (Finset.range h.points.length).filter fun i => rdot n (h.pt i) = c

theorem mem_contact {n : V3 ℝ} {c : ℝ} {i : Nat} : i ∈ h.contact n c ↔ i < h.points.length ∧ rdot n (h.pt i) = c := by
  simp [contact]

theorem exists_index {p : V3 ℝ} (hp : p ∈ h.points) : ∃ i, i < h.points.length ∧ h.pt i = p := by
  obtain ⟨i, hi, rfl⟩ := List.getElem_of_mem hp
  refine ⟨i, hi, ?_⟩
  unfold pt at3
  rw [List.getD_eq_getElem?_getD, List.getElem?_eq_getElem hi, Option.getD_some]

theorem body_le {n : V3 ℝ} {c : ℝ} (hc : ∀ i, i < h.points.length → rdot n (h.pt i) ≤ c) {q : P3} (hq : q ∈ h.body) : form n q ≤ c := by
  refine convexHull_min ?_ (convex_le n c) hq
  rintro _ ⟨p, hp, rfl⟩
  obtain ⟨i, hi, rfl⟩ := exists_index hp
  exact hc i hi

/-- a point of the body on a supporting plane is in the convex hull of the points on the plane -/
theorem mem_contact_hull {n : V3 ℝ} {q : P3} (hq : q ∈ h.body) (hc : ∀ i, i < h.points.length → rdot n (h.pt i) ≤ form n q) :
    q ∈ convexHull ℝ {p | ∃ i ∈ h.contact n (form n q), p = (h.pt i).toP} := by
  refine convexHull_mono ?_ (mem_face (S := {q | ∃ p ∈ h.points, q = p.toP}) (n := n) (c := form n q) ?_ hq rfl)
  · rintro p ⟨⟨v, hv, rfl⟩, e⟩
    obtain ⟨i, hi, rfl⟩ := exists_index hv
    exact ⟨i, mem_contact.mpr ⟨hi, e⟩, rfl⟩
  · rintro _ ⟨p, hp, rfl⟩
    obtain ⟨i, hi, rfl⟩ := exists_index hp
    exact hc i hi

/-- a supporting plane that touches few points can be turned until it touches one more -/
theorem turn (hg : General h.points) {n : V3 ℝ} (n0 : n ≠ V3.zeros) {q : P3} (hm : ∀ i, i < h.points.length → rdot n (h.pt i) ≤ form n q)
    {d : V3 ℝ} (d0 : d ≠ V3.zeros) (hd : rdot n d = 0) (hl : ∀ i ∈ h.contact n (form n q), ∃ t : ℝ, (h.pt i).sub (P3.toV q) = V3.smul t d) :
    ∃ n' : V3 ℝ, n' ≠ V3.zeros ∧ (∀ i, i < h.points.length → rdot n' (h.pt i) ≤ form n' q) ∧ (h.contact n (form n q)).card < (h.contact n' (form n' q)).card := by
  -- a direction in which to turn
  have hg0 : cross n d ≠ V3.zeros := by
    intro e
    have h1 : rdot (cross n d) (cross n d) = rdot n n * rdot d d := by rw [lagrange, hd]; ring
    rw [e] at h1
    have := mul_pos (rdot_self_pos n0) (rdot_self_pos d0)
    rw [← h1] at this
    simp [rdot] at this
  have hex : ∃ g : V3 ℝ, rdot g d = 0 ∧ rdot g n = 0 ∧ ∃ l, l < h.points.length ∧ 0 < rdot g (h.pt l) - form g q := by
    by_contra hcon
    push Not at hcon
    have h1 := hcon (cross n d) (rdot_cross_right _ _) (rdot_cross_left _ _)
    have h2 := hcon (cross n d).neg (by rw [neg_rdot, rdot_cross_right, neg_zero]) (by rw [neg_rdot, rdot_cross_left, neg_zero])
    have h3 : ∀ l, l < h.points.length → rdot (cross n d) (h.pt l) = form (cross n d) q := by
      intro l hl
      have a1 := h1 l hl
      have a2 := h2 l hl
      unfold form at *
      rw [neg_rdot, neg_rdot] at a2
      linarith
    have hf := hg.four
    refine hg.planes 0 1 2 3 (by omega) (by omega) (by omega) (by omega) (by unfold Distinct4; omega) ⟨cross n d, hg0, ?_, ?_, ?_⟩
    · exact (h3 1 (by omega)).trans (h3 0 (by omega)).symm
    · exact (h3 2 (by omega)).trans (h3 0 (by omega)).symm
    · exact (h3 3 (by omega)).trans (h3 0 (by omega)).symm
  obtain ⟨g, gd, gn, l0, l0_lt, l0_pos⟩ := hex
  -- the first point that is met
  let F := (Finset.range h.points.length).filter fun i => 0 < rdot g (h.pt i) - form g q
  have hF : F.Nonempty := ⟨l0, by simp [F]; exact ⟨l0_lt, by linarith⟩⟩
  let r : Nat → ℝ := fun i => (form n q - rdot n (h.pt i)) / (rdot g (h.pt i) - form g q)
  obtain ⟨m, hmF, hmin⟩ := F.exists_min_image r hF
  have hmF' : m < h.points.length ∧ 0 < rdot g (h.pt m) - form g q := by
    have := (Finset.mem_filter.mp hmF)
    exact ⟨Finset.mem_range.mp this.1, this.2⟩
  have r0 : 0 ≤ r m := div_nonneg (by have := hm m hmF'.1; linarith) hmF'.2.le
  have hform : ∀ p : P3, form (n.add (V3.smul (r m) g)) p = form n p + r m * form g p := by
    intro p
    simp [form, rdot]
    ring
  have hdot : ∀ p : V3 ℝ, rdot (n.add (V3.smul (r m) g)) p = rdot n p + r m * rdot g p := fun p => hform p.toP
  refine ⟨n.add (V3.smul (r m) g), ?_, ?_, ?_⟩
  · intro e
    have h1 := hdot n
    rw [e, gn, mul_zero, add_zero] at h1
    have := rdot_self_pos n0
    rw [← h1] at this
    simp [rdot] at this
  · intro i hi
    rw [hdot, hform]
    by_cases hgi : 0 < rdot g (h.pt i) - form g q
    · have h1 := hmin i (Finset.mem_filter.mpr ⟨Finset.mem_range.mpr hi, hgi⟩)
      have h2 : r i * (rdot g (h.pt i) - form g q) = form n q - rdot n (h.pt i) := div_mul_cancel₀ _ hgi.ne'
      nlinarith [mul_le_mul_of_nonneg_right h1 hgi.le]
    · have h1 := hm i hi
      have h2 : rdot g (h.pt i) - form g q ≤ 0 := not_lt.mp hgi
      nlinarith [mul_nonneg r0 (neg_nonneg.mpr h2)]
  · apply Finset.card_lt_card
    rw [Finset.ssubset_iff_of_subset]
    · refine ⟨m, ?_, ?_⟩
      · rw [mem_contact]
        refine ⟨hmF'.1, ?_⟩
        rw [hdot, hform]
        have h2 : r m * (rdot g (h.pt m) - form g q) = form n q - rdot n (h.pt m) := div_mul_cancel₀ _ hmF'.2.ne'
        linarith
      · intro hc
        obtain ⟨t, ht⟩ := hl m hc
        have h1 : rdot g ((h.pt m).sub (P3.toV q)) = 0 := by rw [ht, rdot_smul, gd, mul_zero]
        rw [rdot_sub] at h1
        have := hmF'.2
        unfold form at this
        linarith
    · intro i hi
      obtain ⟨t, ht⟩ := hl i hi
      have h1 : rdot g ((h.pt i).sub (P3.toV q)) = 0 := by rw [ht, rdot_smul, gd, mul_zero]
      rw [rdot_sub] at h1
      rw [mem_contact] at hi ⊢
      refine ⟨hi.1, ?_⟩
      rw [hdot, hform, hi.2]
      unfold form
      have : rdot g (h.pt i) = rdot g (P3.toV q) := by linarith
      rw [this]

/-- a supporting plane that touches at most two points -/
theorem turn_small (hg : General h.points) {n : V3 ℝ} (n0 : n ≠ V3.zeros) {q : P3} (hq : q ∈ h.body)
    (hm : ∀ i, i < h.points.length → rdot n (h.pt i) ≤ form n q) (hc : (h.contact n (form n q)).card < 3) :
    ∃ n' : V3 ℝ, n' ≠ V3.zeros ∧ (∀ i, i < h.points.length → rdot n' (h.pt i) ≤ form n' q) ∧ (h.contact n (form n q)).card < (h.contact n' (form n' q)).card := by
  have hqc := mem_contact_hull hq hm
  have h3 : (h.contact n (form n q)).card = 0 ∨ (h.contact n (form n q)).card = 1 ∨ (h.contact n (form n q)).card = 2 := by omega
  rcases h3 with h3 | h3 | h3
  · rw [Finset.card_eq_zero] at h3
    rw [h3] at hqc
    simp at hqc
  · obtain ⟨i, hi⟩ := Finset.card_eq_one.mp h3
    rw [hi] at hqc
    have e : {p : P3 | ∃ j ∈ ({i} : Finset Nat), p = (h.pt j).toP} = {(h.pt i).toP} := by ext; simp
    rw [e, convexHull_singleton, Set.mem_singleton_iff] at hqc
    obtain ⟨d, d0, hd, -, -⟩ := exists_orth3 (e1 := n) (e2 := n) (e3 := n) (rdot_cross_left n n)
    refine turn hg n0 hm d0 (by rw [rdot_comm]; exact hd) fun j hj => ⟨0, ?_⟩
    rw [hi, Finset.mem_singleton] at hj
    rw [hj, hqc, toP_toV]
    refine V3.ext' ?_ ?_ ?_ <;> simp
  · obtain ⟨i, j, hij, hi⟩ := Finset.card_eq_two.mp h3
    have ci : i ∈ h.contact n (form n q) := by rw [hi]; simp
    have cj : j ∈ h.contact n (form n q) := by rw [hi]; simp
    rw [mem_contact] at ci cj
    rw [hi] at hqc
    have e : {p : P3 | ∃ k ∈ ({i, j} : Finset Nat), p = (h.pt k).toP} = {(h.pt i).toP, (h.pt j).toP} := by ext; simp
    rw [e, convexHull_pair, segment_eq_image] at hqc
    obtain ⟨t, -, ht⟩ := hqc
    obtain ⟨l, hl, hli, hlj, -⟩ := exists_fourth hg i j j
    have hN := normal_ne_of_general hg ci.1 cj.1 hl hij hli.symm hlj.symm
    have d0 : (h.pt j).sub (h.pt i) ≠ V3.zeros := by
      intro e0
      apply hN
      rw [triNormal, e0]
      refine V3.ext' ?_ ?_ ?_ <;> simp
    have hd : rdot n ((h.pt j).sub (h.pt i)) = 0 := by rw [rdot_sub, ci.2, cj.2, sub_self]
    refine turn hg n0 hm d0 hd fun k hk => ?_
    rw [hi] at hk
    simp only [Finset.mem_insert, Finset.mem_singleton] at hk
    rcases hk with rfl | rfl
    · refine ⟨-t, ?_⟩
      rw [← ht]
      refine V3.ext' ?_ ?_ ?_ <;> simp [P3.toV, V3.toP] <;> ring
    · refine ⟨1 - t, ?_⟩
      rw [← ht]
      refine V3.ext' ?_ ?_ ?_ <;> simp [P3.toV, V3.toP] <;> ring

/-- at every point of the boundary there is a supporting plane with three of the points -/
theorem touch (hg : General h.points) {q : P3} (hq : q ∈ h.body) {n : V3 ℝ} (n0 : n ≠ V3.zeros) (hm : ∀ i, i < h.points.length → rdot n (h.pt i) ≤ form n q) :
    ∃ n' : V3 ℝ, n' ≠ V3.zeros ∧ (∀ i, i < h.points.length → rdot n' (h.pt i) ≤ form n' q) ∧ 3 ≤ (h.contact n' (form n' q)).card := by
  have key : ∀ k ≤ 3, ∃ n' : V3 ℝ, n' ≠ V3.zeros ∧ (∀ i, i < h.points.length → rdot n' (h.pt i) ≤ form n' q) ∧ k ≤ (h.contact n' (form n' q)).card := by
    intro k
    induction k with
    | zero => exact fun _ => ⟨n, n0, hm, Nat.zero_le _⟩
    | succ k ih =>
      intro hk
      obtain ⟨n', h0, h1, h2⟩ := ih (by omega)
      by_cases h3 : k + 1 ≤ (h.contact n' (form n' q)).card
      · exact ⟨n', h0, h1, h3⟩
      · obtain ⟨m, m0, m1, m2⟩ := turn_small hg h0 hq h1 (by omega)
        exact ⟨m, m0, m1, by omega⟩
  exact key 3 le_rfl

/-- the plane of a facet -/
theorem Facet.plane (hg : General h.points) {i j k : Nat} (hf : h.Facet i j k) : ∃ n : V3 ℝ, n ≠ V3.zeros ∧ rdot n (h.pt j) = rdot n (h.pt i) ∧ rdot n (h.pt k) = rdot n (h.pt i) ∧
    ∀ l, l < h.points.length → l ≠ i → l ≠ j → l ≠ k → rdot n (h.pt l) < rdot n (h.pt i) := by
  have hN := normal_ne_of_general hg hf.i_lt hf.j_lt hf.k_lt hf.ij hf.ik hf.jk
  have h1 : rdot (triNormal (h.pt i) (h.pt j) (h.pt k)) ((h.pt j).sub (h.pt i)) = 0 := rdot_cross_left _ _
  have h2 : rdot (triNormal (h.pt i) (h.pt j) (h.pt k)) ((h.pt k).sub (h.pt i)) = 0 := rdot_cross_right _ _
  rw [rdot_sub] at h1 h2
  rcases hf.oneSide with hs | hs
  · refine ⟨(triNormal (h.pt i) (h.pt j) (h.pt k)).neg, neg_ne hN, ?_, ?_, fun l hl a b c => ?_⟩
    · rw [neg_rdot, neg_rdot]; linarith
    · rw [neg_rdot, neg_rdot]; linarith
    · have := hs l hl a b c
      rw [vol, Geec.vol, rdot_sub] at this
      rw [neg_rdot, neg_rdot]; linarith
  · refine ⟨triNormal (h.pt i) (h.pt j) (h.pt k), hN, by linarith, by linarith, fun l hl a b c => ?_⟩
    have := hs l hl a b c
    rw [vol, Geec.vol, rdot_sub] at this
    linarith

/-- three points on a supporting plane are a facet -/
theorem facet_of_plane (hg : General h.points) {n : V3 ℝ} (n0 : n ≠ V3.zeros) {c : ℝ} (hm : ∀ l, l < h.points.length → rdot n (h.pt l) ≤ c) {i j k : Nat}
    (hi : i ∈ h.contact n c) (hj : j ∈ h.contact n c) (hk : k ∈ h.contact n c) (hij : i ≠ j) (hik : i ≠ k) (hjk : j ≠ k) :
    h.Facet i j k ∧ ∀ l ∈ h.contact n c, l = i ∨ l = j ∨ l = k := by
  rw [mem_contact] at hi hj hk
  have hN := normal_ne_of_general hg hi.1 hj.1 hk.1 hij hik hjk
  have honly : ∀ l ∈ h.contact n c, l = i ∨ l = j ∨ l = k := by
    intro l hl
    rw [mem_contact] at hl
    by_contra hcon
    push Not at hcon
    refine hg.planes i j k l hi.1 hj.1 hk.1 hl.1 ⟨hij, hik, hcon.1.symm, hjk, hcon.2.1.symm, hcon.2.2.symm⟩ ⟨n, n0, ?_, ?_, ?_⟩
    · exact hj.2.trans hi.2.symm
    · exact hk.2.trans hi.2.symm
    · exact hl.2.trans hi.2.symm
  refine ⟨⟨hi.1, hj.1, hk.1, hij, hik, hjk, ?_⟩, honly⟩
  have hpar := parallel_of_orth (n := n) (e1 := (h.pt j).sub (h.pt i)) (e2 := (h.pt k).sub (h.pt i)) hN (by rw [rdot_sub, hi.2, hj.2, sub_self])
    (by rw [rdot_sub, hi.2, hk.2, sub_self])
  set t := rdot n (cross ((h.pt j).sub (h.pt i)) ((h.pt k).sub (h.pt i))) / rdot (cross ((h.pt j).sub (h.pt i)) ((h.pt k).sub (h.pt i)))
    (cross ((h.pt j).sub (h.pt i)) ((h.pt k).sub (h.pt i)))
  have hlt : ∀ l, l < h.points.length → l ≠ i → l ≠ j → l ≠ k → t * h.vol i j k l < 0 := by
    intro l hl h1 h2 h3
    have h4 : t * h.vol i j k l = rdot n ((h.pt l).sub (h.pt i)) := by rw [hpar, smul_rdot]; rfl
    rw [h4, rdot_sub, hi.2]
    have h5 : rdot n (h.pt l) ≠ c := fun e => by
      have := honly l (mem_contact.mpr ⟨hl, e⟩)
      omega
    have := lt_of_le_of_ne (hm l hl) h5
    linarith
  rcases le_or_gt 0 t with ht | ht
  · right
    intro l hl h1 h2 h3
    have := hlt l hl h1 h2 h3
    by_contra hcon
    have := mul_nonneg ht (not_lt.mp hcon)
    linarith
  · left
    intro l hl h1 h2 h3
    have := hlt l hl h1 h2 h3
    by_contra hcon
    have := mul_nonneg_of_nonpos_of_nonpos ht.le (not_lt.mp hcon)
    linarith

theorem mem_triangle_of_contact {n : V3 ℝ} {q : P3} (hq : q ∈ h.body) (hm : ∀ i, i < h.points.length → rdot n (h.pt i) ≤ form n q) {i j k : Nat}
    (ho : ∀ l ∈ h.contact n (form n q), l = i ∨ l = j ∨ l = k) : q ∈ h.tri (i, j, k) := by
  refine convexHull_mono ?_ (mem_contact_hull hq hm)
  rintro _ ⟨l, hl, rfl⟩
  rcases ho l hl with rfl | rfl | rfl <;> simp

theorem tri_subset_body {i j k : Nat} (hi : i < h.points.length) (hj : j < h.points.length) (hk : k < h.points.length) : h.tri (i, j, k) ⊆ h.body := by
  refine convexHull_min ?_ h.body_convex
  intro q hq
  simp only [Set.mem_insert_iff, Set.mem_singleton_iff] at hq
  rcases hq with rfl | rfl | rfl
  · exact mem_body (pt_mem hi)
  · exact mem_body (pt_mem hj)
  · exact mem_body (pt_mem hk)

/-- a point where a linear form is greatest is on a facet -/
theorem facet_of_max (hg : General h.points) {q : P3} (hq : q ∈ h.body) {n : V3 ℝ} (n0 : n ≠ V3.zeros)
    (hm : ∀ i, i < h.points.length → rdot n (h.pt i) ≤ form n q) : ∃ i j k, h.Facet i j k ∧ q ∈ h.tri (i, j, k) := by
  obtain ⟨n', n1, h1, h2⟩ := touch hg hq n0 hm
  obtain ⟨i, j, k, hi, hj, hk, hij, hik, hjk⟩ := Finset.two_lt_card_iff.mp (by omega : 2 < (h.contact n' (form n' q)).card)
  obtain ⟨hf, ho⟩ := facet_of_plane hg n1 h1 hi hj hk hij hik hjk
  exact ⟨i, j, k, hf, mem_triangle_of_contact hq h1 ho⟩

theorem Facet.mem_frontier (hg : General h.points) {i j k : Nat} (hf : h.Facet i j k) {q : P3} (hq : q ∈ h.tri (i, j, k)) : q ∈ frontier h.body := by
  obtain ⟨n, n0, hj, hk, hlt⟩ := hf.plane hg
  have hle : ∀ l, l < h.points.length → rdot n (h.pt l) ≤ rdot n (h.pt i) := by
    intro l hl
    by_cases h1 : l = i
    · rw [h1]
    by_cases h2 : l = j
    · rw [h2, hj]
    by_cases h3 : l = k
    · rw [h3, hk]
    exact (hlt l hl h1 h2 h3).le
  have he : form n q = rdot n (h.pt i) := by
    apply le_antisymm (body_le hle (tri_subset_body hf.i_lt hf.j_lt hf.k_lt hq))
    have hsub : h.tri (i, j, k) ⊆ {p | form n.neg p ≤ -rdot n (h.pt i)} := by
      refine convexHull_min ?_ (convex_le _ _)
      intro p hp
      simp only [Set.mem_insert_iff, Set.mem_singleton_iff] at hp
      rcases hp with rfl | rfl | rfl <;> simp only [Set.mem_ofPred_eq, form_toP, neg_rdot] <;> linarith
    have := hsub hq
    simp only [Set.mem_ofPred_eq, form, neg_rdot] at this
    unfold form
    linarith
  refine frontier_of_max h.body_compact.isClosed n0 (tri_subset_body hf.i_lt hf.j_lt hf.k_lt hq) fun p hp => ?_
  rw [he]
  exact body_le hle hp

/-- the boundary is the union of the facets -/
theorem frontier_facets (hg : General h.points) : frontier h.body = {q | ∃ i j k, h.Facet i j k ∧ q ∈ h.tri (i, j, k)} := by
  ext q
  constructor
  · intro hq
    obtain ⟨n, n0, hn⟩ := max_of_frontier h.body_convex (solid_of_general hg) hq
    exact facet_of_max hg (h.body_compact.isClosed.frontier_subset hq) n0 fun i hi => hn _ (mem_body (pt_mem hi))
  · rintro ⟨i, j, k, hf, hq⟩
    exact hf.mem_frontier hg hq

end Hull

end
end Geec
