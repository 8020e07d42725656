import Verif.Spec.Hull
import Verif.Lemmas.RealV3
import Mathlib.Analysis.LocallyConvex.Separation
import Mathlib.Analysis.Convex.Topology
/-
Supporting planes of the triangles of a hull, orientation of the faces.
-/
namespace Geec
open Arith
noncomputable section

theorem V3.toP_injective {a b : V3 ℝ} (h : a.toP = b.toP) : a = b := by
  simp only [V3.toP, Prod.mk.injEq] at h
  exact V3.ext' h.1 h.2.1 h.2.2

/-- a continuous linear form on space is a scalar product -/
theorem linear_form (f : StrongDual ℝ P3) : ∃ n : V3 ℝ, ∀ a : V3 ℝ, f a.toP = rdot n a := by
  refine ⟨⟨f (1, 0, 0), f (0, 1, 0), f (0, 0, 1)⟩, fun a => ?_⟩
  have : a.toP = a.x • ((1, 0, 0) : P3) + a.y • ((0, 1, 0) : P3) + a.z • ((0, 0, 1) : P3) := by
    simp [V3.toP]
  rw [this, map_add, map_add, map_smul, map_smul, map_smul]
  simp only [rdot, smul_eq_mul]
  ring

/-- the point of space as a vector -/
def P3.toV (q : P3) : V3 ℝ := ⟨q.1, q.2.1, q.2.2⟩

@[simp] theorem toV_toP (q : P3) : (P3.toV q).toP = q := rfl
@[simp] theorem toP_toV (a : V3 ℝ) : P3.toV a.toP = a := rfl

/-- normal of a triangle, not normalised -/
def triNormal (a b c : V3 ℝ) : V3 ℝ := cross (b.sub a) (c.sub a)

theorem triNormal_ne {a b c : V3 ℝ} (h : ¬ Collinear3 a b c) : triNormal a b c ≠ V3.zeros := by
  intro h0
  apply h
  by_cases hab : b.sub a = V3.zeros
  · have hb : b = a := by
      have hx := congrArg V3.x hab
      have hy := congrArg V3.y hab
      have hz := congrArg V3.z hab
      simp at hx hy hz
      exact V3.ext' (by linarith) (by linarith) (by linarith)
    refine ⟨a.toP, (c.sub a).toP, ?_⟩
    intro q hq
    simp only [List.mem_cons, List.not_mem_nil, or_false] at hq
    rcases hq with rfl | rfl | rfl
    · exact ⟨0, by simp⟩
    · exact ⟨0, by rw [hb]; simp⟩
    · exact ⟨1, by simp [V3.toP]⟩
  · refine ⟨a.toP, (b.sub a).toP, ?_⟩
    have hp := rdot_self_pos hab
    have key : V3.smul (rdot (b.sub a) (b.sub a)) (c.sub a) = V3.smul (rdot (b.sub a) (c.sub a)) (b.sub a) := by
      have hx := congrArg V3.x h0
      have hy := congrArg V3.y h0
      have hz := congrArg V3.z h0
      simp only [triNormal, cross_x, cross_y, cross_z, zeros_x, zeros_y, zeros_z] at hx hy hz
      refine V3.ext' ?_ ?_ ?_ <;> simp only [smul_x, smul_y, smul_z, rdot]
      · linear_combination (b.sub a).z * hy - (b.sub a).y * hz
      · linear_combination (b.sub a).x * hz - (b.sub a).z * hx
      · linear_combination (b.sub a).y * hx - (b.sub a).x * hy
    intro q hq
    simp only [List.mem_cons, List.not_mem_nil, or_false] at hq
    rcases hq with rfl | rfl | rfl
    · exact ⟨0, by simp⟩
    · exact ⟨1, by simp [V3.toP]⟩
    · refine ⟨rdot (b.sub a) (q.sub a) / rdot (b.sub a) (b.sub a), ?_⟩
      have hx := congrArg V3.x key
      have hy := congrArg V3.y key
      have hz := congrArg V3.z key
      simp only [smul_x, smul_y, smul_z] at hx hy hz
      have e : ∀ t u : ℝ, rdot (b.sub a) (b.sub a) * t = rdot (b.sub a) (q.sub a) * u →
          t = rdot (b.sub a) (q.sub a) / rdot (b.sub a) (b.sub a) * u := by
        intro t u htu
        field_simp
        linarith
      have hx := e _ _ hx
      have hy := e _ _ hy
      have hz := e _ _ hz
      simp only [V3.toP, Prod.mk_add_mk, Prod.smul_mk, smul_eq_mul]
      rw [← hx, ← hy, ← hz]
      simp

/-- a vector orthogonal to two independent vectors is a multiple of their cross product -/
theorem parallel_of_orth {e1 e2 n : V3 ℝ} (hN : cross e1 e2 ≠ V3.zeros) (h1 : rdot n e1 = 0) (h2 : rdot n e2 = 0) :
    n = V3.smul (rdot n (cross e1 e2) / rdot (cross e1 e2) (cross e1 e2)) (cross e1 e2) := by
  have hp := rdot_self_pos hN
  have key : V3.smul (rdot (cross e1 e2) (cross e1 e2)) n = V3.smul (rdot n (cross e1 e2)) (cross e1 e2) := by
    rw [decomp e1 e2 n]
    have k1 : rdot (cross n e2) (cross e1 e2) = 0 := by rw [lagrange, h1, rdot_comm e2 e2, h2]; ring
    have k2 : rdot (cross e1 n) (cross e1 e2) = 0 := by rw [lagrange, h1, h2]; ring
    rw [k1, k2]
    refine V3.ext' ?_ ?_ ?_ <;> simp
  have hx := congrArg V3.x key
  have hy := congrArg V3.y key
  have hz := congrArg V3.z key
  simp only [smul_x, smul_y, smul_z] at hx hy hz
  refine V3.ext' ?_ ?_ ?_ <;> simp only [smul_x, smul_y, smul_z] <;> rw [div_mul_eq_mul_div, eq_div_iff hp.ne'] <;> linarith

namespace Hull
variable {h : Hull ℝ}

theorem pt_mem {i : Nat} (hi : i < h.points.length) : h.pt i ∈ h.points := by
  unfold pt at3
  rw [List.getD_eq_getElem?_getD, List.getElem?_eq_getElem hi, Option.getD_some]
  exact List.getElem_mem hi

theorem mem_body {p : V3 ℝ} (hp : p ∈ h.points) : p.toP ∈ h.body := subset_convexHull ℝ _ ⟨p, hp, rfl⟩

/-- supporting plane of a triangle of the hull -/
theorem IsHull.support (hh : h.IsHull) {s : Nat × Nat × Nat} (hs : s ∈ h.simplices) :
    ∃ n : V3 ℝ, rdot n (h.pt s.2.1) = rdot n (h.pt s.1) ∧ rdot n (h.pt s.2.2) = rdot n (h.pt s.1) ∧
      (∀ q ∈ h.body, rdot n (P3.toV q) ≤ rdot n (h.pt s.1)) ∧ (∀ q ∈ interior h.body, rdot n (P3.toV q) < rdot n (h.pt s.1)) := by
  have hcv : Convex ℝ h.body := convex_convexHull ℝ _
  let m : P3 := (1 / 3 : ℝ) • (h.pt s.1).toP + (1 / 3 : ℝ) • (h.pt s.2.1).toP + (1 / 3 : ℝ) • (h.pt s.2.2).toP
  have hm : m ∈ h.tri s := by
    have h1 : (h.pt s.1).toP ∈ h.tri s := subset_convexHull ℝ _ (by simp)
    have h2 : (h.pt s.2.1).toP ∈ h.tri s := subset_convexHull ℝ _ (by simp)
    have h3 : (h.pt s.2.2).toP ∈ h.tri s := subset_convexHull ℝ _ (by simp)
    have hc : Convex ℝ (h.tri s) := convex_convexHull ℝ _
    have h12 := hc h1 h2 (by norm_num : (0 : ℝ) ≤ 1 / 2) (by norm_num : (0 : ℝ) ≤ 1 / 2) (by norm_num)
    have := hc h12 h3 (by norm_num : (0 : ℝ) ≤ 2 / 3) (by norm_num : (0 : ℝ) ≤ 1 / 3) (by norm_num)
    convert this using 1
    simp only [m, smul_add, smul_smul]
    norm_num
  have hfr : m ∈ frontier h.body := by rw [hh.cover]; exact ⟨s, hs, hm⟩
  have hni : m ∉ interior h.body := fun hi => hfr.2 hi
  obtain ⟨f, hf⟩ := geometric_hahn_banach_open_point hcv.interior isOpen_interior hni
  obtain ⟨n, hn⟩ := linear_form f
  have hle : ∀ q ∈ h.body, f q ≤ f m := by
    intro q hq
    have hcl : q ∈ closure (interior h.body) := by
      rw [hcv.closure_interior_eq_closure_of_nonempty_interior hh.solid]
      exact subset_closure hq
    have hclosed : IsClosed {q : P3 | f q ≤ f m} := isClosed_le f.continuous continuous_const
    exact closure_minimal (fun a ha => (hf a ha).le) hclosed hcl
  have hA := hle _ (mem_body (pt_mem (hh.cornerIndex s hs s.1 (Or.inl rfl))))
  have hB := hle _ (mem_body (pt_mem (hh.cornerIndex s hs s.2.1 (Or.inr (Or.inl rfl)))))
  have hC := hle _ (mem_body (pt_mem (hh.cornerIndex s hs s.2.2 (Or.inr (Or.inr rfl)))))
  have hfm : f m = (rdot n (h.pt s.1) + rdot n (h.pt s.2.1) + rdot n (h.pt s.2.2)) / 3 := by
    simp only [m, map_add, map_smul, hn, smul_eq_mul]; ring
  rw [hn, hfm] at hA hB hC
  refine ⟨n, by linarith, by linarith, ?_, ?_⟩
  · intro q hq
    have := hle q hq
    rw [← toV_toP q, hn, hfm] at this
    linarith
  · intro q hq
    have := hf q hq
    rw [← toV_toP q, hn, hfm] at this
    linarith

/-- normal of a simplex in the vertex order given -/
def normal (h : Hull ℝ) (s : Nat × Nat × Nat) : V3 ℝ := triNormal (h.pt s.1) (h.pt s.2.1) (h.pt s.2.2)

/-- the simplex is ordered counter-clockwise seen from outside -/
structure Outward (h : Hull ℝ) (s : Nat × Nat × Nat) : Prop where
  ne : h.normal s ≠ V3.zeros
  le : ∀ q ∈ h.body, rdot (h.normal s) (P3.toV q) ≤ rdot (h.normal s) (h.pt s.1)
  lt : ∀ q ∈ interior h.body, rdot (h.normal s) (P3.toV q) < rdot (h.normal s) (h.pt s.1)

theorem normal_reverse (s : Nat × Nat × Nat) : h.normal (reverseTail s) = (h.normal s).neg := by
  simp only [normal, reverseTail, triNormal]; rw [cross_neg_swap]

theorem IsHull.normal_ne (hh : h.IsHull) {s : Nat × Nat × Nat} (hs : s ∈ h.simplices) : h.normal s ≠ V3.zeros :=
  triNormal_ne (hh.proper s hs)

theorem neg_ne {a : V3 ℝ} (ha : a ≠ V3.zeros) : a.neg ≠ V3.zeros := by
  intro h0
  apply ha
  have hx := congrArg V3.x h0
  have hy := congrArg V3.y h0
  have hz := congrArg V3.z h0
  simp at hx hy hz
  exact V3.ext' hx hy hz

/-- one of the two orders of a simplex is outward -/
theorem IsHull.outward (hh : h.IsHull) {s : Nat × Nat × Nat} (hs : s ∈ h.simplices) :
    Outward h s ∨ Outward h (reverseTail s) := by
  obtain ⟨n, hB, hC, hle, hlt⟩ := hh.support hs
  have hN := hh.normal_ne hs
  have hpar := parallel_of_orth (e1 := (h.pt s.2.1).sub (h.pt s.1)) (e2 := (h.pt s.2.2).sub (h.pt s.1)) (n := n) hN
    (by rw [rdot_sub]; linarith) (by rw [rdot_sub]; linarith)
  set N := h.normal s with hNdef
  set l := rdot n N / rdot N N with hl
  have hpar : n = V3.smul l N := hpar
  have hpos := rdot_self_pos hN
  obtain ⟨q0, hq0⟩ := hh.solid
  have hl0 : l ≠ 0 := by
    intro h0
    have := hlt q0 hq0
    rw [hpar, h0, smul_rdot, smul_rdot] at this
    simp at this
  rcases lt_or_gt_of_ne hl0 with hneg | hpos'
  · right
    refine ⟨by rw [normal_reverse]; exact neg_ne hN, ?_, ?_⟩
    · intro q hq
      have := hle q hq
      rw [hpar, smul_rdot, smul_rdot] at this
      rw [normal_reverse, neg_rdot, neg_rdot]
      have := (mul_le_mul_left_of_neg hneg).mp this
      simp only [reverseTail]
      linarith
    · intro q hq
      have := hlt q hq
      rw [hpar, smul_rdot, smul_rdot] at this
      rw [normal_reverse, neg_rdot, neg_rdot]
      have := (mul_lt_mul_left_of_neg hneg).mp this
      simp only [reverseTail]
      linarith
  · left
    refine ⟨hN, ?_, ?_⟩
    · intro q hq
      have := hle q hq
      rw [hpar, smul_rdot, smul_rdot] at this
      exact (mul_le_mul_iff_right₀ hpos').mp this
    · intro q hq
      have := hlt q hq
      rw [hpar, smul_rdot, smul_rdot] at this
      exact (mul_lt_mul_iff_right₀ hpos').mp this

/-- weighted position of the mean of some points -/
theorem rdot_meanPoint (pts : List (V3 ℝ)) (idx : List Nat) (n : V3 ℝ) :
    rdot n (meanPoint pts idx) = (idx.map (fun i => rdot n (at3 pts i))).sum / idx.length := by
  unfold meanPoint
  rw [rdot_sdiv]
  congr 1
  have key : ∀ (l : List Nat) (acc : V3 ℝ), rdot n (l.foldl (fun acc i => acc.add (at3 pts i)) acc) =
      rdot n acc + (l.map (fun i => rdot n (at3 pts i))).sum := by
    intro l
    induction l with
    | nil => intro acc; simp
    | cons i l ih => intro acc; rw [List.foldl_cons, ih, rdot_add, List.map_cons, List.sum_cons]; ring
  rw [key, rdot_zeros, zero_add]

theorem sum_lt_of_le {l : List Nat} {f : Nat → ℝ} {c : ℝ} (hle : ∀ i ∈ l, f i ≤ c) (hlt : ∃ i ∈ l, f i < c) :
    (l.map f).sum < l.length * c := by
  induction l with
  | nil => obtain ⟨i, hi, -⟩ := hlt; cases hi
  | cons i l ih =>
    have hl : (l.map f).sum ≤ l.length * c := by
      clear ih hlt
      induction l with
      | nil => simp
      | cons j l ih2 =>
        have h1 := hle j (by simp)
        have h2 := ih2 (fun k hk => hle k (by rcases List.mem_cons.mp hk with rfl | h <;> simp_all))
        simp only [List.map_cons, List.sum_cons, List.length_cons, Nat.cast_add, Nat.cast_one]
        linarith
    have hi := hle i (by simp)
    simp only [List.map_cons, List.sum_cons, List.length_cons, Nat.cast_add, Nat.cast_one]
    obtain ⟨j, hj, hjlt⟩ := hlt
    rcases List.mem_cons.mp hj with rfl | hj
    · linarith
    · have := ih (fun k hk => hle k (by simp [hk])) ⟨j, hj, hjlt⟩
      linarith

/-- the mean of the hull vertices is strictly inside every outward face -/
theorem IsHull.centroid_lt (hh : h.IsHull) {s : Nat × Nat × Nat} (ho : Outward h s) :
    rdot (h.normal s) (meanPoint h.points h.vertices) < rdot (h.normal s) (h.pt s.1) := by
  set N := h.normal s
  set c := rdot N (h.pt s.1)
  have hle : ∀ i ∈ h.vertices, rdot N (h.pt i) ≤ c := fun i hi =>
    ho.le _ (mem_body (pt_mem (hh.vertexIndex i hi)))
  have hlt : ∃ i ∈ h.vertices, rdot N (h.pt i) < c := by
    by_contra hcon
    push Not at hcon
    obtain ⟨q0, hq0⟩ := hh.solid
    have h1 := ho.lt q0 hq0
    have h2 := hh.vertexHull (interior_subset hq0)
    have hsub : convexHull ℝ {q | ∃ i ∈ h.vertices, q = (h.pt i).toP} ⊆ {q : P3 | c ≤ rdot N (P3.toV q)} := by
      apply convexHull_min
      · rintro q ⟨i, hi, rfl⟩
        exact hcon i hi
      · intro x hx y hy a b ha hb hab
        simp only [Set.mem_ofPred_eq, rdot, P3.toV, Prod.fst_add, Prod.snd_add, Prod.smul_fst, Prod.smul_snd,
          smul_eq_mul] at hx hy ⊢
        have hca : c = a * c + b * c := by rw [← add_mul, hab, one_mul]
        rw [hca]
        nlinarith [mul_le_mul_of_nonneg_left hx ha, mul_le_mul_of_nonneg_left hy hb]
    exact absurd (hsub h2) (not_le.mpr h1)
  have hlen : 0 < (h.vertices.length : ℝ) := by
    obtain ⟨i, hi, -⟩ := hlt
    exact_mod_cast List.length_pos_of_mem hi
  rw [rdot_meanPoint, div_lt_iff₀ hlen, mul_comm]
  exact sum_lt_of_le hle hlt

/-- **orientation**: for a hull the code finds the outward order and the outward unit normal -/
theorem IsHull.orient_ok (hh : h.IsHull) (inHull : V3 ℝ → Bool) {s : Nat × Nat × Nat} (hs : s ∈ h.simplices) :
    ∃ s', (s' = s ∨ s' = reverseTail s) ∧ Outward h s' ∧
      orient h.points inHull (meanPoint h.points h.vertices) s =
        .ok ((h.normal s').sdiv (Real.sqrt (rdot (h.normal s') (h.normal s'))), s') := by
  have hd : ∀ s : Nat × Nat × Nat, rdot (h.normal s) ((meanPoint h.points h.vertices).sub (h.pt s.1)) =
      rdot (h.normal s) (meanPoint h.points h.vertices) - rdot (h.normal s) (h.pt s.1) := fun s => rdot_sub _ _ _
  rcases hh.outward hs with ho | ho
  · refine ⟨s, .inl rfl, ho, ?_⟩
    have hlt := hh.centroid_lt ho
    have hneg : rdot (h.normal s) ((meanPoint h.points h.vertices).sub (h.pt s.1)) < 0 := by rw [hd]; linarith
    have e1 : ((rdot (h.normal s) ((meanPoint h.points h.vertices).sub (h.pt s.1))) ==. (0 : ℝ)) = false := by
      rw [Bool.eq_false_iff, ne_eq, r_eq]; exact hneg.ne
    have e2 : ((0 : ℝ) <. (rdot (h.normal s) ((meanPoint h.points h.vertices).sub (h.pt s.1)))) = false := by
      rw [Bool.eq_false_iff, ne_eq, r_lt]; exact not_lt.mpr hneg.le
    unfold orient
    simp only [normal, triNormal, pt, r_dot, r_zero, r_norm] at e1 e2 ⊢
    rw [e1, e2]
    rfl
  · refine ⟨reverseTail s, .inr rfl, ho, ?_⟩
    have hlt := hh.centroid_lt ho
    rw [normal_reverse, neg_rdot, neg_rdot] at hlt
    have hpos : 0 < rdot (h.normal s) ((meanPoint h.points h.vertices).sub (h.pt s.1)) := by
      rw [hd]; simp only [reverseTail] at hlt; linarith
    have e1 : ((rdot (h.normal s) ((meanPoint h.points h.vertices).sub (h.pt s.1))) ==. (0 : ℝ)) = false := by
      rw [Bool.eq_false_iff, ne_eq, r_eq]; exact hpos.ne'
    have e2 : ((0 : ℝ) <. (rdot (h.normal s) ((meanPoint h.points h.vertices).sub (h.pt s.1)))) = true := by
      rw [r_lt]; exact hpos
    have e3 : rdot (h.normal (reverseTail s)) (h.normal (reverseTail s)) = rdot (h.normal s) (h.normal s) := by
      rw [normal_reverse, neg_rdot, rdot_neg, neg_neg]
    rw [e3, normal_reverse]
    unfold orient
    simp only [normal, triNormal, pt, r_dot, r_zero, r_norm] at e1 e2 ⊢
    rw [e1, e2]
    rfl

end Hull
end
end Geec
