import Verif.Spec.Tetra
import Verif.Lemmas.HullGeom
import Verif.Lemmas.ChangeVar
import Mathlib.MeasureTheory.Measure.Lebesgue.EqHaar
/-
Decomposition of a convex body into signed cones over its boundary triangles.
-/
namespace Geec
open Arith MeasureTheory
noncomputable section

/-- a triangulated convex surface with outward unit normals -/
structure Surface (P : Set P3) {n : ℕ} (A B C N : Fin n → V3 ℝ) : Prop where
  convex : Convex ℝ P
  compact : IsCompact P
  solid : (interior P).Nonempty
  normal : ∀ k, IsNormal (N k) (A k) (B k) (C k)
  le : ∀ k, ∀ q ∈ P, rdot (N k) (P3.toV q) ≤ rdot (N k) (A k)
  lt : ∀ k, ∀ q ∈ interior P, rdot (N k) (P3.toV q) < rdot (N k) (A k)
  sub : ∀ k, triangle (A k) (B k) (C k) ⊆ P
  cover : ∀ q ∈ frontier P, ∃ k, q ∈ triangle (A k) (B k) (C k)
  disjoint : ∀ k k', k ≠ k' → Disjoint (openTriangle (A k) (B k) (C k)) (openTriangle (A k') (B k') (C k'))

theorem openTriangle_subset (a b c : V3 ℝ) : openTriangle a b c ⊆ triangle a b c := by
  rintro q ⟨u, v, w, hu, hv, hw, hs, rfl⟩
  exact mem_triangle.mpr ⟨u, v, w, hu.le, hv.le, hw.le, hs, rfl⟩

/-- the plane of a triangle -/
theorem rdot_of_mem_triangle {n a b c : V3 ℝ} (hn : IsNormal n a b c) {q : P3} (hq : q ∈ triangle a b c) :
    rdot n (P3.toV q) = rdot n a := by
  obtain ⟨u, v, w, -, -, -, hs, rfl⟩ := mem_triangle.mp hq
  have h1 := hn.ortho1
  have h2 := hn.ortho2
  have hu : u = 1 - v - w := by linarith
  subst hu
  simp only [rdot, sub_x, sub_y, sub_z, P3.toV, V3.toP, Prod.smul_mk, Prod.mk_add_mk, smul_eq_mul] at *
  linear_combination v * h1 + w * h2

/-- from a point inside a boundary triangle one can go a little in every inward direction -/
theorem inward_step {P : Set P3} (hP : Convex ℝ P) {n a b c : V3 ℝ} (hn : IsNormal n a b c) (hsub : triangle a b c ⊆ P)
    {c0 : P3} (hc0 : c0 ∈ P) (hlt : rdot n (P3.toV c0) < rdot n a) {y : P3} (hy : y ∈ openTriangle a b c) {d : P3}
    (hd : rdot n (P3.toV d) < 0) : ∃ ε : ℝ, 0 < ε ∧ y + ε • d ∈ P := by
  have hyn := rdot_of_mem_triangle hn (openTriangle_subset _ _ _ hy)
  have hN : cross (b.sub a) (c.sub a) ≠ V3.zeros := by
    intro h; have := hn.pos; rw [h, rdot_zeros] at this; exact lt_irrefl _ this
  have hNN := rdot_self_pos hN
  set w0 : V3 ℝ := (P3.toV c0).sub (P3.toV y) with hw0
  have hw : rdot n w0 < 0 := by rw [hw0, rdot_sub, hyn]; linarith
  set γ := rdot n (P3.toV d) / rdot n w0 with hγ
  have hγp : 0 < γ := div_pos_of_neg_of_neg hd hw
  set d' := (P3.toV d).sub (V3.smul γ w0) with hd'
  have hd0 : rdot n d' = 0 := by
    rw [hd', rdot_sub, rdot_smul, hγ, div_mul_cancel₀ _ hw.ne, sub_self]
  -- `d'` in the plane
  have hnpar := parallel_of_orth hN hn.ortho1 hn.ortho2
  have hNd : rdot d' (cross (b.sub a) (c.sub a)) = 0 := by
    have hk : rdot n (cross (b.sub a) (c.sub a)) / rdot (cross (b.sub a) (c.sub a)) (cross (b.sub a) (c.sub a)) ≠ 0 :=
      (div_pos hn.pos hNN).ne'
    have h := hd0
    rw [hnpar, smul_rdot] at h
    rw [rdot_comm]
    exact (mul_eq_zero.mp h).resolve_left hk
  have hdec := decomp (b.sub a) (c.sub a) d'
  rw [hNd] at hdec
  set M := rdot (cross (b.sub a) (c.sub a)) (cross (b.sub a) (c.sub a))
  set α := rdot (cross d' (c.sub a)) (cross (b.sub a) (c.sub a)) / M with hα
  set β := rdot (cross (b.sub a) d') (cross (b.sub a) (c.sub a)) / M with hβ
  have hx := congrArg V3.x hdec
  have hy' := congrArg V3.y hdec
  have hz := congrArg V3.z hdec
  simp only [smul_x, smul_y, smul_z, add_x, add_y, add_z, zero_mul, add_zero] at hx hy' hz
  have ex : d'.x = α * (b.sub a).x + β * (c.sub a).x := by rw [hα, hβ]; field_simp; linarith
  have ey : d'.y = α * (b.sub a).y + β * (c.sub a).y := by rw [hα, hβ]; field_simp; linarith
  have ez : d'.z = α * (b.sub a).z + β * (c.sub a).z := by rw [hα, hβ]; field_simp; linarith
  obtain ⟨u, v, w, hu, hv, hwp, hs, hyeq⟩ := hy
  -- a small step in the plane
  obtain ⟨η, hη, h1, h2, h3⟩ : ∃ η : ℝ, 0 < η ∧ 0 ≤ u - η * (α + β) ∧ 0 ≤ v + η * α ∧ 0 ≤ w + η * β := by
    have hm : 0 < min u (min v w) := lt_min hu (lt_min hv hwp)
    have hK : 0 < |α| + |β| + 1 := by positivity
    refine ⟨min u (min v w) / (|α| + |β| + 1), by positivity, ?_, ?_, ?_⟩
    all_goals
      set m := min u (min v w)
      have m1 : m ≤ u := min_le_left _ _
      have m2 : m ≤ v := (min_le_right _ _).trans (min_le_left _ _)
      have m3 : m ≤ w := (min_le_right _ _).trans (min_le_right _ _)
      have e : m / (|α| + |β| + 1) * (|α| + |β| + 1) = m := div_mul_cancel₀ _ hK.ne'
      have hp : 0 < m / (|α| + |β| + 1) := by positivity
      generalize m / (|α| + |β| + 1) = η at *
      have a1 := neg_abs_le α
      have a2 := le_abs_self α
      have b1 := neg_abs_le β
      have b2 := le_abs_self β
      have a3 := abs_nonneg α
      have b3 := abs_nonneg β
      nlinarith
  have hz : y + η • d'.toP ∈ P := by
    apply hsub
    refine mem_triangle.mpr ⟨u - η * (α + β), v + η * α, w + η * β, h1, h2, h3, by linarith, ?_⟩
    rw [hyeq]
    simp only [V3.toP, Prod.smul_mk, Prod.mk_add_mk, smul_eq_mul, ex, ey, ez, sub_x, sub_y, sub_z]
    refine Prod.ext ?_ (Prod.ext ?_ ?_) <;> (simp only; ring)
  have hden : 0 < 1 + η * γ := by positivity
  refine ⟨η / (1 + η * γ), by positivity, ?_⟩
  have := hP hz hc0 (a := 1 / (1 + η * γ)) (b := η * γ / (1 + η * γ)) (by positivity) (by positivity) (by field_simp)
  convert this using 1
  have e1 : d = d'.toP + γ • (c0 - y) := by
    rw [hd', hw0]
    simp only [V3.toP, P3.toV, sub_x, sub_y, sub_z, smul_x, smul_y, smul_z]
    refine Prod.ext ?_ (Prod.ext ?_ ?_) <;> simp
  rw [e1]
  generalize d'.toP = e
  refine Prod.ext ?_ (Prod.ext ?_ ?_) <;>
    (simp only [Prod.fst_add, Prod.snd_add, Prod.smul_fst, Prod.smul_snd, Prod.fst_sub, Prod.snd_sub, smul_eq_mul]; field_simp; ring)

/-- where a line leaves the body it crosses a triangle outwards -/
theorem exit_face {P : Set P3} {n : ℕ} {A B C N : Fin n → V3 ℝ} (hS : Surface P A B C N) {y d : P3} (hy : y ∈ P)
    (hout : ∀ ε : ℝ, 0 < ε → y + ε • d ∉ P) (hside : ∀ k, y ∈ triangle (A k) (B k) (C k) → y ∈ openTriangle (A k) (B k) (C k))
    (hdir : ∀ k, rdot (N k) (P3.toV d) ≠ 0) : ∃ k, y ∈ openTriangle (A k) (B k) (C k) ∧ 0 < rdot (N k) (P3.toV d) := by
  have hfr : y ∈ frontier P := by
    refine ⟨subset_closure hy, fun hi => ?_⟩
    obtain ⟨t, ht, h⟩ := exists_step hi d
    exact hout t ht h
  obtain ⟨k, hk⟩ := hS.cover y hfr
  have hko := hside k hk
  refine ⟨k, hko, ?_⟩
  by_contra hn
  obtain ⟨c0, hc0⟩ := hS.solid
  obtain ⟨ε, hε, h⟩ := inward_step hS.convex (hS.normal k) (hS.sub k) (interior_subset hc0) (hS.lt k c0 hc0) hko
    (lt_of_le_of_ne (not_lt.mp hn) (hdir k))
  exact hout ε hε h

/-- points seen from `s` in general position -/
structure Generic {n : ℕ} (A B C N : Fin n → V3 ℝ) (s : V3 ℝ) (q : P3) : Prop where
  dir : ∀ k, rdot (N k) ((P3.toV q).sub s) ≠ 0
  off : ∀ k, rdot (N k) (P3.toV q) ≠ rdot (N k) (A k)
  side : ∀ k, ∀ t : ℝ, t ≠ 0 → s.toP + t • (q - s.toP) ∈ triangle (A k) (B k) (C k) →
    s.toP + t • (q - s.toP) ∈ openTriangle (A k) (B k) (C k)

theorem mem_openCone {s a b c : V3 ℝ} {q : P3} : q ∈ openCone s (a.sub s) (b.sub s) (c.sub s) ↔
    ∃ t : ℝ, 1 < t ∧ s.toP + t • (q - s.toP) ∈ openTriangle a b c := by
  constructor
  · rintro ⟨x, y, z, hx, hy, hz, h1, rfl⟩
    have hσ : 0 < x + y + z := by positivity
    refine ⟨1 / (x + y + z), by rw [lt_div_iff₀ hσ]; linarith, x / (x + y + z), y / (x + y + z), z / (x + y + z),
      by positivity, by positivity, by positivity, by field_simp, ?_⟩
    simp only [V3.toP, add_x, add_y, add_z, smul_x, smul_y, smul_z, sub_x, sub_y, sub_z]
    refine Prod.ext ?_ (Prod.ext ?_ ?_) <;>
      (simp only [Prod.fst_add, Prod.snd_add, Prod.smul_fst, Prod.smul_snd, Prod.fst_sub, Prod.snd_sub, smul_eq_mul]; field_simp; ring)
  · rintro ⟨t, ht, u, v, w, hu, hv, hw, hs, he⟩
    have ht0 : 0 < t := by linarith
    refine ⟨u / t, v / t, w / t, by positivity, by positivity, by positivity, ?_, ?_⟩
    · rw [← add_div, ← add_div, hs, div_lt_one ht0]; exact ht
    · have hu' : u = 1 - v - w := by linarith
      subst hu'
      have ex := congrArg Prod.fst he
      have ey := congrArg (fun z => z.2.1) he
      have ez := congrArg (fun z => z.2.2) he
      simp only [V3.toP, Prod.fst_add, Prod.snd_add, Prod.smul_fst, Prod.smul_snd, Prod.fst_sub, Prod.snd_sub, smul_eq_mul] at ex ey ez
      simp only [V3.toP, add_x, add_y, add_z, smul_x, smul_y, smul_z, sub_x, sub_y, sub_z]
      refine Prod.ext ?_ (Prod.ext ?_ ?_) <;> (simp only; field_simp; linarith)

open Classical in
/-- **Signed cones.**  A point in general position is in the body iff the cones over the faces that look away from the
station and contain it outnumber by one the cones over the faces that look towards the station and contain it. -/
theorem indicator_cones {P : Set P3} {n : ℕ} {A B C N : Fin n → V3 ℝ} (hS : Surface P A B C N) {s : V3 ℝ} {q : P3}
    (hg : Generic A B C N s q) :
    (∑ k, if q ∈ openCone s ((A k).sub s) ((B k).sub s) ((C k).sub s) then SignType.sign (rdot (N k) ((A k).sub s)) else 0 : ℝ) =
      if q ∈ P then 1 else 0 := by
  set d : P3 := q - s.toP with hd
  have hdV : P3.toV d = (P3.toV q).sub s := rfl
  let S : Set ℝ := {t | s.toP + t • d ∈ P}
  have hcl : IsClosed S := hS.compact.isClosed.preimage (by fun_prop)
  have hcvx : ∀ t1 ∈ S, ∀ t2 ∈ S, ∀ t, t1 ≤ t → t ≤ t2 → t ∈ S := by
    intro t1 h1 t2 h2 t ht1 ht2
    rcases eq_or_lt_of_le (ht1.trans ht2) with he | hlt
    · have : t = t1 := by linarith
      rw [this]; exact h1
    · have hp : 0 < t2 - t1 := by linarith
      have := hS.convex h1 h2 (a := (t2 - t) / (t2 - t1)) (b := (t - t1) / (t2 - t1)) (div_nonneg (by linarith) hp.le)
        (div_nonneg (by linarith) hp.le) (by rw [← add_div, div_eq_one_iff_eq hp.ne']; ring)
      show s.toP + t • d ∈ P
      convert this using 1
      generalize s.toP = o
      refine Prod.ext ?_ (Prod.ext ?_ ?_) <;>
        (simp only [Prod.fst_add, Prod.snd_add, Prod.smul_fst, Prod.smul_snd, smul_eq_mul]; field_simp; ring)
  -- bounded
  have hcomp : IsCompact S := by
    rcases isEmpty_or_nonempty (Fin n) with hemp | ⟨⟨k0⟩⟩
    · -- no faces: the body has no frontier
      exfalso
      have hfr : frontier P = ∅ := by
        rw [Set.eq_empty_iff_forall_notMem]
        intro x hx
        obtain ⟨k, -⟩ := hS.cover x hx
        exact hemp.elim k
      have hop := frontier_eq_empty_iff.mp hfr
      rcases hop with h | h
      · obtain ⟨c, hc⟩ := hS.solid; rw [h] at hc; simp at hc
      · have := hS.compact; rw [h] at this
        exact noncompact_univ P3 this
    · let φ : P3 → ℝ := fun y => rdot (N k0) (P3.toV (y - s.toP)) / rdot (N k0) (P3.toV d)
      have hφ : Continuous φ := by simp only [φ, rdot, P3.toV]; fun_prop
      have hd0 : rdot (N k0) (P3.toV d) ≠ 0 := hg.dir k0
      apply IsCompact.of_isClosed_subset (hS.compact.image hφ) hcl
      intro t ht
      refine ⟨_, ht, ?_⟩
      simp only [φ]
      rw [div_eq_iff hd0]
      simp only [rdot, P3.toV, Prod.fst_add, Prod.snd_add, Prod.smul_fst, Prod.smul_snd, Prod.fst_sub, Prod.snd_sub, smul_eq_mul]
      ring
  -- the parameter of a face hit
  have hpar : ∀ k t, s.toP + t • d ∈ triangle (A k) (B k) (C k) → rdot (N k) ((A k).sub s) = t * rdot (N k) (P3.toV d) := by
    intro k t h
    have := rdot_of_mem_triangle (hS.normal k) h
    rw [rdot_sub, ← this]
    simp only [rdot, P3.toV, V3.toP, Prod.fst_add, Prod.snd_add, Prod.smul_fst, Prod.smul_snd, smul_eq_mul]
    ring
  -- a face crossed outwards is met at the largest parameter
  have hmax : ∀ k t, s.toP + t • d ∈ triangle (A k) (B k) (C k) → 0 < rdot (N k) (P3.toV d) → ∀ t' ∈ S, t' ≤ t := by
    intro k t h hk t' ht'
    have h1 := hS.le k _ ht'
    have h2 := rdot_of_mem_triangle (hS.normal k) h
    rw [← h2] at h1
    simp only [rdot, P3.toV, V3.toP, Prod.fst_add, Prod.snd_add, Prod.smul_fst, Prod.smul_snd, smul_eq_mul] at h1 hk
    by_contra hc
    push Not at hc
    nlinarith
  have hmin : ∀ k t, s.toP + t • d ∈ triangle (A k) (B k) (C k) → rdot (N k) (P3.toV d) < 0 → ∀ t' ∈ S, t ≤ t' := by
    intro k t h hk t' ht'
    have h1 := hS.le k _ ht'
    have h2 := rdot_of_mem_triangle (hS.normal k) h
    rw [← h2] at h1
    simp only [rdot, P3.toV, V3.toP, Prod.fst_add, Prod.snd_add, Prod.smul_fst, Prod.smul_snd, smul_eq_mul] at h1 hk
    by_contra hc
    push Not at hc
    nlinarith
  let E : Fin n → Prop := fun k => q ∈ openCone s ((A k).sub s) ((B k).sub s) ((C k).sub s) ∧ 0 < rdot (N k) (P3.toV d)
  let I : Fin n → Prop := fun k => q ∈ openCone s ((A k).sub s) ((B k).sub s) ((C k).sub s) ∧ rdot (N k) (P3.toV d) < 0
  have hEu : ∀ k k', E k → E k' → k = k' := by
    rintro k k' ⟨h1, h2⟩ ⟨h1', h2'⟩
    obtain ⟨t, ht, hy⟩ := mem_openCone.mp h1
    obtain ⟨t', ht', hy'⟩ := mem_openCone.mp h1'
    have a1 := hmax k t (openTriangle_subset _ _ _ hy) h2 t' (hS.sub k' (openTriangle_subset _ _ _ hy'))
    have a2 := hmax k' t' (openTriangle_subset _ _ _ hy') h2' t (hS.sub k (openTriangle_subset _ _ _ hy))
    have : t = t' := le_antisymm a2 a1
    subst this
    by_contra hne
    exact Set.disjoint_left.mp (hS.disjoint k k' hne) hy hy'
  have hIu : ∀ k k', I k → I k' → k = k' := by
    rintro k k' ⟨h1, h2⟩ ⟨h1', h2'⟩
    obtain ⟨t, ht, hy⟩ := mem_openCone.mp h1
    obtain ⟨t', ht', hy'⟩ := mem_openCone.mp h1'
    have a1 := hmin k t (openTriangle_subset _ _ _ hy) h2 t' (hS.sub k' (openTriangle_subset _ _ _ hy'))
    have a2 := hmin k' t' (openTriangle_subset _ _ _ hy') h2' t (hS.sub k (openTriangle_subset _ _ _ hy))
    have : t = t' := le_antisymm a1 a2
    subst this
    by_contra hne
    exact Set.disjoint_left.mp (hS.disjoint k k' hne) hy hy'
  have hterm : ∀ k, (if q ∈ openCone s ((A k).sub s) ((B k).sub s) ((C k).sub s) then ((SignType.sign (rdot (N k) ((A k).sub s)) : SignType) : ℝ) else 0 : ℝ) =
      (if E k then 1 else 0) - (if I k then 1 else 0) := by
    intro k
    by_cases hq : q ∈ openCone s ((A k).sub s) ((B k).sub s) ((C k).sub s)
    · obtain ⟨t, ht, hy⟩ := mem_openCone.mp hq
      have hp := hpar k t (openTriangle_subset _ _ _ hy)
      rw [if_pos hq, hp]
      rcases lt_or_gt_of_ne (hg.dir k) with hn | hn
      · have hn' : rdot (N k) (P3.toV d) < 0 := hn
        have : ¬ E k := fun h => absurd h.2 (not_lt.mpr hn'.le)
        rw [if_neg this, if_pos ⟨hq, hn'⟩, sign_neg (mul_neg_of_pos_of_neg (by linarith) hn')]
        simp
      · have hn' : 0 < rdot (N k) (P3.toV d) := hn
        have : ¬ I k := fun h => absurd h.2 (not_lt.mpr hn'.le)
        rw [if_neg this, if_pos ⟨hq, hn'⟩, sign_pos (mul_pos (by linarith) hn')]
        simp
    · rw [if_neg hq, if_neg (fun h => hq h.1), if_neg (fun h => hq h.1), sub_zero]
  have hsum1 : ∀ (R : Fin n → Prop) [DecidablePred R], (∀ k k', R k → R k' → k = k') → (∑ k, if R k then (1 : ℝ) else 0) = if ∃ k, R k then 1 else 0 := by
    intro R _ hR
    by_cases h : ∃ k, R k
    · obtain ⟨k, hk⟩ := h
      rw [if_pos ⟨k, hk⟩, Finset.sum_eq_single k]
      · rw [if_pos hk]
      · intro k' _ hne; rw [if_neg (fun h' => hne (hR k' k h' hk))]
      · intro h; exact absurd (Finset.mem_univ k) h
    · rw [if_neg h]
      apply Finset.sum_eq_zero
      intro k _
      rw [if_neg (fun h' => h ⟨k, h'⟩)]
  rw [Finset.sum_congr rfl (fun k _ => hterm k), Finset.sum_sub_distrib, hsum1 E hEu, hsum1 I hIu]
  -- leaving and entering
  have hE : (∃ k, E k) ↔ ∃ t ∈ S, 1 < t := by
    constructor
    · rintro ⟨k, h1, -⟩
      obtain ⟨t, ht, hy⟩ := mem_openCone.mp h1
      exact ⟨t, hS.sub k (openTriangle_subset _ _ _ hy), ht⟩
    · rintro ⟨t, ht, h1⟩
      obtain ⟨tm, htm, hm⟩ := hcomp.exists_isGreatest ⟨t, ht⟩
      have h1m : 1 < tm := lt_of_lt_of_le h1 (hm ht)
      obtain ⟨k, hk, hkd⟩ := exit_face hS (y := s.toP + tm • d) (d := d) htm
        (by
          intro ε hε hin
          have : tm + ε ∈ S := by
            show s.toP + (tm + ε) • d ∈ P
            rw [add_smul, ← add_assoc]; exact hin
          linarith [hm this])
        (fun k h => hg.side k tm (by linarith) h) (fun k => hg.dir k)
      exact ⟨k, mem_openCone.mpr ⟨tm, h1m, hk⟩, hkd⟩
  have hI : (∃ k, I k) ↔ S.Nonempty ∧ ∀ t ∈ S, 1 < t := by
    constructor
    · rintro ⟨k, h1, h2⟩
      obtain ⟨t, ht, hy⟩ := mem_openCone.mp h1
      refine ⟨⟨t, hS.sub k (openTriangle_subset _ _ _ hy)⟩, fun t' ht' => ?_⟩
      exact lt_of_lt_of_le ht (hmin k t (openTriangle_subset _ _ _ hy) h2 t' ht')
    · rintro ⟨hne, h1⟩
      obtain ⟨tm, htm, hm⟩ := hcomp.exists_isLeast hne
      have h1m : 1 < tm := h1 tm htm
      have hneg : ∀ k, rdot (N k) (P3.toV (-d)) = -rdot (N k) (P3.toV d) := by
        intro k; simp only [rdot, P3.toV, Prod.fst_neg, Prod.snd_neg]; ring
      obtain ⟨k, hk, hkd⟩ := exit_face hS (y := s.toP + tm • d) (d := -d) htm
        (by
          intro ε hε hin
          have : tm - ε ∈ S := by
            show s.toP + (tm - ε) • d ∈ P
            rw [sub_smul, ← add_sub_assoc, sub_eq_add_neg, ← smul_neg]; exact hin
          linarith [hm this])
        (fun k h => hg.side k tm (by linarith) h) (fun k => by rw [hneg]; exact neg_ne_zero.mpr (hg.dir k))
      refine ⟨k, mem_openCone.mpr ⟨tm, h1m, hk⟩, ?_⟩
      rw [hneg] at hkd; linarith
  have hq1 : q ∈ P ↔ (1 : ℝ) ∈ S := by
    show _ ↔ s.toP + (1 : ℝ) • d ∈ P
    rw [one_smul, hd, add_sub_cancel]
  by_cases hq : q ∈ P
  · have h1 := hq1.mp hq
    have hnI : ¬ ∃ k, I k := by rw [hI]; rintro ⟨-, h⟩; exact lt_irrefl _ (h 1 h1)
    have hyE : ∃ k, E k := by
      rw [hE]
      by_contra hcon
      push Not at hcon
      have hfr : q ∈ frontier P := by
        refine ⟨subset_closure hq, fun hi => ?_⟩
        obtain ⟨t, ht, h⟩ := exists_step hi d
        have : 1 + t ∈ S := by
          show s.toP + (1 + t) • d ∈ P
          rw [add_smul, one_smul, ← add_assoc, hd, add_sub_cancel]; exact h
        linarith [hcon _ this]
      obtain ⟨k, hk⟩ := hS.cover q hfr
      exact hg.off k (rdot_of_mem_triangle (hS.normal k) hk)
    rw [if_pos hyE, if_neg hnI, if_pos hq, sub_zero]
  · have h1 : (1 : ℝ) ∉ S := fun h => hq (hq1.mpr h)
    rw [if_neg hq]
    have : (∃ k, E k) ↔ ∃ k, I k := by
      rw [hE, hI]
      constructor
      · rintro ⟨t, ht, h⟩
        refine ⟨⟨t, ht⟩, fun t' ht' => ?_⟩
        by_contra hc
        exact h1 (hcvx t' ht' t ht 1 (not_lt.mp hc) h.le)
      · rintro ⟨⟨t, ht⟩, h⟩
        exact ⟨t, ht, h t ht⟩
    simp only [this, sub_self]

end
end Geec
