import Verif.Lemmas.HullBuild
import Verif.Lemmas.HullGeom
import Mathlib.Tactic.Tauto
/-
The polyhedron made from a hull: orientation of adjacent faces, twins.
-/
namespace Geec
open Arith
noncomputable section

/-- two triangles with the same directed side, both supporting a solid body, overlap -/
theorem overlap {a b c d : V3 ℝ} (hN : triNormal a b c ≠ V3.zeros)
    (h1 : rdot (triNormal a b c) d ≤ rdot (triNormal a b c) a) (h2 : rdot (triNormal a b d) c ≤ rdot (triNormal a b d) a)
    {q : V3 ℝ} (hq1 : rdot (triNormal a b c) q < rdot (triNormal a b c) a)
    (hq2 : rdot (triNormal a b d) q < rdot (triNormal a b d) a) :
    ∃ z, z ∈ openTriangle a b c ∧ z ∈ openTriangle a b d := by
  set e1 := b.sub a with he1
  set e2 := c.sub a with he2
  set w := d.sub a with hw
  have hNd : triNormal a b c = cross e1 e2 := rfl
  have hNd' : triNormal a b d = cross e1 w := rfl
  rw [hNd] at hN h1 hq1
  rw [hNd'] at h2 hq2
  have hp := rdot_self_pos hN
  set n := rdot (cross e1 e2) (cross e1 e2) with hn
  have hd1 : rdot (cross e1 e2) w ≤ 0 := by rw [hw, rdot_sub]; linarith
  have hd2 : rdot (cross e1 w) e2 ≤ 0 := by rw [he2, rdot_sub]; linarith
  have hsw : rdot (cross e1 w) e2 = - rdot (cross e1 e2) w := by simp [rdot]; ring
  have hzero : rdot w (cross e1 e2) = 0 := by rw [rdot_comm]; linarith
  have hdec := decomp e1 e2 w
  rw [hzero] at hdec
  set A := rdot (cross w e2) (cross e1 e2)
  set B := rdot (cross e1 w) (cross e1 e2)
  have hx := congrArg V3.x hdec
  have hy := congrArg V3.y hdec
  have hz := congrArg V3.z hdec
  simp only [smul_x, smul_y, smul_z, add_x, add_y, add_z, zero_mul, add_zero] at hx hy hz
  rw [← hn] at hx hy hz
  obtain ⟨α, hα⟩ : ∃ α, α = A / n := ⟨_, rfl⟩
  obtain ⟨β, hβ⟩ : ∃ β, β = B / n := ⟨_, rfl⟩
  have e : ∀ t u v : ℝ, n * t = A * u + B * v → t = α * u + β * v := by
    intro t u v h
    rw [hα, hβ]
    field_simp
    linarith
  have hx := e _ _ _ hx
  have hy := e _ _ _ hy
  have hz := e _ _ _ hz
  have hcr : ∀ v, rdot (cross e1 w) v = β * rdot (cross e1 e2) v := by
    intro v
    simp only [rdot, cross_x, cross_y, cross_z]
    rw [hx, hy, hz]
    ring
  have hβpos : 0 < β := by
    have h3 : rdot (cross e1 e2) (q.sub a) < 0 := by rw [rdot_sub]; linarith
    have h4 : rdot (cross e1 w) (q.sub a) < 0 := by rw [rdot_sub]; linarith
    rw [hcr] at h4
    by_contra hcon
    have := mul_nonneg_of_nonpos_of_nonpos (not_lt.mp hcon) h3.le
    linarith
  have hD : 0 < 4 * (1 + |α| + β) := by positivity
  obtain ⟨ε, hε⟩ : ∃ ε, ε = 1 / (4 * (1 + |α| + β)) := ⟨_, rfl⟩
  have hεp : 0 < ε := by rw [hε]; positivity
  have hε1 : ε * (1 + |α| + β) = 1 / 4 := by rw [hε]; field_simp
  have hεα := mul_le_mul_of_nonneg_left (le_abs_self α) hεp.le
  have hεα' := mul_le_mul_of_nonneg_left (neg_abs_le α) hεp.le
  have hεa := mul_nonneg hεp.le (abs_nonneg α)
  have hεβ := mul_pos hεp hβpos
  have hsum : ε + ε * |α| + ε * β = 1 / 4 := by linarith [hε1]
  refine ⟨(1 / 2 - ε) • a.toP + (1 / 2 : ℝ) • b.toP + ε • d.toP, ?_, ?_⟩
  · refine ⟨1 / 2 - ε * α - ε * β, 1 / 2 + ε * α, ε * β, by linarith, by linarith, hεβ, by ring, ?_⟩
    simp only [he1, he2, hw, sub_x, sub_y, sub_z] at hx hy hz
    simp only [V3.toP, Prod.smul_mk, Prod.mk_add_mk, smul_eq_mul, Prod.mk.injEq]
    refine ⟨?_, ?_, ?_⟩
    · linear_combination ε * hx
    · linear_combination ε * hy
    · linear_combination ε * hz
  · exact ⟨1 / 2 - ε, 1 / 2, ε, by linarith, by norm_num, hεp, by ring, rfl⟩

theorem triNormal_rot (a b c : V3 ℝ) : triNormal a b c = triNormal b c a := by
  refine V3.ext' ?_ ?_ ?_ <;> simp [triNormal] <;> ring

theorem openTriangle_rot (a b c : V3 ℝ) : openTriangle a b c = openTriangle b c a := by
  ext z
  constructor
  · rintro ⟨u, v, w, hu, hv, hw, hs, rfl⟩
    exact ⟨v, w, u, hv, hw, hu, by linarith, by abel⟩
  · rintro ⟨u, v, w, hu, hv, hw, hs, rfl⟩
    exact ⟨w, u, v, hw, hu, hv, by linarith, by abel⟩

theorem openTriangle_swap (a b c : V3 ℝ) : openTriangle a b c = openTriangle a c b := by
  ext z
  constructor
  · rintro ⟨u, v, w, hu, hv, hw, hs, rfl⟩
    exact ⟨u, w, v, hu, hw, hv, by linarith, by abel⟩
  · rintro ⟨u, v, w, hu, hv, hw, hs, rfl⟩
    exact ⟨u, w, v, hu, hw, hv, by linarith, by abel⟩

/-- the same cycle started at the side `(a, b)` -/
def Rot (s : Nat × Nat × Nat) (a b c : Nat) : Prop := s = (a, b, c) ∨ s = (c, a, b) ∨ s = (b, c, a)

theorem rot_of_mem {s : Nat × Nat × Nat} {pr : Nat × Nat} (h : pr ∈ cyc s) : ∃ c, Rot s pr.1 pr.2 c := by
  obtain ⟨x, y, z⟩ := s
  simp only [cyc, List.mem_cons, List.not_mem_nil, or_false] at h
  rcases h with rfl | rfl | rfl
  · exact ⟨z, .inl rfl⟩
  · exact ⟨x, .inr (.inl rfl)⟩
  · exact ⟨y, .inr (.inr rfl)⟩

theorem mem_of_corner {s : Nat × Nat × Nat} {a b : Nat} (hab : a ≠ b) (ha : Corner s a) (hb : Corner s b) :
    (a, b) ∈ cyc s ∨ (b, a) ∈ cyc s := by
  obtain ⟨x, y, z⟩ := s
  simp only [Corner] at ha hb
  simp only [cyc, List.mem_cons, List.not_mem_nil, or_false, Prod.mk.injEq]
  rcases ha with rfl | rfl | rfl <;> rcases hb with rfl | rfl | rfl <;> simp_all

theorem findIdx?_unique {α : Type} [BEq α] [LawfulBEq α] {l : List α} {x : α} {P : α → Bool} (hx : x ∈ l)
    (h : ∀ t ∈ l, P t = true ↔ t = x) : l.findIdx? P = some (l.idxOf x) := by
  induction l with
  | nil => cases hx
  | cons a l ih =>
    by_cases ha : a = x
    · subst ha
      simp [List.findIdx?_cons, (h a (by simp)).mpr rfl]
    · have hP : P a = false := by
        rw [Bool.eq_false_iff]; intro hc; exact ha ((h a (by simp)).mp hc)
      have hxl : x ∈ l := by
        rcases List.mem_cons.mp hx with rfl | hx
        · exact absurd rfl ha
        · exact hx
      rw [List.findIdx?_cons, hP, ih hxl (fun t ht => h t (by simp [ht])), List.idxOf_cons_ne _ ha]
      rfl

theorem veq_iff {a b : V3 ℝ} : veq a b = true ↔ a = b := by
  simp only [veq, Bool.and_eq_true, r_eq]
  constructor
  · rintro ⟨⟨hx, hy⟩, hz⟩; exact V3.ext' hx hy hz
  · rintro rfl; exact ⟨⟨rfl, rfl⟩, rfl⟩

namespace Hull
variable {h : Hull ℝ}

theorem Outward.rot {s : Nat × Nat × Nat} {a b c : Nat} (ho : Outward h s) (hr : Rot s a b c) : Outward h (a, b, c) := by
  rcases hr with rfl | rfl | rfl
  · exact ho
  · have e : h.normal (a, b, c) = h.normal (c, a, b) := by
      simp only [normal]; rw [triNormal_rot (h.pt c)]
    have e' : rdot (h.normal (a, b, c)) (h.pt c) = rdot (h.normal (a, b, c)) (h.pt a) := by
      simp [normal, triNormal, rdot]; ring
    refine ⟨e ▸ ho.ne, fun q hq => ?_, fun q hq => ?_⟩
    · rw [← e', e]; exact ho.le q hq
    · rw [← e', e]; exact ho.lt q hq
  · have e : h.normal (a, b, c) = h.normal (b, c, a) := by
      simp only [normal]; rw [triNormal_rot (h.pt a)]
    have e' : rdot (h.normal (a, b, c)) (h.pt b) = rdot (h.normal (a, b, c)) (h.pt a) := by
      simp [normal, triNormal, rdot]; ring
    refine ⟨e ▸ ho.ne, fun q hq => ?_, fun q hq => ?_⟩
    · rw [← e', e]; exact ho.le q hq
    · rw [← e', e]; exact ho.lt q hq

theorem otri_rot {s : Nat × Nat × Nat} {a b c : Nat} (hr : Rot s a b c) : h.otri s = h.otri (a, b, c) := by
  rcases hr with rfl | rfl | rfl
  · rfl
  · simp only [otri]; rw [openTriangle_rot (h.pt c)]
  · simp only [otri]; rw [openTriangle_rot (h.pt a)]

theorem otri_reverse (s : Nat × Nat × Nat) : h.otri (reverseTail s) = h.otri s := by
  simp only [otri, reverseTail]; rw [openTriangle_swap]

theorem outward_distinct {s : Nat × Nat × Nat} (ho : Outward h s) :
    h.pt s.1 ≠ h.pt s.2.1 ∧ h.pt s.2.1 ≠ h.pt s.2.2 ∧ h.pt s.2.2 ≠ h.pt s.1 := by
  refine ⟨?_, ?_, ?_⟩ <;> intro he <;> apply ho.ne <;> simp only [normal, triNormal]
  · rw [he]; refine V3.ext' ?_ ?_ ?_ <;> simp
  · rw [he]; refine V3.ext' ?_ ?_ ?_ <;> simp <;> ring
  · rw [he]; refine V3.ext' ?_ ?_ ?_ <;> simp

theorem IsHull.corner_body (hh : h.IsHull) {s : Nat × Nat × Nat} (hs : s ∈ h.simplices) {i : Nat} (hi : Corner s i) :
    (h.pt i).toP ∈ h.body := mem_body (pt_mem (hh.cornerIndex s hs i hi))

/-- outward faces go along a common side in opposite directions -/
theorem IsHull.opposite (hh : h.IsHull) {k k' : Nat} {s s' t t' : Nat × Nat × Nat} (hk : h.simplices[k]? = some s)
    (hk' : h.simplices[k']? = some s') (hne : k ≠ k') (ht : t = s ∨ t = reverseTail s) (ht' : t' = s' ∨ t' = reverseTail s')
    (ho : Outward h t) (ho' : Outward h t') {pr : Nat × Nat} (h1 : pr ∈ cyc t) (h2 : pr ∈ cyc t') : False := by
  obtain ⟨c, hc⟩ := rot_of_mem h1
  obtain ⟨d, hd⟩ := rot_of_mem h2
  have o1 := ho.rot hc
  have o2 := ho'.rot hd
  obtain ⟨q0, hq0⟩ := hh.solid
  have hcs : Corner s c := by
    rcases ht with rfl | rfl <;> rcases hc with hc | hc | hc <;> simp_all [Corner, reverseTail, Prod.ext_iff]
  have hds : Corner s' d := by
    rcases ht' with rfl | rfl <;> rcases hd with hd | hd | hd <;> simp_all [Corner, reverseTail, Prod.ext_iff]
  obtain ⟨z, hz1, hz2⟩ := overlap (a := h.pt pr.1) (b := h.pt pr.2) (c := h.pt c) (d := h.pt d) o1.ne
    (o1.le _ (hh.corner_body (List.mem_of_getElem? hk') hds)) (o2.le _ (hh.corner_body (List.mem_of_getElem? hk) hcs))
    (o1.lt q0 hq0) (o2.lt q0 hq0)
  have e1 : h.otri s = h.otri (pr.1, pr.2, c) := by
    rw [← otri_rot hc]; rcases ht with rfl | rfl
    · rfl
    · rw [otri_reverse]
  have e2 : h.otri s' = h.otri (pr.1, pr.2, d) := by
    rw [← otri_rot hd]; rcases ht' with rfl | rfl
    · rfl
    · rw [otri_reverse]
  have hdis := hh.disjoint k k' s s' hk hk' hne
  rw [e1, e2] at hdis
  exact Set.disjoint_left.mp hdis hz1 hz2

/-- another simplex with the side `pr` -/
def Other (h : Hull ℝ) (k : Nat) (pr : Nat × Nat) (n : Nat) : Prop :=
  n ≠ k ∧ ∃ t, h.simplices[n]? = some t ∧ Corner t pr.1 ∧ Corner t pr.2

/-- everything known about the faces of the polyhedron made from a hull -/
structure Built (h : Hull ℝ) (p : Poly ℝ) (sm : Nat → Nat × Nat × Nat) (tf : Nat → Nat × Nat → Nat) (τ : Nat → Nat → Nat × Nat) : Prop where
  points : p.points = h.points
  length : p.faces.length = h.simplices.length
  order : ∀ (k : Nat) s, h.simplices[k]? = some s → (sm k = s ∨ sm k = reverseTail s) ∧ Outward h (sm k)
  face : ∀ (k : Nat) s, h.simplices[k]? = some s → ∃ nb, h.neighbors[k]? = some nb ∧ p.faces[k]? = some
    { faceOf h.points (sm k) ((h.normal (sm k)).sdiv (Real.sqrt (rdot (h.normal (sm k)) (h.normal (sm k))))) nb (tf k) with
      edges := (faceOf h.points (sm k) V3.zeros nb (tf k)).edges.mapIdx (fun j e => { e with twin := some (τ k j) }) }
  twinface : ∀ (k : Nat) s, h.simplices[k]? = some s → ∀ pr ∈ cyc (sm k),
    Other h k pr (tf k pr) ∧ (∀ n, Other h k pr n → n = tf k pr) ∧ (pr.2, pr.1) ∈ cyc (sm (tf k pr)) ∧ tf (tf k pr) (pr.2, pr.1) = k
  twin : ∀ (k : Nat) s, h.simplices[k]? = some s → ∀ (j : Nat) pr, (cyc (sm k))[j]? = some pr →
    τ k j = (tf k pr, (cyc (sm (tf k pr))).idxOf (pr.2, pr.1)) ∧ τ (τ k j).1 (τ k j).2 = (k, j)

theorem getD_of_some {α : Type} {l : List α} {k : Nat} {a d : α} (h : l[k]? = some a) : l.getD k d = a := by
  rw [List.getD_eq_getElem?_getD, h]; rfl

theorem corner_of_order {s t : Nat × Nat × Nat} (ht : t = s ∨ t = reverseTail s) (i : Nat) : Corner t i ↔ Corner s i := by
  rcases ht with rfl | rfl
  · rfl
  · simp only [Corner, reverseTail]; tauto

theorem corner_of_cyc {t : Nat × Nat × Nat} {pr : Nat × Nat} (h : pr ∈ cyc t) : Corner t pr.1 ∧ Corner t pr.2 := by
  simp only [cyc, List.mem_cons, List.not_mem_nil, or_false] at h
  rcases h with rfl | rfl | rfl <;> simp [Corner]

theorem pt_cyc_ne {t : Nat × Nat × Nat} (ho : Outward h t) {pr : Nat × Nat} (hpr : pr ∈ cyc t) : h.pt pr.1 ≠ h.pt pr.2 := by
  have := outward_distinct ho
  simp only [cyc, List.mem_cons, List.not_mem_nil, or_false] at hpr
  rcases hpr with rfl | rfl | rfl
  · exact this.1
  · exact this.2.1
  · exact this.2.2

theorem cyc_nodup {t : Nat × Nat × Nat} (ho : Outward h t) : (cyc t).Nodup := by
  obtain ⟨h1, h2, h3⟩ := outward_distinct ho
  have e1 : t.1 ≠ t.2.1 := fun e => h1 (by rw [e])
  have e2 : t.2.1 ≠ t.2.2 := fun e => h2 (by rw [e])
  have e3 : t.2.2 ≠ t.1 := fun e => h3 (by rw [e])
  simp only [cyc, List.nodup_cons, List.mem_cons, List.not_mem_nil, or_false, Prod.mk.injEq, not_or, not_and, not_false_eq_true,
    List.nodup_nil, and_true]
  exact ⟨⟨fun e => absurd e e1, fun e => absurd e.symm e3⟩, fun e => absurd e e2⟩

/-- an edge is determined by the positions of its ends among the sides of a face -/
theorem cyc_pt_inj {t : Nat × Nat × Nat} (ho : Outward h t) {pr pr' : Nat × Nat} (h1 : pr ∈ cyc t) (h2 : pr' ∈ cyc t)
    (e1 : h.pt pr.1 = h.pt pr'.1) : pr = pr' := by
  obtain ⟨d1, d2, d3⟩ := outward_distinct ho
  simp only [cyc, List.mem_cons, List.not_mem_nil, or_false] at h1 h2
  rcases h1 with rfl | rfl | rfl <;> rcases h2 with rfl | rfl | rfl <;> first | rfl | skip
  · exact absurd e1 d1
  · exact absurd e1.symm d3
  · exact absurd e1.symm d1
  · exact absurd e1 d2
  · exact absurd e1 d3
  · exact absurd e1.symm d2

/-- **construction**: the polyhedron of a hull -/
theorem IsHull.built (hh : h.IsHull) (inHull : V3 ℝ → Bool) :
    ∃ p sm tf τ, mkPoly h inHull = .ok p ∧ Built h p sm tf τ := by
  classical
  have hsm : ∀ k : Nat, ∃ s', ∀ s, h.simplices[k]? = some s → (s' = s ∨ s' = reverseTail s) ∧ Outward h s' ∧
      orient h.points inHull (meanPoint h.points h.vertices) s =
        .ok ((h.normal s').sdiv (Real.sqrt (rdot (h.normal s') (h.normal s'))), s') := by
    intro k
    rcases hk : h.simplices[k]? with _ | s
    · exact ⟨(0, 0, 0), fun s hs => by cases hs⟩
    · obtain ⟨s', h1⟩ := hh.orient_ok inHull (List.mem_of_getElem? hk)
      exact ⟨s', fun s2 hs2 => by cases hs2; exact h1⟩
  choose sm hsm using hsm
  have htf : ∀ (k : Nat) (pr : Nat × Nat), ∃ n, ∀ s, h.simplices[k]? = some s → pr.1 ≠ pr.2 → Corner s pr.1 → Corner s pr.2 →
      Other h k pr n ∧ ∀ m, Other h k pr m → m = n := by
    intro k pr
    by_cases hex : ∃ s, h.simplices[k]? = some s ∧ pr.1 ≠ pr.2 ∧ Corner s pr.1 ∧ Corner s pr.2
    · obtain ⟨s, hs, hne, c1, c2⟩ := hex
      obtain ⟨n, hn, hu⟩ := hh.side k s hs pr.1 pr.2 hne c1 c2
      exact ⟨n, fun _ _ _ _ _ => ⟨hn, fun m hm => hu m hm⟩⟩
    · exact ⟨0, fun s hs hne c1 c2 => absurd ⟨s, hs, hne, c1, c2⟩ hex⟩
  choose tf htf using htf
  have htf' : ∀ (k : Nat) s, h.simplices[k]? = some s → ∀ pr ∈ cyc (sm k),
      Other h k pr (tf k pr) ∧ (∀ n, Other h k pr n → n = tf k pr) ∧ (pr.2, pr.1) ∈ cyc (sm (tf k pr)) ∧ tf (tf k pr) (pr.2, pr.1) = k := by
    intro k s hs pr hpr
    obtain ⟨ho1, ho2, -⟩ := hsm k s hs
    have hc := corner_of_cyc hpr
    have c1 := (corner_of_order ho1 pr.1).mp hc.1
    have c2 := (corner_of_order ho1 pr.2).mp hc.2
    have hne : pr.1 ≠ pr.2 := fun e => pt_cyc_ne ho2 hpr (by rw [e])
    obtain ⟨hO, hU⟩ := htf k pr s hs hne c1 c2
    obtain ⟨hnk, t, ht, d1, d2⟩ := hO
    obtain ⟨to1, to2, -⟩ := hsm (tf k pr) t ht
    have hmem : (pr.2, pr.1) ∈ cyc (sm (tf k pr)) := by
      rcases mem_of_corner hne ((corner_of_order to1 pr.1).mpr d1) ((corner_of_order to1 pr.2).mpr d2) with h1 | h1
      · exact absurd (hh.opposite hs ht hnk.symm ho1 to1 ho2 to2 hpr h1) not_false
      · exact h1
    refine ⟨⟨hnk, t, ht, d1, d2⟩, hU, hmem, ?_⟩
    obtain ⟨-, hU2⟩ := htf (tf k pr) (pr.2, pr.1) t ht hne.symm d2 d1
    exact (hU2 k ⟨hnk.symm, s, hs, c2, c1⟩).symm
  have hlen := hh.rows
  have hsk : ∀ k, k < h.neighbors.length → ∃ s, h.simplices[k]? = some s := by
    intro k hk
    rw [hlen] at hk
    exact ⟨_, List.getElem?_eq_getElem hk⟩
  have hnb : ∀ (k : Nat) s, h.simplices[k]? = some s → ∃ nb, h.neighbors[k]? = some nb := by
    intro k s hs
    have := (List.getElem?_eq_some_iff.mp hs).1
    rw [← hlen] at this
    exact ⟨_, List.getElem?_eq_getElem this⟩
  obtain ⟨faces, hf1, hf2, hf3⟩ := buildFaces_ok (pts := h.points) (inHull := inHull) (c := meanPoint h.points h.vertices)
    (sims0 := h.simplices) (un := fun k => (h.normal (sm k)).sdiv (Real.sqrt (rdot (h.normal (sm k)) (h.normal (sm k))))) (sm := sm)
    (tf := tf) h.neighbors
    (fun k hk => by
      obtain ⟨s, hs⟩ := hsk k hk
      rw [getD_of_some hs]
      exact (hsm k s hs).2.2)
    (fun k hk => by
      obtain ⟨s, hs⟩ := hsk k hk
      rw [getD_of_some hs]
      rcases (hsm k s hs).1 with he | he <;> rw [he]
      · intro i; exact Iff.rfl
      · exact sameCorners_reverse s)
    (fun k nb hk pr hpr => by
      obtain ⟨s, hs⟩ := hsk k (List.getElem?_eq_some_iff.mp hk).1
      obtain ⟨hO, hU, -, -⟩ := htf' k s hs pr hpr
      obtain ⟨ho1, ho2, -⟩ := hsm k s hs
      have hc := corner_of_cyc hpr
      have c1 := (corner_of_order ho1 pr.1).mp hc.1
      have c2 := (corner_of_order ho1 pr.2).mp hc.2
      have hne : pr.1 ≠ pr.2 := fun e => pt_cyc_ne ho2 hpr (by rw [e])
      have hmem : tf k pr ∈ nb := (hh.neighbor k s nb hs hk _).mpr
        ⟨hO.1, hO.2.choose, hO.2.choose_spec.1, pr.1, pr.2, hne, c1, c2, hO.2.choose_spec.2.1, hO.2.choose_spec.2.2⟩
      unfold firstWith
      rcases hfd : nb.find? (fun n => containsPair (h.simplices.getD n (0, 0, 0)) pr) with _ | n
      · rw [List.find?_eq_none] at hfd
        have := hfd _ hmem
        obtain ⟨t, ht, d1, d2⟩ := hO.2
        rw [getD_of_some ht] at this
        exact absurd ((containsPair_iff t pr).mpr ⟨d1, d2⟩) this
      · have h1 := List.find?_some hfd
        have h2 := List.mem_of_find?_eq_some hfd
        obtain ⟨hnk, t, ht, -⟩ := (hh.neighbor k s nb hs hk n).mp h2
        simp only [getD_of_some ht] at h1
        have h3 := (containsPair_iff t pr).mp h1
        rw [hU n ⟨hnk, t, ht, h3.1, h3.2⟩])
    h.neighbors 0 h.simplices (by simp) (fun j => by simp) (fun n i => Iff.rfl) (fun n _ => rfl)
  let τ : Nat → Nat → Nat × Nat := fun k j =>
    (tf k ((cyc (sm k)).getD j (0, 0)), (cyc (sm (tf k ((cyc (sm k)).getD j (0, 0))))).idxOf
      (((cyc (sm k)).getD j (0, 0)).2, ((cyc (sm k)).getD j (0, 0)).1))
  have hτ1 : ∀ (k j : Nat) pr, (cyc (sm k))[j]? = some pr → τ k j = (tf k pr, (cyc (sm (tf k pr))).idxOf (pr.2, pr.1)) := by
    intro k j pr hj
    simp only [τ, getD_of_some hj]
  have hτ2 : ∀ (k : Nat) s, h.simplices[k]? = some s → ∀ (j : Nat) pr, (cyc (sm k))[j]? = some pr →
      τ (τ k j).1 (τ k j).2 = (k, j) := by
    intro k s hs j pr hj
    obtain ⟨hO, hU, hm, hinv⟩ := htf' k s hs pr (List.mem_of_getElem? hj)
    rw [hτ1 k j pr hj]
    have hget : (cyc (sm (tf k pr)))[(cyc (sm (tf k pr))).idxOf (pr.2, pr.1)]? = some (pr.2, pr.1) := by
      have hl := List.idxOf_lt_length_of_mem hm
      rw [List.getElem?_eq_getElem hl, List.getElem_idxOf hl]
    rw [hτ1 _ _ _ hget, hinv]
    have hnd := cyc_nodup (hsm k s hs).2.1
    obtain ⟨hl, hl2⟩ := List.getElem?_eq_some_iff.mp hj
    have : (cyc (sm k)).idxOf (pr.1, pr.2) = j := by
      have : (pr.1, pr.2) = (cyc (sm k))[j] := hl2.symm
      rw [this, hnd.idxOf_getElem]
    rw [this]
  have hface0 : ∀ (k : Nat) f, faces[k]? = some f → ∃ s nb, h.simplices[k]? = some s ∧ h.neighbors[k]? = some nb ∧
      f = faceOf h.points (sm k) ((h.normal (sm k)).sdiv (Real.sqrt (rdot (h.normal (sm k)) (h.normal (sm k))))) nb (tf k) := by
    intro k f hf
    have hk := (List.getElem?_eq_some_iff.mp hf).1
    rw [hf2] at hk
    obtain ⟨s, hs⟩ := hsk k hk
    obtain ⟨nb, hnb⟩ := hnb k s hs
    have := hf3 k nb hnb
    rw [hf, Nat.zero_add] at this
    exact ⟨s, nb, hs, hnb, by simpa using this⟩
  have hτ : TwinOf faces τ := by
    have hval : ∀ (k : Nat) f, faces[k]? = some f → ∀ (j : Nat) e, f.edges[j]? = some e →
        ∃ s pr, h.simplices[k]? = some s ∧ (cyc (sm k))[j]? = some pr ∧ e = mkEdge (at3 h.points pr.1) (at3 h.points pr.2) pr (tf k pr) := by
      intro k f hf j e he
      obtain ⟨s, nb, hs, -, rfl⟩ := hface0 k f hf
      simp only [faceOf, List.getElem?_map, Option.map_eq_some_iff] at he
      obtain ⟨pr, hpr, rfl⟩ := he
      exact ⟨s, pr, hs, hpr, rfl⟩
    constructor
    · intro k f hf j e he
      obtain ⟨s, pr, hs, hpr, rfl⟩ := hval k f hf j e he
      obtain ⟨hO, hU, hm, hinv⟩ := htf' k s hs pr (List.mem_of_getElem? hpr)
      rw [hτ1 k j pr hpr]
      obtain ⟨-, t, ht, -⟩ := hO
      obtain ⟨nb', hnb'⟩ := hnb (tf k pr) t ht
      have hft := hf3 (tf k pr) nb' hnb'
      rw [Nat.zero_add] at hft
      refine ⟨rfl, _, mkEdge (at3 h.points pr.2) (at3 h.points pr.1) (pr.2, pr.1) (tf (tf k pr) (pr.2, pr.1)), hft, ?_, ?_⟩
      · simp only [faceOf, List.getElem?_map]
        have hl := List.idxOf_lt_length_of_mem hm
        rw [List.getElem?_eq_getElem hl, List.getElem_idxOf hl]
        rfl
      · simp only [faceOf, findTwin, List.findIdx?_map]
        refine findIdx?_unique hm ?_
        intro t' ht'
        simp only [Function.comp, mkEdge, Bool.and_eq_true, veq_iff]
        constructor
        · rintro ⟨-, e2⟩
          exact cyc_pt_inj (hsm _ t ht).2.1 ht' hm e2.symm
        · rintro rfl; exact ⟨rfl, rfl⟩
    · intro k f hf j e he
      obtain ⟨s, pr, hs, hpr, rfl⟩ := hval k f hf j e he
      exact hτ2 k s hs j pr hpr
  refine ⟨{ points := h.points, faces := getEdgeTwin faces }, sm, tf, τ, ?_, ?_⟩
  · unfold mkPoly
    rw [if_neg (by rw [hlen]; simp)]
    simp only [bind, Except.bind]
    rw [hf1]
    rfl
  · refine ⟨rfl, by rw [getEdgeTwin_length, hf2, hlen], fun k s hs => ⟨(hsm k s hs).1, (hsm k s hs).2.1⟩, ?_, htf', ?_⟩
    · intro k s hs
      obtain ⟨nb, hnb⟩ := hnb k s hs
      refine ⟨nb, hnb, ?_⟩
      have := hf3 k nb hnb
      rw [Nat.zero_add] at this
      rw [getEdgeTwin_ok hτ k this]
      rfl
    · intro k s hs j pr hj
      exact ⟨hτ1 k j pr hj, hτ2 k s hs j pr hj⟩

end Hull
end
end Geec
