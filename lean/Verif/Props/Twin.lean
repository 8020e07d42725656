import Verif.Lemmas.TensorFace
import Verif.Props.Failure
/-
C14 for the memory: what `Edge._set_twin_pqr` really writes.
-/
namespace Geec
open Arith
noncomputable section

/-- **C14** Computing an edge also fills the twin of that edge: the arrays which `_set_twin_pqr` leaves in the twin hold,
entry by entry, the value which the twin would have computed itself. -/
theorem C14_stored {h : Hull ℝ} (hh : h.IsHull) {inHull : V3 ℝ → Bool} {p : Poly ℝ} (hp : mkPoly h inHull = .ok p)
    {i j i' j' : Nat} {e e' : Edge ℝ} (he : p.edgeAt i j = some e) (ht : e.twin = some (i', j'))
    (he' : p.edgeAt i' j' = some e') {obs : V3 ℝ} (h1 : ClearOf e.start e.fin obs) (h2 : ClearOf e.fin e.start obs)
    (gr : Bool) {m : Mem ℝ} (hm : m.edge i j = ⟨none, none⟩) (hm' : m.edge i' j' = ⟨none, none⟩) :
    ∃ m', edgeCompute i j e obs gr m = (.ok (), m') ∧
      ∃ l v d, (m'.edge i' j').pqr = some l ∧ edgeIntegral e' obs gr = .ok (v, d) ∧ m'.va l = v := by
  obtain ⟨f, hf, hfe⟩ := Option.bind_eq_some_iff.mp he
  obtain ⟨i₁, j₁, f₁, e₁, htw, hf₁, hfe₁, -, hne, -, -, hes, hef, -⟩ := C25_twins hh hp hf hfe
  rw [ht] at htw
  obtain ⟨rfl, rfl⟩ := Prod.mk.inj (Option.some.inj htw)
  have he₁ : p.edgeAt i' j' = some e₁ := by unfold Poly.edgeAt; rw [hf₁]; exact hfe₁
  obtain rfl := Option.some.inj (he'.symm.trans he₁)
  obtain ⟨v, d, d', hv, hv'⟩ := C14_antisymmetric (edge_proper hh hp he) (edge_proper hh hp he') hes hef h1 h2 gr gr
  refine ⟨_, edgeCompute_fresh hne hm hm' ht hv, m.vn + 1, v.neg, d', ?_, hv', ?_⟩
  · simp [Mem.withPair]
  · simp [Mem.withPair]

/-- **C14** The same for the gradients, at stations that are not in line with the edge. -/
theorem C14_stored_gradient {h : Hull ℝ} (hh : h.IsHull) {inHull : V3 ℝ → Bool} {p : Poly ℝ} (hp : mkPoly h inHull = .ok p)
    {i j i' j' : Nat} {e e' : Edge ℝ} (he : p.edgeAt i j = some e) (ht : e.twin = some (i', j'))
    (he' : p.edgeAt i' j' = some e') {obs : V3 ℝ} (h1 : ClearOf e.start e.fin obs) (h2 : ClearOf e.fin e.start obs)
    (hx : cross (e.start.sub obs) (e.fin.sub e.start) ≠ V3.zeros)
    {m : Mem ℝ} (hm : m.edge i j = ⟨none, none⟩) (hm' : m.edge i' j' = ⟨none, none⟩) :
    ∃ m', edgeCompute i j e obs true m = (.ok (), m') ∧
      ∃ l l' v T, (m'.edge i' j').pqr = some l ∧ (m'.edge i' j').dpqr = some l' ∧
        edgeIntegral e' obs true = .ok (v, some T) ∧ m'.va l = v ∧ m'.ma l' = T := by
  obtain ⟨f, hf, hfe⟩ := Option.bind_eq_some_iff.mp he
  obtain ⟨i₁, j₁, f₁, e₁, htw, hf₁, hfe₁, -, hne, -, -, hes, hef, -⟩ := C25_twins hh hp hf hfe
  rw [ht] at htw
  obtain ⟨rfl, rfl⟩ := Prod.mk.inj (Option.some.inj htw)
  have he₁ : p.edgeAt i' j' = some e₁ := by unfold Poly.edgeAt; rw [hf₁]; exact hfe₁
  obtain rfl := Option.some.inj (he'.symm.trans he₁)
  have hx' : cross (e.fin.sub obs) (e.start.sub e.fin) ≠ V3.zeros := by
    have : cross (e.fin.sub obs) (e.start.sub e.fin) = (cross (e.start.sub obs) (e.fin.sub e.start)).neg := by
      refine V3.ext' ?_ ?_ ?_ <;> simp <;> ring
    rw [this]
    intro h0
    apply hx
    have hx := congrArg V3.x h0
    have hy := congrArg V3.y h0
    have hz := congrArg V3.z h0
    simp only [neg_x, neg_y, neg_z, zeros_x, zeros_y, zeros_z, neg_eq_zero] at hx hy hz
    exact V3.ext' hx hy hz
  have clear : ∀ {a b : V3 ℝ}, ClearOf a b obs → cross (a.sub obs) (b.sub a) ≠ V3.zeros →
      repsilon < vlen (a.sub obs) + rdot (a.sub obs) (b.sub a) / vlen (b.sub a) := by
    intro a b hc hn
    rcases hc with hc | ⟨c, -, hc, -⟩ | ⟨c, -, hc, -⟩
    · exact hc.2
    · exfalso; apply hn; rw [hc]; refine V3.ext' ?_ ?_ ?_ <;> simp <;> ring
    · exfalso
      apply hn
      have : a.sub obs = V3.smul (-1) ((b.sub a).add (obs.sub b)) := by refine V3.ext' ?_ ?_ ?_ <;> simp
      rw [this, hc]; refine V3.ext' ?_ ?_ ?_ <;> simp <;> ring
  have hv := edgeIntegral_off (edge_proper hh hp he) hx (clear h1 hx)
  have hv' := edgeIntegral_off (edge_proper hh hp he') (obs := obs) (by rw [hes, hef]; exact hx') (by rw [hes, hef]; exact clear h2 hx')
  rw [hes, hef] at hv'
  have e1 : e.fin.sub obs = (e.start.sub obs).add (e.fin.sub e.start) := by refine V3.ext' ?_ ?_ ?_ <;> simp
  have e2 : e.start.sub e.fin = (e.fin.sub e.start).neg := by refine V3.ext' ?_ ?_ ?_ <;> simp
  rw [e1, e2, lineJ_reverse, edgeGrad_reverse hx, vlen_neg, sdiv_neg] at hv'
  refine ⟨_, edgeCompute_fresh hne hm hm' ht hv, m.vn + 1, m.mn + 1, _, _, ?_, ?_, hv', ?_, ?_⟩
  · simp [Mem.withPair]
  · simp [Mem.withPair]
  · simp only [Mem.withPair, if_true]
    refine V3.ext' ?_ ?_ ?_ <;> simp <;> ring
  · simp only [Mem.withPair, if_true]
    unfold gradRows M3.neg
    refine M3.ext' (V3.ext' ?_ ?_ ?_) (V3.ext' ?_ ?_ ?_) (V3.ext' ?_ ?_ ?_) <;> simp

/-- every edge of the unit tetrahedron, seen from (2, 3, 5), in the memory of a new body -/
example : ∃ p, mkPoly tetra (fun _ => true) = .ok p ∧ ∀ i j e, p.edgeAt i j = some e → ∃ i' j' e', e.twin = some (i', j') ∧
    p.edgeAt i' j' = some e' ∧ ∃ m', edgeCompute i j e ⟨2, 3, 5⟩ true Mem.fresh = (.ok (), m') ∧
      ∃ l l' v T, (m'.edge i' j').pqr = some l ∧ (m'.edge i' j').dpqr = some l' ∧
        edgeIntegral e' ⟨2, 3, 5⟩ true = .ok (v, some T) ∧ m'.va l = v ∧ m'.ma l' = T := by
  obtain ⟨p, hp⟩ := hull_mkPoly_ok tetra_isHull (fun _ => true)
  refine ⟨p, hp, fun i j e he => ?_⟩
  obtain ⟨f, hf, hfe⟩ := Option.bind_eq_some_iff.mp he
  obtain ⟨i', j', f', e', htw, hf', hfe', -⟩ := C25_twins tetra_isHull hp hf hfe
  have he' : p.edgeAt i' j' = some e' := by unfold Poly.edgeAt; rw [hf']; exact hfe'
  obtain ⟨c1, c2⟩ := tetra_clear hp i j e he
  refine ⟨i', j', e', htw, he', C14_stored_gradient tetra_isHull hp he htw he' c1 c2 ?_ rfl rfl⟩
  have hne := (edge_proper tetra_isHull hp he).ne
  obtain ⟨s, hs, ⟨a, ha, hst⟩, b, hb, hfi⟩ := edge_start_corner tetra_isHull hp he
  have hs' := List.mem_of_getElem? hs
  have hal : a < 4 := tetra_isHull.cornerIndex s hs' a ha
  have hbl : b < 4 := tetra_isHull.cornerIndex s hs' b hb
  rw [hst, hfi] at hne ⊢
  clear hst hfi c1 c2
  intro h0
  have hx := congrArg V3.x h0
  have hy := congrArg V3.y h0
  have hz := congrArg V3.z h0
  interval_cases a <;> interval_cases b <;>
    first
      | exact absurd rfl hne
      | (simp only [cross_x, cross_y, cross_z, sub_x, sub_y, sub_z, zeros_x, zeros_y, zeros_z, tetra_pt0, tetra_pt1, tetra_pt2, tetra_pt3] at hx hy hz
         revert hx hy hz; norm_num)

end
end Geec
