import Verif.Props.Newton
/-
Hulls and regular stations under rigid motions.
-/
namespace Geec
open Arith
noncomputable section

/-- `p ↦ R p + t` -/
def rigid (R : M3 ℝ) (t p : V3 ℝ) : V3 ℝ := (R.apply p).add t

/-- the moved triangulation -/
def Hull.rigid (h : Hull ℝ) (R : M3 ℝ) (t : V3 ℝ) : Hull ℝ := { h with points := h.points.map (Geec.rigid R t) }

/-- the transposed matrix -/
def M3.tr (R : M3 ℝ) : M3 ℝ := ⟨⟨R.r0.x, R.r1.x, R.r2.x⟩, ⟨R.r0.y, R.r1.y, R.r2.y⟩, ⟨R.r0.z, R.r1.z, R.r2.z⟩⟩

theorem IsRotation.orthogonal {R : M3 ℝ} (h : IsRotation R) : IsOrthogonal R := by
  obtain ⟨n0, n1, o01, r2⟩ := h
  simp only [rdot] at n0 n1 o01
  constructor <;> simp only [r2, rdot]
  · exact n0
  · exact n1
  · linear_combination (R.r1.x ^ 2 + R.r1.y ^ 2 + R.r1.z ^ 2) * n0 + n1 - (R.r0.x * R.r1.x + R.r0.y * R.r1.y + R.r0.z * R.r1.z) * o01
  · exact o01
  · ring
  · ring

theorem IsRotation.tr_apply {R : M3 ℝ} (h : IsRotation R) (a : V3 ℝ) : R.tr.apply (R.apply a) = a := by
  conv_rhs => rw [h.expand a]
  refine V3.ext' ?_ ?_ ?_ <;> simp only [M3.apply, M3.tr, rdot, add_x, add_y, add_z, smul_x, smul_y, smul_z] <;> ring

theorem IsRotation.apply_tr {R : M3 ℝ} (h : IsRotation R) (a : V3 ℝ) : R.apply (R.tr.apply a) = a := by
  obtain ⟨n0, n1, n2, o01, o02, o12⟩ := h.orthogonal
  simp only [rdot] at n0 n1 n2 o01 o02 o12
  refine V3.ext' ?_ ?_ ?_ <;> simp only [M3.apply, M3.tr, rdot]
  · linear_combination a.x * n0 + a.y * o01 + a.z * o02
  · linear_combination a.x * o01 + a.y * n1 + a.z * o12
  · linear_combination a.x * o02 + a.y * o12 + a.z * n2

variable {h : Hull ℝ} {R : M3 ℝ} {t s : V3 ℝ}

theorem rigid_affine (h : Hull ℝ) (R : M3 ℝ) (t : V3 ℝ) : h.rigid R t = h.affine (similarLin 1 R) t.toP := by
  unfold Hull.rigid Hull.affine
  congr 1
  apply List.map_congr_left
  intro a _
  refine V3.ext' ?_ ?_ ?_ <;> simp [Geec.rigid, affV, similarLin, rowForm_apply, V3.toP, P3.toV, M3.apply]

/-- a moved hull is the hull of the moved points -/
theorem Hull.IsHull.rigid (hh : h.IsHull) (hR : IsRotation R) (t : V3 ℝ) : (h.rigid R t).IsHull := by
  rw [rigid_affine]
  refine hh.affine (B := similarLin 1 R.tr) ?_ ?_ _
  · intro q
    have := hR.apply_tr (P3.toV q)
    have e : ∀ (M : M3 ℝ) (q : P3), similarLin 1 M q = (M.apply (P3.toV q)).toP := by
      intro M q; simp [similarLin, rowForm_apply, V3.toP, M3.apply]
    rw [e, e, show P3.toV (R.tr.apply (P3.toV q)).toP = R.tr.apply (P3.toV q) from rfl, this]; rfl
  · intro q
    have := hR.tr_apply (P3.toV q)
    have e : ∀ (M : M3 ℝ) (q : P3), similarLin 1 M q = (M.apply (P3.toV q)).toP := by
      intro M q; simp [similarLin, rowForm_apply, V3.toP, M3.apply]
    rw [e, e, show P3.toV (R.apply (P3.toV q)).toP = R.apply (P3.toV q) from rfl, this]; rfl

theorem rigid_pt {i : Nat} (hi : i < h.points.length) : (h.rigid R t).pt i = Geec.rigid R t (h.pt i) := by
  unfold Hull.pt at3 Hull.rigid
  simp [List.getD_eq_getElem?_getD, hi]

theorem rigid_sub (R : M3 ℝ) (t a b : V3 ℝ) : (rigid R t a).sub (rigid R t b) = R.apply (a.sub b) := by
  unfold rigid
  rw [apply_sub]
  refine V3.ext' ?_ ?_ ?_ <;> simp

theorem rigid_injective (hR : IsRotation R) {a b : V3 ℝ} (h : rigid R t a = rigid R t b) : a = b := by
  have e := rigid_sub R t a b
  have z : ∀ c : V3 ℝ, c.sub c = V3.zeros := by intro c; refine V3.ext' ?_ ?_ ?_ <;> simp
  rw [h, z] at e
  have e' := congrArg R.tr.apply e
  rw [hR.tr_apply, apply_zeros] at e'
  have hx := congrArg V3.x e'
  have hy := congrArg V3.y e'
  have hz := congrArg V3.z e'
  simp only [sub_x, sub_y, sub_z, V3.zeros, r_zero] at hx hy hz
  refine V3.ext' ?_ ?_ ?_ <;> linarith

theorem IsRotation.vlen_apply (hR : IsRotation R) (a : V3 ℝ) : vlen (R.apply a) = vlen a := by
  unfold vlen; rw [hR.rdot_apply]

theorem IsRotation.apply_eq_zeros (hR : IsRotation R) {a : V3 ℝ} : R.apply a = V3.zeros ↔ a = V3.zeros := by
  constructor
  · intro e
    rw [← hR.tr_apply a, e, apply_zeros]
  · intro e; rw [e, apply_zeros]

theorem clearOf_rigid (hR : IsRotation R) (t : V3 ℝ) {a b : V3 ℝ} (hc : ClearOf a b s) : ClearOf (rigid R t a) (rigid R t b) (rigid R t s) := by
  unfold ClearOf at hc ⊢
  rw [rigid_sub, rigid_sub, rigid_sub, rigid_sub, hR.cross_apply, hR.rdot_apply, hR.vlen_apply, hR.vlen_apply, hR.vlen_apply, Ne,
    hR.apply_eq_zeros]
  rcases hc with h | ⟨c, h1, h2, h3⟩ | ⟨c, h1, h2, h3⟩
  · exact .inl h
  · exact .inr (.inl ⟨c, h1, by rw [h2, apply_smul], h3⟩)
  · exact .inr (.inr ⟨c, h1, by rw [h2, apply_smul], h3⟩)

/-- a regular station remains regular when it is moved with the body -/
theorem regular_rigid (hh : h.IsHull) (hR : IsRotation R) (t : V3 ℝ) (hs : h.Regular s) : (h.rigid R t).Regular (rigid R t s) := by
  intro T hT
  have hi : ∀ i, Corner T i → (h.rigid R t).pt i = Geec.rigid R t (h.pt i) := fun i hc => rigid_pt (hh.cornerIndex T hT i hc)
  have h0 := hi T.1 (.inl rfl)
  have h1 := hi T.2.1 (.inr (.inl rfl))
  have h2 := hi T.2.2 (.inr (.inr rfl))
  rw [h0, h1, h2, rigid_sub, rigid_sub, rigid_sub, hR.cross_apply, hR.rdot_apply, hR.vlen_apply]
  rcases hs T hT with h3 | ⟨h3, h4⟩
  · exact .inl h3
  · refine .inr ⟨h3, fun i j ci cj hij => ?_⟩
    rw [hi i ci, hi j cj]
    exact clearOf_rigid hR t (h4 i j ci cj hij)

theorem one_rotation : IsRotation Motion.one := by
  constructor <;> simp [Motion.one, rdot]

theorem one_apply (a : V3 ℝ) : Motion.one.apply a = a := by
  refine V3.ext' ?_ ?_ ?_ <;> simp [Motion.one, M3.apply, rdot]

end
end Geec
