import Verif.Lemmas.PreciseSum
import Verif.Spec.Precision
import Verif.Props.TensorLaws
/-
The limit of increasing precision: with arithmetic that is accurate enough, the program computes the field and the tensor of the body
to any accuracy.
-/
namespace Geec
open Filter Topology MeasureTheory
noncomputable section
variable {h : Hull ℝ} {inHull : V3 ℝ → Bool}

theorem Cont.eventually {x : Setting → ℝ} (hx : Cont x) {ε : ℝ} (hε : 0 < ε) : ∀ᶠ A in precise, |x A - x ideal| ≤ ε := by
  filter_upwards [(Metric.tendsto_nhds.mp hx.tendsto) ε hε] with A hA
  rw [Real.dist_eq] at hA
  exact hA.le

theorem ContV.eventually {v : Setting → V3 ℝ} (hv : ContV v) {ε : ℝ} (hε : 0 < ε) :
    ∀ᶠ A in precise, |(v A).x - (v ideal).x| ≤ ε ∧ |(v A).y - (v ideal).y| ≤ ε ∧ |(v A).z - (v ideal).z| ≤ ε :=
  (hv.1.eventually hε).and ((hv.2.1.eventually hε).and (hv.2.2.eventually hε))

/-- **C74** The field in the limit of increasing precision: for every body, every regular station aside the lines of the edges and every `ε` there is an
accuracy `u` such that any arithmetic that is accurate to `u` -- whatever it does when it rounds -- builds the polyhedron without an exception, and
`get_gravity` on it returns a vector within `ε` of `1e5 Gc ρ` times the attraction of the body. -/
theorem C74_precision (hh : h.IsHull) (inHull : V3 ℝ → Bool) {s : V3 ℝ} (hs : h.Regular s) (ha : h.Aside s) (ρ Gc : ℝ) (gr : Bool) {ε : ℝ} (hε : 0 < ε) :
    ∃ u, 0 < u ∧ ∀ A : Arith ℝ, Accurate A u → ∃ p G T, @mkPoly ℝ A h inHull = .ok p ∧ @Call.onNew ℝ A p ⟨s, ρ, Gc, gr⟩ = .ok (G, T) ∧
      |G.x - 100000 * Gc * ρ * (attraction h.body s).x| ≤ ε ∧ |G.y - 100000 * Gc * ρ * (attraction h.body s).y| ≤ ε ∧
      |G.z - 100000 * Gc * ρ * (attraction h.body s).z| ≤ ε := by
  obtain ⟨p, hp⟩ := hull_mkPoly_ok hh inHull
  obtain ⟨out, h1, h2, h3⟩ := onNew_cont hh hp hs ha ρ Gc gr
  have hr := at_real h1
  simp only [polyAt_real hh hp] at hr
  have hN := (C16_newton hh hp hs (G := (out ideal).1) (T := (out ideal).2) hr).1
  obtain ⟨u, hu, k⟩ := eventually_plain ((mkPoly_at hh hp).and (h1.and (h2.eventually hε)))
  refine ⟨u, hu, fun A hA => ?_⟩
  obtain ⟨k1, k2, k3⟩ := k A hA
  rw [Hull.moved_plain] at k1
  refine ⟨polyAt (.plain A) h p, (out (.plain A)).1, (out (.plain A)).2, k1 inHull, k2, ?_⟩
  simp only [hN] at k3
  exact k3

/-- **C74**, the tensor: off the surface of the body, `T` is within `ε` of the symmetric matrix `D` of the derivatives of `1e9 Gc ρ` times the attraction. -/
theorem C74_precision_tensor (hh : h.IsHull) (inHull : V3 ℝ → Bool) {s : V3 ℝ} (hs : h.Regular s) (ha : h.Aside s) (hf : s.toP ∉ frontier h.body) (ρ Gc : ℝ) :
    ∃ D : M3 ℝ, (∀ d, HasDerivAt (fun x => 1000000000 * Gc * ρ * (attraction h.body (s.add (V3.smul x d))).x) (rdot D.r0 d) 0 ∧
      HasDerivAt (fun x => 1000000000 * Gc * ρ * (attraction h.body (s.add (V3.smul x d))).y) (rdot D.r1 d) 0 ∧
      HasDerivAt (fun x => 1000000000 * Gc * ρ * (attraction h.body (s.add (V3.smul x d))).z) (rdot D.r2 d) 0) ∧
    ∀ ε, 0 < ε → ∃ u, 0 < u ∧ ∀ A : Arith ℝ, Accurate A u → ∃ p G T, @mkPoly ℝ A h inHull = .ok p ∧ @Call.onNew ℝ A p ⟨s, ρ, Gc, true⟩ = .ok (G, T) ∧
      (|T.r0.x - D.r0.x| ≤ ε ∧ |T.r0.y - D.r0.y| ≤ ε ∧ |T.r0.z - D.r0.z| ≤ ε) ∧
      (|T.r1.x - D.r1.x| ≤ ε ∧ |T.r1.y - D.r1.y| ≤ ε ∧ |T.r1.z - D.r1.z| ≤ ε) ∧
      (|T.r2.x - D.r2.x| ≤ ε ∧ |T.r2.y - D.r2.y| ≤ ε ∧ |T.r2.z - D.r2.z| ≤ ε) := by
  obtain ⟨p, hp⟩ := hull_mkPoly_ok hh inHull
  obtain ⟨out, h1, h2, h3⟩ := onNew_cont hh hp hs ha ρ Gc true
  have hr := at_real h1
  simp only [polyAt_real hh hp] at hr
  have hT : h.TensorRegular s := ⟨hs, fun t ht i j hi hj hij => .inl (ha t ht i j hi hj hij), hf⟩
  refine ⟨(out ideal).2, fun d => C19_newton hh hp hT (G := (out ideal).1) hr d, ?_⟩
  intro ε hε
  obtain ⟨u, hu, k⟩ := eventually_plain ((mkPoly_at hh hp).and (h1.and ((h3.1.eventually hε).and ((h3.2.1.eventually hε).and (h3.2.2.eventually hε)))))
  refine ⟨u, hu, fun A hA => ?_⟩
  obtain ⟨k1, k2, k3, k4, k5⟩ := k A hA
  rw [Hull.moved_plain] at k1
  exact ⟨polyAt (.plain A) h p, (out (.plain A)).1, (out (.plain A)).2, k1 inHull, k2, k3, k4, k5⟩

/-! ### Concrete cases -/

theorem aside_of_clear {a b s : V3 ℝ} (hc : ClearOf a b s) (hx : cross (a.sub s) (b.sub a) ≠ V3.zeros) :
    repsilon < vlen (a.sub s) + rdot (a.sub s) (b.sub a) / vlen (b.sub a) := by
  rcases hc with h | ⟨c, -, h, -⟩ | ⟨c, -, h, -⟩
  · exact h.2
  · refine absurd ?_ hx
    rw [h]; refine V3.ext' ?_ ?_ ?_ <;> simp <;> ring
  · refine absurd ?_ hx
    have e : a.sub s = V3.smul (-(1 + c)) (b.sub a) := by
      have hx := congrArg V3.x h
      have hy := congrArg V3.y h
      have hz := congrArg V3.z h
      simp only [sub_x, sub_y, sub_z, smul_x, smul_y, smul_z] at hx hy hz
      refine V3.ext' ?_ ?_ ?_ <;> simp <;> linarith
    rw [e]; refine V3.ext' ?_ ?_ ?_ <;> simp <;> ring

theorem tetra_aside : tetra.Aside ⟨2, 3, 5⟩ := by
  intro t ht i j hi hj hij
  have hx : cross ((tetra.pt i).sub ⟨2, 3, 5⟩) ((tetra.pt j).sub (tetra.pt i)) ≠ V3.zeros := by
    have h1 : i < 4 := tetra_isHull.cornerIndex t ht i hi
    have h2 : j < 4 := tetra_isHull.cornerIndex t ht j hj
    intro h
    have hx := congrArg V3.x h
    have hy := congrArg V3.y h
    have hz := congrArg V3.z h
    interval_cases i <;> interval_cases j <;> first | exact absurd rfl hij | skip
    all_goals first | (norm_num [cross_x, cross_y, cross_z, sub_x, sub_y, sub_z, tetra_pt0, tetra_pt1, tetra_pt2, tetra_pt3, V3.zeros] at hx; done) |
      norm_num [cross_x, cross_y, cross_z, sub_x, sub_y, sub_z, tetra_pt0, tetra_pt1, tetra_pt2, tetra_pt3, V3.zeros] at hy
  exact ⟨hx, aside_of_clear (tetra_tensorRegular_out.clear t ht i j hi hj hij) hx⟩

/-- C74: the tetrahedron, seen from (2,3,5), computed with numbers that are rounded down to multiples of `u` after every operation. -/
example {ε : ℝ} (hε : 0 < ε) : ∃ u, 0 < u ∧ ∃ p G T, @mkPoly ℝ (roundArith fun a => u * ⌊a / u⌋) tetra (fun _ => true) = .ok p ∧
    @Call.onNew ℝ (roundArith fun a => u * ⌊a / u⌋) p ⟨⟨2, 3, 5⟩, 2670, 1, false⟩ = .ok (G, T) ∧ |G.z - 100000 * 1 * 2670 * (attraction tetra.body ⟨2, 3, 5⟩).z| ≤ ε := by
  obtain ⟨u, hu, h⟩ := C74_precision tetra_isHull (fun _ => true) tetra_regular_out tetra_aside 2670 1 false hε
  refine ⟨u, hu, ?_⟩
  obtain ⟨p, G, T, h1, h2, -, -, h3⟩ := h _ (accurate_fixed hu fun a => by
    have e : u * (⌊a / u⌋ : ℝ) - a = -(u * Int.fract (a / u)) := by
      rw [Int.fract]; field_simp; ring
    rw [e, abs_neg, abs_of_nonneg (mul_nonneg hu.le (Int.fract_nonneg _))]
    nlinarith [(Int.fract_lt_one (a / u)).le])
  exact ⟨p, G, T, h1, h2, h3⟩

/-- C74, tensor: the same with the tensor. -/
example : ∃ D : M3 ℝ, ∀ ε, 0 < ε → ∃ u, 0 < u ∧ ∀ A : Arith ℝ, Accurate A u → ∃ p G T, @mkPoly ℝ A tetra (fun _ => true) = .ok p ∧
    @Call.onNew ℝ A p ⟨⟨2, 3, 5⟩, 2670, 1, true⟩ = .ok (G, T) ∧ |T.r2.z - D.r2.z| ≤ ε := by
  obtain ⟨D, -, h⟩ := C74_precision_tensor tetra_isHull (fun _ => true) tetra_regular_out tetra_aside tetra_tensorRegular_out.off 2670 1
  refine ⟨D, fun ε hε => ?_⟩
  obtain ⟨u, hu, h⟩ := h ε hε
  refine ⟨u, hu, fun A hA => ?_⟩
  obtain ⟨p, G, T, h1, h2, -, -, -, -, h3⟩ := h A hA
  exact ⟨p, G, T, h1, h2, h3⟩

end
end Geec
