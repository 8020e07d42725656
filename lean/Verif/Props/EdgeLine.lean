import Verif.Props.Precision
import Verif.Props.ThinTube
/-
On the line of an edge, rounding errors decide which formula is used, and the tensor is wrong however small they are.
-/
namespace Geec
open Filter Topology MeasureTheory
noncomputable section

/-- Exact arithmetic, except that the length of vectors of length `√8` comes out too large by `δ`.  (In double precision `sqrt(8) * sqrt(2)` is
4.000000000000001.) -/
@[reducible] def slipArith (δ : ℝ) : Arith ℝ := { realArith with norm := fun v => vlen v + if rdot v v = 8 then δ else 0 }

theorem slip_accurate {δ : ℝ} (hδ : 0 < δ) : Accurate (slipArith δ) δ := by
  have h := accurate_real hδ
  exact
  { zero := h.zero, one := h.one, two := h.two, negOne := h.negOne, pi := h.pi, eps := h.eps, k1e5 := h.k1e5, k1e4 := h.k1e4, ofNat := h.ofNat
    add := h.add, sub := h.sub, mul := h.mul, div := h.div, neg := h.neg, abs := h.abs, sqrt := h.sqrt, log := h.log, acos := h.acos
    lt_true := h.lt_true, lt_false := h.lt_false, eq_refl := h.eq_refl, eq_false := h.eq_false, dot := h.dot, mdot := h.mdot, mnorm := h.mnorm
    norm := by
      intro v _
      show |vlen v + (if rdot v v = 8 then δ else 0) - vlen v| ≤ δ
      split
      · rw [add_sub_cancel_left, abs_of_pos hδ]
      · rw [add_zero, sub_self, abs_zero]; exact hδ.le }

/-- arithmetics with a smaller and smaller slip -/
def slips : Filter Setting := map (fun δ => .plain (slipArith δ)) (𝓝[>] 0)

theorem slips_le : slips ≤ precise := by
  rintro s ⟨u, hu, h⟩
  show ∀ᶠ δ in 𝓝[>] (0 : ℝ), .plain (slipArith δ) ∈ s
  filter_upwards [Ioc_mem_nhdsGT hu] with δ hδ
  exact h _ (plain_accurate hu.le ((slip_accurate hδ.1).mono hδ.1 hδ.2))

/-- with exact inputs -/
theorem slips_plain : ∀ᶠ A : Setting in slips, A = .plain A.toArith := by
  show ∀ᶠ δ in 𝓝[>] (0 : ℝ), _
  exact Eventually.of_forall fun δ => rfl

/-- the station: on the line through the corners (0,1,0) and (1,0,0) of the tetrahedron, beyond the latter -/
def lineStation : V3 ℝ := ⟨2, -1, 0⟩

theorem line_tensorRegular : tetra.TensorRegular lineStation := by
  have e3 : repsilon ≤ 1 / 100000000 := by unfold repsilon; norm_num
  have v2 : 1 ≤ vlen (⟨-1, 1, 0⟩ : V3 ℝ) := by
    unfold vlen; apply Real.le_sqrt_of_sq_le; norm_num [rdot]
  have c12 : ClearOf (tetra.pt 1) (tetra.pt 2) lineStation := by
    right; left
    refine ⟨1, by norm_num, ?_, ?_⟩
    · rw [tetra_pt1, tetra_pt2]; refine V3.ext' ?_ ?_ ?_ <;> norm_num [lineStation]
    · have : (tetra.pt 1).sub lineStation = ⟨-1, 1, 0⟩ := by rw [tetra_pt1]; refine V3.ext' ?_ ?_ ?_ <;> simp [lineStation]; norm_num
      rw [this]; linarith
  have c21 : ClearOf (tetra.pt 2) (tetra.pt 1) lineStation := by
    right; right
    refine ⟨1, by norm_num, ?_, ?_⟩
    · rw [tetra_pt1, tetra_pt2]; refine V3.ext' ?_ ?_ ?_ <;> norm_num [lineStation]
    · have : (tetra.pt 1).sub lineStation = ⟨-1, 1, 0⟩ := by rw [tetra_pt1]; refine V3.ext' ?_ ?_ ?_ <;> simp [lineStation]; norm_num
      rw [this]; linarith
  have hc : ∀ a b, a < 4 → b < 4 → a ≠ b → ClearOf (tetra.pt a) (tetra.pt b) lineStation := by
    intro a b ha hb hne
    by_cases h01 : a = 1 ∧ b = 2
    · obtain ⟨rfl, rfl⟩ := h01; exact c12
    by_cases h10 : a = 2 ∧ b = 1
    · obtain ⟨rfl, rfl⟩ := h10; exact c21
    apply clearOf_bounds <;> interval_cases a <;> interval_cases b <;> first | exact absurd rfl hne | exact absurd ⟨rfl, rfl⟩ h01 | exact absurd ⟨rfl, rfl⟩ h10 | skip
    all_goals simp only [rdot, cross_x, cross_y, cross_z, sub_x, sub_y, sub_z, tetra_pt0, tetra_pt1, tetra_pt2, tetra_pt3, lineStation]; norm_num
  have hco : ∀ t ∈ tetra.simplices, ∀ i, Corner t i → i < 4 := fun t ht i hi => tetra_isHull.cornerIndex t ht i hi
  refine ⟨?_, fun t ht i j hi hj hij => hc i j (hco t ht i hi) (hco t ht j hj) hij, ?_⟩
  · apply regular_bounds
    intro t ht
    have hcl : ∀ i j, Corner t i → Corner t j → i ≠ j → ClearOf (tetra.pt i) (tetra.pt j) lineStation := fun i j hi hj hij => hc i j (hco t ht i hi) (hco t ht j hj) hij
    simp only [tetra, List.mem_cons, List.not_mem_nil, or_false] at ht
    rcases ht with rfl | rfl | rfl | rfl
    · left; simp [tetra_pt0, tetra_pt1, tetra_pt2, rdot, lineStation]
    · right
      refine ⟨?_, ?_, hcl⟩ <;> simp only [tetra_pt0, tetra_pt1, tetra_pt3, rdot, cross_x, cross_y, cross_z, sub_x, sub_y, sub_z, lineStation] <;> norm_num
    · right
      refine ⟨?_, ?_, hcl⟩ <;> simp only [tetra_pt0, tetra_pt2, tetra_pt3, rdot, cross_x, cross_y, cross_z, sub_x, sub_y, sub_z, lineStation] <;> norm_num
    · left; simp [tetra_pt1, tetra_pt2, tetra_pt3, rdot, lineStation]; norm_num
  · intro hf
    have := tetra.body_compact.isClosed.frontier_subset hf
    rw [tetra_body] at this
    obtain ⟨a1, a2, a3, a4⟩ := this
    simp only [V3.toP, lineStation] at a1 a2 a3 a4
    linarith

/-- the other edges are aside -/
theorem line_aside {a b : Nat} (ha : a < 4) (hb : b < 4) (hne : a ≠ b) (h01 : ¬ (a = 1 ∧ b = 2)) (h10 : ¬ (a = 2 ∧ b = 1)) :
    cross ((tetra.pt a).sub lineStation) ((tetra.pt b).sub (tetra.pt a)) ≠ V3.zeros ∧
    repsilon < vlen ((tetra.pt a).sub lineStation) + rdot ((tetra.pt a).sub lineStation) ((tetra.pt b).sub (tetra.pt a)) / vlen ((tetra.pt b).sub (tetra.pt a)) := by
  have hx : cross ((tetra.pt a).sub lineStation) ((tetra.pt b).sub (tetra.pt a)) ≠ V3.zeros := by
    intro h
    have hr : rdot (cross ((tetra.pt a).sub lineStation) ((tetra.pt b).sub (tetra.pt a))) (cross ((tetra.pt a).sub lineStation) ((tetra.pt b).sub (tetra.pt a))) = 0 := by
      rw [h]; simp [rdot]
    revert hr
    interval_cases a <;> interval_cases b <;> first | exact absurd rfl hne | exact absurd ⟨rfl, rfl⟩ h01 | exact absurd ⟨rfl, rfl⟩ h10 | skip
    all_goals simp only [rdot, cross_x, cross_y, cross_z, sub_x, sub_y, sub_z, tetra_pt0, tetra_pt1, tetra_pt2, tetra_pt3, lineStation]; norm_num
  refine ⟨hx, aside_of_clear ?_ hx⟩
  apply clearOf_bounds <;> interval_cases a <;> interval_cases b <;> first | exact absurd rfl hne | exact absurd ⟨rfl, rfl⟩ h01 | exact absurd ⟨rfl, rfl⟩ h10 | skip
  all_goals simp only [rdot, cross_x, cross_y, cross_z, sub_x, sub_y, sub_z, tetra_pt0, tetra_pt1, tetra_pt2, tetra_pt3, lineStation]; norm_num

theorem vlen_diag (k : ℝ) (hk : 0 ≤ k) : vlen ⟨-k, k, 0⟩ = k * Real.sqrt 2 ∧ vlen ⟨k, -k, 0⟩ = k * Real.sqrt 2 := by
  have : ∀ v : V3 ℝ, rdot v v = k ^ 2 * 2 → vlen v = k * Real.sqrt 2 := by
    intro v h
    unfold vlen
    rw [h, Real.sqrt_mul (sq_nonneg k), Real.sqrt_sq hk]
  exact ⟨this _ (by simp [rdot]; ring), this _ (by simp [rdot]; ring)⟩

/-- **the edge on whose line the station is**: with a slip, however small, the ends of the edge are not exchanged, and the
integral tends to a value of the wrong sign -/
theorem slip_edge {e : Edge ℝ} (h1 : e.start = tetra.pt 2) (h2 : e.fin = tetra.pt 1) :
    ∃ out, (∀ᶠ A : Setting in slips, @edgeIntegral ℝ A (edgeAt A e) (A.place lineStation) true = .ok (out A)) ∧ ContP true out ∧
      ∃ x, x ≤ -(1 / 6) ∧ (out ideal).1 = V3.smul x ⟨1, -1, 0⟩ := by
  have e0 : (0 : ℝ) < repsilon := by unfold repsilon; positivity
  have e1 : repsilon < 1 := by unfold repsilon; norm_num
  have q0 : 0 < Real.sqrt 2 := by positivity
  have q1 : 1 < Real.sqrt 2 := by rw [Real.lt_sqrt] <;> norm_num
  have q3 : Real.sqrt 2 < 3 / 2 := by rw [Real.sqrt_lt'] <;> norm_num
  have q2 : Real.sqrt 2 * Real.sqrt 2 = 2 := Real.mul_self_sqrt (by norm_num)
  have hR1 : (tetra.pt 2).sub lineStation = ⟨-2, 2, 0⟩ := by rw [tetra_pt2]; refine V3.ext' ?_ ?_ ?_ <;> simp [lineStation]; norm_num
  have hR2 : (tetra.pt 1).sub lineStation = ⟨-1, 1, 0⟩ := by rw [tetra_pt1]; refine V3.ext' ?_ ?_ ?_ <;> simp [lineStation]; norm_num
  have hL : (tetra.pt 1).sub (tetra.pt 2) = ⟨1, -1, 0⟩ := by rw [tetra_pt1, tetra_pt2]; refine V3.ext' ?_ ?_ ?_ <;> simp
  have v1 : vlen ⟨-2, 2, 0⟩ = 2 * Real.sqrt 2 := (vlen_diag 2 (by norm_num)).1
  have v2 : vlen ⟨-1, 1, 0⟩ = Real.sqrt 2 := by rw [(vlen_diag 1 (by norm_num)).1, one_mul]
  have v3 : vlen ⟨1, -1, 0⟩ = Real.sqrt 2 := by rw [(vlen_diag 1 (by norm_num)).2, one_mul]
  have d1 : rdot ⟨-2, 2, 0⟩ ⟨1, -1, 0⟩ = -4 := by simp [rdot]; norm_num
  have b2r : 2 * rdot ⟨-2, 2, 0⟩ ⟨1, -1, 0⟩ / vlen ⟨1, -1, 0⟩ / 2 = -(2 * Real.sqrt 2) := by
    rw [d1, v3]; field_simp; nlinarith
  -- what is computed before the test
  have cR1 : ContV (fun A : Setting => @V3.sub ℝ A e.start lineStation) := contV_sub (contV_const _) (contV_const _)
  have cL : ContV (fun A : Setting => @V3.sub ℝ A e.fin e.start) := contV_sub (contV_const _) (contV_const _)
  have cr := cont_norm cR1
  have cl := cont_norm cL
  have rR1 : @V3.sub ℝ realArith e.start lineStation = ⟨-2, 2, 0⟩ := by rw [h1]; exact hR1
  have rL : @V3.sub ℝ realArith e.fin e.start = ⟨1, -1, 0⟩ := by rw [h1, h2]; exact hL
  have rr : realArith.norm (@V3.sub ℝ realArith e.start lineStation) = 2 * Real.sqrt 2 := by rw [rR1]; exact v1
  have rl : realArith.norm (@V3.sub ℝ realArith e.fin e.start) = Real.sqrt 2 := by rw [rL]; exact v3
  have l0 : realArith.norm (@V3.sub ℝ realArith e.fin e.start) ≠ 0 := by rw [rl]; exact q0.ne'
  have cb := cont_mul cont_two (cont_dot cR1 cL)
  have rb : realArith.mul realArith.two (realArith.dot (@V3.sub ℝ realArith e.start lineStation) (@V3.sub ℝ realArith e.fin e.start)) = -8 := by
    rw [rR1, rL]; show 2 * rdot _ _ = (-8 : ℝ); rw [d1]; norm_num
  have cb2 := cont_div (cont_div cb cl l0) cont_two (two_ne_zero' ℝ)
  have rb2 : realArith.div (realArith.div (realArith.mul realArith.two (realArith.dot (@V3.sub ℝ realArith e.start lineStation) (@V3.sub ℝ realArith e.fin e.start)))
      (realArith.norm (@V3.sub ℝ realArith e.fin e.start))) realArith.two = -(2 * Real.sqrt 2) := by
    rw [rb, rl]; show (-8 : ℝ) / Real.sqrt 2 / 2 = _; field_simp; nlinarith
  have k2 := lt_true (cont_abs (cont_add cr cb2)) cont_eps (by
    show |realArith.norm _ + realArith.div _ _| < repsilon
    rw [rr, rb2, add_neg_cancel, abs_zero]; exact e0)
  -- the edge is turned
  have cL' := contV_neg cL
  have cb' := cont_neg cb
  have cb2' := cont_div (cont_div cb' cl l0) cont_two (two_ne_zero' ℝ)
  have rb' : realArith.neg (realArith.mul realArith.two (realArith.dot (@V3.sub ℝ realArith e.start lineStation) (@V3.sub ℝ realArith e.fin e.start))) = 8 := by
    rw [rb]; show -(-8 : ℝ) = 8; norm_num
  have rb2' : realArith.div (realArith.div (realArith.neg (realArith.mul realArith.two (realArith.dot (@V3.sub ℝ realArith e.start lineStation) (@V3.sub ℝ realArith e.fin e.start))))
      (realArith.norm (@V3.sub ℝ realArith e.fin e.start))) realArith.two = 2 * Real.sqrt 2 := by
    rw [rb', rl]; show (8 : ℝ) / Real.sqrt 2 / 2 = _; field_simp; nlinarith
  have cc := cont_add cr cb2'
  have rc : realArith.add (realArith.norm (@V3.sub ℝ realArith e.start lineStation)) (realArith.div (realArith.div (realArith.neg (realArith.mul realArith.two (realArith.dot (@V3.sub ℝ realArith e.start lineStation) (@V3.sub ℝ realArith e.fin e.start))))
      (realArith.norm (@V3.sub ℝ realArith e.fin e.start))) realArith.two) = 4 * Real.sqrt 2 := by
    rw [rb2', rr]; show 2 * Real.sqrt 2 + 2 * Real.sqrt 2 = _; ring
  have hsq : Real.sqrt (Real.sqrt 2 * Real.sqrt 2 + 8 + 2 * Real.sqrt 2 * (2 * Real.sqrt 2)) = 3 * Real.sqrt 2 := by
    rw [show Real.sqrt 2 * Real.sqrt 2 + 8 + 2 * Real.sqrt 2 * (2 * Real.sqrt 2) = (3 * Real.sqrt 2) ^ 2 by nlinarith]
    exact Real.sqrt_sq (by positivity)
  obtain ⟨out, o1, o2, m, o3, o4⟩ := lineIntegral_cont cc cl cr cb2' cb' cL' cR1 (by
      show repsilon < |realArith.add _ _|
      rw [rc, abs_of_pos (by positivity)]; linarith) l0 (by rw [rr]; positivity) (by
      rw [rl, rb', rr]; positivity) (by
      rw [rc, rb2', rb', rl, rr, hsq]; positivity) true
  -- the value in the limit
  have val := at_real o1
  beta_reduce at val
  rw [rc, rb2', rb', rl, rr] at val
  have hval : (out ideal).1 = V3.smul (-(Real.log (3 / 2) / Real.sqrt 2)) ⟨1, -1, 0⟩ := by
    have c0 : (@Arith.lt ℝ realArith (@Arith.eps ℝ realArith) (@Arith.abs ℝ realArith (4 * Real.sqrt 2))) = true := by
      rw [r_lt]; show repsilon < |4 * Real.sqrt 2|; rw [abs_of_pos (by positivity)]; linarith
    have c1 : (@Arith.eq ℝ realArith (4 * Real.sqrt 2) (@Arith.zero ℝ realArith)) = false := by
      rw [Bool.eq_false_iff, ne_eq, r_eq]; show ¬ 4 * Real.sqrt 2 = 0; positivity
    unfold lineIntegralAlongEdge numbaDiv at val
    simp only [c0, c1, if_true, Bind.bind, Except.bind, Pure.pure, Except.pure, Bool.false_eq_true, if_false, Except.ok.injEq] at val
    rw [← val]
    simp only [r_sqrt, r_add, r_mul, r_div, r_log, hsq]
    rw [show (3 * Real.sqrt 2 + Real.sqrt 2 + 2 * Real.sqrt 2) / (4 * Real.sqrt 2) = 3 / 2 by field_simp; norm_num, rL]
    refine V3.ext' ?_ ?_ ?_ <;> simp <;> ring
  refine ⟨fun A => (@V3.smul ℝ A A.one (out A).1, (out A).2), ?_, ⟨contV_smul cont_one o2, m, o3, o4⟩, -(Real.log (3 / 2) / Real.sqrt 2), ?_, ?_⟩
  · -- the exchange of the ends does not take place
    have k1 : ∀ᶠ A : Setting in slips, A.eq (A.div (A.dot (@V3.sub ℝ A e.start lineStation) (@V3.sub ℝ A e.fin lineStation))
        (A.mul (A.norm (@V3.sub ℝ A e.start lineStation)) (A.norm (@V3.sub ℝ A e.fin lineStation)))) A.one = false := by
      show ∀ᶠ δ in 𝓝[>] (0 : ℝ), _
      filter_upwards [self_mem_nhdsWithin] with δ hδ
      have hδ : 0 < δ := hδ
      have s1 : @V3.sub ℝ (slipArith δ) e.start lineStation = ⟨-2, 2, 0⟩ := rR1
      have s2 : @V3.sub ℝ (slipArith δ) e.fin lineStation = ⟨-1, 1, 0⟩ := by
        show @V3.sub ℝ realArith e.fin lineStation = ⟨-1, 1, 0⟩
        rw [h2]; exact hR2
      have n1 : (slipArith δ).norm ⟨-2, 2, 0⟩ = 2 * Real.sqrt 2 + δ := by
        show vlen _ + (if _ then _ else _) = _
        rw [v1, if_pos (by simp [rdot]; norm_num)]
      have n2 : (slipArith δ).norm ⟨-1, 1, 0⟩ = Real.sqrt 2 := by
        show vlen _ + (if _ then _ else _) = _
        rw [v2, if_neg (by simp [rdot]; norm_num), add_zero]
      rw [s1, s2, n1, n2]
      refine decide_eq_false ?_
      show ¬ rdot _ _ / ((2 * Real.sqrt 2 + δ) * Real.sqrt 2) = 1
      rw [div_eq_one_iff_eq (by positivity)]
      simp only [rdot]
      nlinarith
    filter_upwards [k1, k2.filter_mono slips_le, o1.filter_mono slips_le, slips_plain] with A a1 a2 a3 a4
    have m1 : ∀ v, A.move v = v := fun v => by rw [a4]; rfl
    have m2 : ∀ v, A.place v = v := fun v => by rw [a4]; rfl
    simp only [edgeIntegral, edgeAt, m1, m2, a1, a2, Bool.and_false, Bool.false_eq_true, if_false, if_true, Bind.bind, Except.bind, a3, Pure.pure, Except.pure]
  · have hl := Real.one_sub_inv_le_log_of_pos (show (0 : ℝ) < 3 / 2 by norm_num)
    have : 1 / 6 ≤ Real.log (3 / 2) / Real.sqrt 2 := by
      rw [le_div_iff₀ q0]; norm_num at hl; linarith
    linarith
  · show @V3.smul ℝ realArith (realArith.one) (out ideal).1 = _
    rw [hval]
    refine V3.ext' ?_ ?_ ?_ <;> simp

/-! ### the sum along a family of arithmetics -/

section
variable {h : Hull ℝ} {inHull : V3 ℝ → Bool} {p : Poly ℝ} {F : Filter Setting}

/-- a face, if the values of its edges converge along a family of arithmetics -- to whatever values -/
theorem face_along (hF : F ≤ precise) (hh : h.IsHull) (hp : mkPoly h inHull = .ok p) {k : Nat} {f : Face ℝ} (hf : p.faces[k]? = some f) {s : V3 ℝ}
    (hs : h.Regular s) (ρ Gc : ℝ) {e0 e1 e2 : Edge ℝ} (hE : f.edges = [e0, e1, e2]) {x0 x1 x2 : Setting → V3 ℝ × Option (M3 ℝ)}
    (c0 : ContP true x0) (c1 : ContP true x1) (c2 : ContP true x2)
    (h0 : ∀ᶠ A : Setting in F, @edgeValue ℝ A (polyAt A h p) (A.place s) true k (edgeAt A e0) = .ok (x0 A))
    (h1 : ∀ᶠ A : Setting in F, @edgeValue ℝ A (polyAt A h p) (A.place s) true k (edgeAt A e1) = .ok (x1 A))
    (h2 : ∀ᶠ A : Setting in F, @edgeValue ℝ A (polyAt A h p) (A.place s) true k (edgeAt A e2) = .ok (x2 A)) :
    ∃ out w, ContG out ∧ omegaValue f s true = .ok w ∧ (∀ᶠ A : Setting in F, @faceValue ℝ A (polyAt A h p) (A.place s) (A.weigh ρ) (A.scale Gc) true k (faceAt A h k f) = .ok (out A)) ∧
      out ideal = faceField f.un (f.height s) w.1 w.2 (((x0 ideal).1.add (x1 ideal).1).add (x2 ideal).1)
        ((((x0 ideal).2.getD M3.zeros).add ((x1 ideal).2.getD M3.zeros)).add ((x2 ideal).2.getD M3.zeros)) ρ Gc true := by
  obtain ⟨w, w1, w2⟩ := omegaValue_cont hh hp hf hs true
  have hr := at_real w1
  beta_reduce at hr
  rw [faceAt_real hh hp hf] at hr
  refine ⟨_, w ideal, faceField_cont (un_cont hh hp hf) (height_cont hh hp hf s) w2.1 w2.2 (contV_add (contV_add c0.1 c1.1) c2.1)
    (contM_add (contM_add (getD_cont c0) (getD_cont c1)) (getD_cont c2)) ρ Gc true, hr, ?_, ?_⟩
  · filter_upwards [w1.filter_mono hF, h0, h1, h2] with A a1 a2 a3 a4
    have : (faceAt A h k f).edges = [edgeAt A e0, edgeAt A e1, edgeAt A e2] := by
      show f.edges.map (edgeAt A) = _
      rw [hE]; rfl
    simp only [faceValue, a1, this, edgesValue, a2, a3, a4, fieldOfEdges, sumPqr, sumDpqr]
  · simp only [faceAt_real hh hp hf]
    rfl

end

section
variable {inHull : V3 ℝ → Bool} {p : Poly ℝ}

theorem lineJ_nonneg (R L : V3 ℝ) : 0 ≤ lineJ R L := by
  unfold lineJ
  apply intervalIntegral.integral_nonneg (by norm_num)
  intro v _
  exact div_nonneg zero_le_one (vlen_nonneg _)

/-- which way round the bottom face is -/
theorem orient0 (hp : mkPoly tetra inHull = .ok p) {f : Face ℝ} (hf : p.faces[0]? = some f) : ∃ a b c e0 e1 e2, f.edges = [e0, e1, e2] ∧
    ((a = 0 ∧ b = 2 ∧ c = 1) ∨ (a = 2 ∧ b = 1 ∧ c = 0) ∨ (a = 1 ∧ b = 0 ∧ c = 2)) ∧
    (e0.start = tetra.pt a ∧ e0.fin = tetra.pt b) ∧ (e1.start = tetra.pt b ∧ e1.fin = tetra.pt c) ∧ (e2.start = tetra.pt c ∧ e2.fin = tetra.pt a) := by
  obtain ⟨hun, hpa⟩ := tetra_un0 hp hf
  obtain ⟨t, -, hpts, -, hn, -, -⟩ := face_facts tetra_isHull hp hf
  obtain ⟨t, ht, a, b, c, e0, e1, e2, hE, hperm, hpts', hh0, hh1, hh2⟩ := edges_of_hull tetra_isHull hp hf
  have ht' : t = (0, 1, 2) := (Option.some.inj ht).symm
  subst ht'
  have ea : f.pa = tetra.pt a := by unfold Face.pa; rw [hpts']; rfl
  have eb : f.pb = tetra.pt b := by unfold Face.pb; rw [hpts']; rfl
  have ec : f.pc = tetra.pt c := by unfold Face.pc; rw [hpts']; rfl
  refine ⟨a, b, c, e0, e1, e2, hE, ?_, hh0, hh1, hh2⟩
  have hpos := hn.pos
  rw [ea, eb, ec, hun] at hpos
  have hnd : [a, b, c].Nodup := hperm.nodup_iff.mpr (by decide)
  have ma : a ∈ [0, 1, 2] := hperm.subset (by simp)
  have mb : b ∈ [0, 1, 2] := hperm.subset (by simp)
  have mc : c ∈ [0, 1, 2] := hperm.subset (by simp)
  clear ea eb ec hpts' hh0 hh1 hh2 hperm
  simp only [List.mem_cons, List.not_mem_nil, or_false] at ma mb mc
  rcases ma with rfl | rfl | rfl <;> rcases mb with rfl | rfl | rfl <;> rcases mc with rfl | rfl | rfl <;>
    first | (exfalso; revert hnd; decide) | (simp; done) | (exfalso; revert hpos; simp [rdot, tetra_pt0, tetra_pt1, tetra_pt2])

/-- which way round the sloping face is -/
theorem orient3 (hp : mkPoly tetra inHull = .ok p) {f : Face ℝ} (hf : p.faces[3]? = some f) : ∃ a b c e0 e1 e2, f.edges = [e0, e1, e2] ∧
    ((a = 1 ∧ b = 2 ∧ c = 3) ∨ (a = 2 ∧ b = 3 ∧ c = 1) ∨ (a = 3 ∧ b = 1 ∧ c = 2)) ∧
    (e0.start = tetra.pt a ∧ e0.fin = tetra.pt b) ∧ (e1.start = tetra.pt b ∧ e1.fin = tetra.pt c) ∧ (e2.start = tetra.pt c ∧ e2.fin = tetra.pt a) := by
  obtain ⟨u, hun, hu, hpa⟩ := tetra_un3 hp hf
  obtain ⟨t, -, hpts, -, hn, -, -⟩ := face_facts tetra_isHull hp hf
  obtain ⟨t, ht, a, b, c, e0, e1, e2, hE, hperm, hpts', hh0, hh1, hh2⟩ := edges_of_hull tetra_isHull hp hf
  have ht' : t = (1, 2, 3) := (Option.some.inj ht).symm
  subst ht'
  have ea : f.pa = tetra.pt a := by unfold Face.pa; rw [hpts']; rfl
  have eb : f.pb = tetra.pt b := by unfold Face.pb; rw [hpts']; rfl
  have ec : f.pc = tetra.pt c := by unfold Face.pc; rw [hpts']; rfl
  refine ⟨a, b, c, e0, e1, e2, hE, ?_, hh0, hh1, hh2⟩
  have hpos := hn.pos
  rw [ea, eb, ec, hun] at hpos
  have hnd : [a, b, c].Nodup := hperm.nodup_iff.mpr (by decide)
  have ma : a ∈ [1, 2, 3] := hperm.subset (by simp)
  have mb : b ∈ [1, 2, 3] := hperm.subset (by simp)
  have mc : c ∈ [1, 2, 3] := hperm.subset (by simp)
  clear ea eb ec hpts' hh0 hh1 hh2 hperm
  simp only [List.mem_cons, List.not_mem_nil, or_false] at ma mb mc
  rcases ma with rfl | rfl | rfl <;> rcases mb with rfl | rfl | rfl <;> rcases mc with rfl | rfl | rfl <;>
    first | (exfalso; revert hnd; decide) | (simp; done) | (exfalso; revert hpos; simp only [rdot, cross_x, cross_y, cross_z, sub_x, sub_y, sub_z, tetra_pt1, tetra_pt2, tetra_pt3]; intro hpos; nlinarith)

/-- an edge whose line the station is not on -/
theorem slip_good (hp : mkPoly tetra inHull = .ok p) {i j : Nat} {e : Edge ℝ} (he : p.edgeAt i j = some e) {a b : Nat} (ea : e.start = tetra.pt a)
    (eb : e.fin = tetra.pt b) (ha : a < 4) (hb : b < 4) (h01 : ¬ (a = 1 ∧ b = 2)) (h10 : ¬ (a = 2 ∧ b = 1)) :
    ∃ x, ContP true x ∧ (∀ᶠ A : Setting in slips, @edgeValue ℝ A (polyAt A tetra p) (A.place lineStation) true i (edgeAt A e) = .ok (x A)) ∧
      edgeValue p lineStation true i e = .ok (x ideal) := by
  have hne := (edge_proper tetra_isHull hp he).ne
  have hab : a ≠ b := by rintro rfl; exact hne (ea.trans eb.symm)
  obtain ⟨f, hf, hfe⟩ := Option.bind_eq_some_iff.mp he
  obtain ⟨i', j', f', e', t1, t2, t3, -, -, -, -, t4, t5, -, -⟩ := C25_twins tetra_isHull hp hf hfe
  have he' : p.edgeAt i' j' = some e' := by unfold Poly.edgeAt; rw [t2]; exact t3
  have u1 : ∀ A : Setting, (edgeAt A e).twin = some (i', j') := fun _ => t1
  have u2 : ∀ A : Setting, (polyAt A tetra p).edgeAt i' j' = some (edgeAt A e') := fun A => by rw [polyAt_edgeAt, he']; rfl
  have key : ContE (ContP true) (fun A => @edgeValue ℝ A (polyAt A tetra p) (A.place lineStation) true i (edgeAt A e)) := by
    simp only [edgeValue, u1, u2]
    by_cases hlt : i' < i
    · simp only [if_pos hlt]
      obtain ⟨l1, l2⟩ := line_aside hb ha hab.symm (fun h => h10 ⟨h.2, h.1⟩) (fun h => h01 ⟨h.2, h.1⟩)
      rw [← ea, ← eb, ← t4, ← t5] at l1 l2
      obtain ⟨out, k1, k2⟩ := edgeIntegral_cont e' l1 l2 true
      refine ⟨fun A => @pairNeg ℝ A (out A), ?_, contP_neg k2⟩
      filter_upwards [k1] with A a1
      rw [a1]; rfl
    · simp only [if_neg hlt]
      obtain ⟨l1, l2⟩ := line_aside ha hb hab h01 h10
      rw [← ea, ← eb] at l1 l2
      exact edgeIntegral_cont e l1 l2 true
  obtain ⟨x, x1, x2⟩ := key
  refine ⟨x, x2, x1.filter_mono slips_le, ?_⟩
  have := at_real x1
  beta_reduce at this
  have hr : edgeAt ideal e = e := by
    have h1 := polyAt_edgeAt (h := tetra) ideal p i j
    rw [polyAt_real tetra_isHull hp, he, Option.map_some] at h1
    exact (Option.some.inj h1).symm
  rwa [polyAt_real tetra_isHull hp, hr] at this

/-- the edge in the bottom face on whose line the station is -/
theorem slip_bad0 (hp : mkPoly tetra inHull = .ok p) {j : Nat} {e : Edge ℝ} (he : p.edgeAt 0 j = some e) (ea : e.start = tetra.pt 2)
    (eb : e.fin = tetra.pt 1) :
    ∃ x, ContP true x ∧ ∀ᶠ A : Setting in slips, @edgeValue ℝ A (polyAt A tetra p) (A.place lineStation) true 0 (edgeAt A e) = .ok (x A) := by
  obtain ⟨i', j', e', h1, -⟩ := wellTwinned_of_hull tetra_isHull hp 0 j e he
  have u1 : ∀ A : Setting, (edgeAt A e).twin = some (i', j') := fun _ => h1
  obtain ⟨x, x1, x2, -⟩ := slip_edge ea eb
  refine ⟨x, x2, ?_⟩
  simpa only [edgeValue, u1, Nat.not_lt_zero, if_false] using x1

/-- the same edge in the sloping face: the limit is not the exact value -/
theorem slip_bad3 (hp : mkPoly tetra inHull = .ok p) {j : Nat} {e : Edge ℝ} (he : p.edgeAt 3 j = some e) (ea : e.start = tetra.pt 1)
    (eb : e.fin = tetra.pt 2) :
    ∃ x v κ, ContP true x ∧ (∀ᶠ A : Setting in slips, @edgeValue ℝ A (polyAt A tetra p) (A.place lineStation) true 3 (edgeAt A e) = .ok (x A)) ∧
      edgeValue p lineStation true 3 e = .ok v ∧ 1 / 6 ≤ κ ∧ (x ideal).1 = v.1.add (V3.smul κ ⟨1, -1, 0⟩) := by
  obtain ⟨f, hf, hfe⟩ := Option.bind_eq_some_iff.mp he
  obtain ⟨i', j', f', e', t1, t2, t3, -, t6, -, -, t4, t5, -, -⟩ := C25_twins tetra_isHull hp hf hfe
  have he' : p.edgeAt i' j' = some e' := by unfold Poly.edgeAt; rw [t2]; exact t3
  have i0 : i' = 0 := by
    obtain ⟨t, ht, ⟨a, ha, fa⟩, b, hb, fb⟩ := edge_start_corner tetra_isHull hp he'
    rw [t4, eb] at fa
    rw [t5, ea] at fb
    have hlt : i' < 4 := (List.getElem?_eq_some_iff.mp ht).1
    interval_cases i'
    · rfl
    · have : t = (0, 1, 3) := (Option.some.inj ht).symm
      subst this
      rcases ha with rfl | rfl | rfl <;> simp [tetra_pt0, tetra_pt1, tetra_pt2, tetra_pt3] at fa
    · have : t = (0, 2, 3) := (Option.some.inj ht).symm
      subst this
      rcases hb with rfl | rfl | rfl <;> simp [tetra_pt0, tetra_pt1, tetra_pt2, tetra_pt3] at fb
    · exact absurd rfl t6
  subst i0
  have u1 : ∀ A : Setting, (edgeAt A e).twin = some (0, j') := fun _ => t1
  have u2 : ∀ A : Setting, (polyAt A tetra p).edgeAt 0 j' = some (edgeAt A e') := fun A => by rw [polyAt_edgeAt, he']; rfl
  obtain ⟨x, x1, x2, y, y1, y2⟩ := slip_edge (t4.trans eb) (t5.trans ea)
  have hpr := edge_proper tetra_isHull hp he'
  have hcl : ClearOf e'.start e'.fin lineStation := by
    obtain ⟨t, ht, ⟨a, ha, fa⟩, b, hb, fb⟩ := edge_start_corner tetra_isHull hp he'
    have hab : a ≠ b := by rintro rfl; exact hpr.ne (fa.trans fb.symm)
    rw [fa, fb]
    exact line_tensorRegular.clear t (List.mem_of_getElem? ht) a b ha hb hab
  obtain ⟨d, hd⟩ := edgeIntegral_clear hpr hcl true
  have hL : e'.vector = ⟨1, -1, 0⟩ := by
    rw [hpr.vector, t4, t5, ea, eb, tetra_pt1, tetra_pt2]; refine V3.ext' ?_ ?_ ?_ <;> simp
  rw [hL] at hd
  refine ⟨fun A => @pairNeg ℝ A (x A), pairNeg (V3.smul (lineJ (e'.start.sub lineStation) ⟨1, -1, 0⟩) ⟨1, -1, 0⟩, d),
    lineJ (e'.start.sub lineStation) ⟨1, -1, 0⟩ - y, contP_neg x2, ?_, ?_, ?_, ?_⟩
  · simp only [edgeValue, u1, u2, show (0 : ℕ) < 3 by norm_num, if_true]
    filter_upwards [x1] with A a1
    rw [a1]; rfl
  · simp only [edgeValue, t1, he', show (0 : ℕ) < 3 by norm_num, if_true, hd]
    rfl
  · have := lineJ_nonneg (e'.start.sub lineStation) ⟨1, -1, 0⟩
    linarith
  · simp only [pairNeg, y2]
    refine V3.ext' ?_ ?_ ?_ <;> simp <;> ring

/-- faces none of whose edges' lines the station is on -/
theorem slip_face_good (hp : mkPoly tetra inHull = .ok p) {k : Nat} {f : Face ℝ} (hf : p.faces[k]? = some f) (hk : k = 1 ∨ k = 2) (ρ Gc : ℝ) :
    ∃ out, ContG out ∧ (∀ᶠ A : Setting in slips, @faceValue ℝ A (polyAt A tetra p) (A.place lineStation) (A.weigh ρ) (A.scale Gc) true k (faceAt A tetra k f) = .ok (out A)) ∧
      faceValue p lineStation ρ Gc true k f = .ok (out ideal) := by
  obtain ⟨t, ht, a, b, c, e0, e1, e2, hE, hperm, -, hh0, hh1, hh2⟩ := edges_of_hull tetra_isHull hp hf
  have hlt : ∀ x ∈ [a, b, c], x < 4 := fun x hx => tetra_isHull.cornerIndex t (List.mem_of_getElem? ht) x (by
    have := hperm.mem_iff.mp hx
    simpa [Corner] using this)
  have hno : ∀ x ∈ [a, b, c], ∀ y ∈ [a, b, c], ¬ (x = 1 ∧ y = 2) := by
    rintro x hx y hy ⟨rfl, rfl⟩
    have hx := hperm.subset hx
    have hy := hperm.subset hy
    rcases hk with rfl | rfl
    · have ht' : t = (0, 1, 3) := (Option.some.inj ht).symm
      subst ht'
      revert hy; decide
    · have ht' : t = (0, 2, 3) := (Option.some.inj ht).symm
      subst ht'
      revert hx; decide
  have hedge : ∀ (j : Nat) (e : Edge ℝ), [e0, e1, e2][j]? = some e → p.edgeAt k j = some e := by
    intro j e hj
    unfold Poly.edgeAt
    rw [hf, Option.bind_some, hE]
    exact hj
  have good : ∀ (j : Nat) (e : Edge ℝ) (x y : Nat), [e0, e1, e2][j]? = some e → x ∈ [a, b, c] → y ∈ [a, b, c] → e.start = tetra.pt x → e.fin = tetra.pt y →
      ∃ v, ContP true v ∧ (∀ᶠ A : Setting in slips, @edgeValue ℝ A (polyAt A tetra p) (A.place lineStation) true k (edgeAt A e) = .ok (v A)) ∧
      edgeValue p lineStation true k e = .ok (v ideal) := fun j e x y hj hx hy h1 h2 =>
    slip_good hp (hedge j e hj) h1 h2 (hlt x hx) (hlt y hy) (hno x hx y hy) (fun h => hno y hy x hx ⟨h.2, h.1⟩)
  obtain ⟨x0, c0, v0, r0⟩ := good 0 e0 a b rfl (by simp) (by simp) hh0.1 hh0.2
  obtain ⟨x1, c1, v1, r1⟩ := good 1 e1 b c rfl (by simp) (by simp) hh1.1 hh1.2
  obtain ⟨x2, c2, v2, r2⟩ := good 2 e2 c a rfl (by simp) (by simp) hh2.1 hh2.2
  obtain ⟨out, w, o1, o2, o3, o4⟩ := face_along slips_le tetra_isHull hp hf line_tensorRegular.regular ρ Gc hE c0 c1 c2 v0 v1 v2
  refine ⟨out, o1, o3, ?_⟩
  rw [o4]
  simp only [faceValue, o2, hE, edgesValue, r0, r1, r2, fieldOfEdges, sumPqr, sumDpqr]

/-- a face in whose plane the station is -/
theorem field_plane (un : V3 ℝ) (ω : ℝ) (dω J : V3 ℝ) (dJ : M3 ℝ) (ρ Gc : ℝ) : (faceField un 0 ω dω J dJ ρ Gc true).2.r0.x =
    1000000000 * Gc * ρ * (un.x * (un.x * ω + un.z * J.y - un.y * J.z)) := by
  unfold faceField
  simp
  left
  ring

/-- the bottom face: the component `xx` of its tensor is zero -/
theorem slip_face0 (hp : mkPoly tetra inHull = .ok p) {f : Face ℝ} (hf : p.faces[0]? = some f) (ρ Gc : ℝ) :
    (∃ out, ContG out ∧ (∀ᶠ A : Setting in slips, @faceValue ℝ A (polyAt A tetra p) (A.place lineStation) (A.weigh ρ) (A.scale Gc) true 0 (faceAt A tetra 0 f) = .ok (out A)) ∧
      (out ideal).2.r0.x = 0) ∧ ∀ g, faceValue p lineStation ρ Gc true 0 f = .ok g → g.2.r0.x = 0 := by
  obtain ⟨hun, hpa⟩ := tetra_un0 hp hf
  have hz : f.height lineStation = 0 := by
    show rdot f.un (f.pa.sub lineStation) = 0
    rw [rdot_sub, hpa, hun]; simp [rdot, lineStation]
  obtain ⟨a, b, c, e0, e1, e2, hE, hor, hh0, hh1, hh2⟩ := orient0 hp hf
  have hedge : ∀ (j : Nat) (e : Edge ℝ), [e0, e1, e2][j]? = some e → p.edgeAt 0 j = some e := by
    intro j e hj
    unfold Poly.edgeAt
    rw [hf, Option.bind_some, hE]
    exact hj
  have all : ∀ (j : Nat) (e : Edge ℝ) (x y : Nat), [e0, e1, e2][j]? = some e → x < 4 → y < 4 → ¬ (x = 1 ∧ y = 2) → e.start = tetra.pt x → e.fin = tetra.pt y →
      ∃ v, ContP true v ∧ (∀ᶠ A : Setting in slips, @edgeValue ℝ A (polyAt A tetra p) (A.place lineStation) true 0 (edgeAt A e) = .ok (v A)) := by
    intro j e x y hj hx hy h01 h1 h2
    by_cases h10 : x = 2 ∧ y = 1
    · rw [h10.1] at h1; rw [h10.2] at h2
      exact slip_bad0 hp (hedge j e hj) h1 h2
    · obtain ⟨v, v1, v2, -⟩ := slip_good hp (hedge j e hj) h1 h2 hx hy h01 h10
      exact ⟨v, v1, v2⟩
  refine ⟨?_, ?_⟩
  · obtain ⟨x0, c0, v0⟩ := all 0 e0 a b rfl (by omega) (by omega) (by omega) hh0.1 hh0.2
    obtain ⟨x1, c1, v1⟩ := all 1 e1 b c rfl (by omega) (by omega) (by omega) hh1.1 hh1.2
    obtain ⟨x2, c2, v2⟩ := all 2 e2 c a rfl (by omega) (by omega) (by omega) hh2.1 hh2.2
    obtain ⟨out, w, o1, o2, o3, o4⟩ := face_along slips_le tetra_isHull hp hf line_tensorRegular.regular ρ Gc hE c0 c1 c2 v0 v1 v2
    refine ⟨out, o1, o3, ?_⟩
    rw [o4, hz, field_plane, hun]
    simp
  · intro g hg
    unfold faceValue at hg
    rcases h1 : omegaValue f lineStation true with x | w
    · rw [h1] at hg; cases hg
    rcases h2 : edgesValue p lineStation true 0 f.edges with x | vs
    · rw [h1, h2] at hg; cases hg
    simp only [h1, h2, fieldOfEdges] at hg
    rcases vs with _ | ⟨v, vs⟩
    · cases hg
    · rw [← Except.ok.inj hg, hz, field_plane, hun]
      simp

/-- the sloping face: the limit of the component `xx` of its tensor is too small -/
theorem slip_face3 (hp : mkPoly tetra inHull = .ok p) {f : Face ℝ} (hf : p.faces[3]? = some f) {ρ Gc : ℝ} (hK : 0 ≤ Gc * ρ) :
    ∃ out g, ContG out ∧ (∀ᶠ A : Setting in slips, @faceValue ℝ A (polyAt A tetra p) (A.place lineStation) (A.weigh ρ) (A.scale Gc) true 3 (faceAt A tetra 3 f) = .ok (out A)) ∧
      faceValue p lineStation ρ Gc true 3 f = .ok g ∧ (out ideal).2.r0.x ≤ g.2.r0.x - 1000000000 * Gc * ρ / 24 := by
  obtain ⟨u, hun, hu, hpa⟩ := tetra_un3 hp hf
  have hz : f.height lineStation = 0 := by
    show rdot f.un (f.pa.sub lineStation) = 0
    rw [rdot_sub, hpa, hun]; simp [rdot, lineStation]; ring
  obtain ⟨a, b, c, e0, e1, e2, hE, hor, hh0, hh1, hh2⟩ := orient3 hp hf
  have hedge : ∀ (j : Nat) (e : Edge ℝ), [e0, e1, e2][j]? = some e → p.edgeAt 3 j = some e := by
    intro j e hj
    unfold Poly.edgeAt
    rw [hf, Option.bind_some, hE]
    exact hj
  have good : ∀ (j : Nat) (e : Edge ℝ) (x y : Nat), [e0, e1, e2][j]? = some e → x < 4 → y < 4 → ¬ (x = 1 ∧ y = 2) → ¬ (x = 2 ∧ y = 1) → e.start = tetra.pt x →
      e.fin = tetra.pt y → ∃ v r, ContP true v ∧ (∀ᶠ A : Setting in slips, @edgeValue ℝ A (polyAt A tetra p) (A.place lineStation) true 3 (edgeAt A e) = .ok (v A)) ∧
        edgeValue p lineStation true 3 e = .ok r ∧ (v ideal).1 = r.1 := by
    intro j e x y hj hx hy h01 h10 h1 h2
    obtain ⟨v, v1, v2, v3⟩ := slip_good hp (hedge j e hj) h1 h2 hx hy h01 h10
    exact ⟨v, _, v1, v2, v3, rfl⟩
  have fin : ∀ (x0 x1 x2 : Setting → V3 ℝ × Option (M3 ℝ)) (r0 r1 r2 : V3 ℝ × Option (M3 ℝ)), ContP true x0 → ContP true x1 → ContP true x2 →
      (∀ᶠ A : Setting in slips, @edgeValue ℝ A (polyAt A tetra p) (A.place lineStation) true 3 (edgeAt A e0) = .ok (x0 A)) →
      (∀ᶠ A : Setting in slips, @edgeValue ℝ A (polyAt A tetra p) (A.place lineStation) true 3 (edgeAt A e1) = .ok (x1 A)) →
      (∀ᶠ A : Setting in slips, @edgeValue ℝ A (polyAt A tetra p) (A.place lineStation) true 3 (edgeAt A e2) = .ok (x2 A)) →
      edgeValue p lineStation true 3 e0 = .ok r0 → edgeValue p lineStation true 3 e1 = .ok r1 → edgeValue p lineStation true 3 e2 = .ok r2 →
      (∃ κ : ℝ, 1 / 6 ≤ κ ∧ (x0 ideal).1.y + (x1 ideal).1.y + (x2 ideal).1.y = r0.1.y + r1.1.y + r2.1.y - κ ∧
        (x0 ideal).1.z + (x1 ideal).1.z + (x2 ideal).1.z = r0.1.z + r1.1.z + r2.1.z) →
      ∃ out g, ContG out ∧ (∀ᶠ A : Setting in slips, @faceValue ℝ A (polyAt A tetra p) (A.place lineStation) (A.weigh ρ) (A.scale Gc) true 3 (faceAt A tetra 3 f) = .ok (out A)) ∧
        faceValue p lineStation ρ Gc true 3 f = .ok g ∧ (out ideal).2.r0.x ≤ g.2.r0.x - 1000000000 * Gc * ρ / 24 := by
    intro x0 x1 x2 r0 r1 r2 c0 c1 c2 v0 v1 v2 q0 q1 q2 ⟨κ, hκ, hy, hz'⟩
    obtain ⟨out, w, o1, o2, o3, o4⟩ := face_along slips_le tetra_isHull hp hf line_tensorRegular.regular ρ Gc hE c0 c1 c2 v0 v1 v2
    refine ⟨out, faceField f.un (f.height lineStation) w.1 w.2 ((r0.1.add r1.1).add r2.1) (((r0.2.getD M3.zeros).add (r1.2.getD M3.zeros)).add (r2.2.getD M3.zeros))
      ρ Gc true, o1, o3, ?_, ?_⟩
    · simp only [faceValue, o2, hE, edgesValue, q0, q1, q2, fieldOfEdges, sumPqr, sumDpqr]
    · rw [o4, hz, field_plane, field_plane, hun]
      simp only [add_y, add_z, hy, hz']
      have h2 : 1 / 24 ≤ u * u * κ := by nlinarith
      nlinarith [mul_le_mul_of_nonneg_left h2 hK]
  rcases hor with ⟨rfl, rfl, rfl⟩ | ⟨rfl, rfl, rfl⟩ | ⟨rfl, rfl, rfl⟩
  · obtain ⟨x0, r0, κ, c0, v0, q0, hκ, d0⟩ := slip_bad3 hp (hedge 0 e0 rfl) hh0.1 hh0.2
    obtain ⟨x1, r1, c1, v1, q1, d1⟩ := good 1 e1 2 3 rfl (by omega) (by omega) (by omega) (by omega) hh1.1 hh1.2
    obtain ⟨x2, r2, c2, v2, q2, d2⟩ := good 2 e2 3 1 rfl (by omega) (by omega) (by omega) (by omega) hh2.1 hh2.2
    refine fin x0 x1 x2 r0 r1 r2 c0 c1 c2 v0 v1 v2 q0 q1 q2 ⟨κ, hκ, ?_, ?_⟩ <;> rw [d0, d1, d2] <;> simp <;> ring
  · obtain ⟨x2, r2, κ, c2, v2, q2, hκ, d2⟩ := slip_bad3 hp (hedge 2 e2 rfl) hh2.1 hh2.2
    obtain ⟨x1, r1, c1, v1, q1, d1⟩ := good 1 e1 3 1 rfl (by omega) (by omega) (by omega) (by omega) hh1.1 hh1.2
    obtain ⟨x0, r0, c0, v0, q0, d0⟩ := good 0 e0 2 3 rfl (by omega) (by omega) (by omega) (by omega) hh0.1 hh0.2
    refine fin x0 x1 x2 r0 r1 r2 c0 c1 c2 v0 v1 v2 q0 q1 q2 ⟨κ, hκ, ?_, ?_⟩ <;> rw [d0, d1, d2] <;> simp <;> ring
  · obtain ⟨x1, r1, κ, c1, v1, q1, hκ, d1⟩ := slip_bad3 hp (hedge 1 e1 rfl) hh1.1 hh1.2
    obtain ⟨x2, r2, c2, v2, q2, d2⟩ := good 2 e2 2 3 rfl (by omega) (by omega) (by omega) (by omega) hh2.1 hh2.2
    obtain ⟨x0, r0, c0, v0, q0, d0⟩ := good 0 e0 3 1 rfl (by omega) (by omega) (by omega) (by omega) hh0.1 hh0.2
    refine fin x0 x1 x2 r0 r1 r2 c0 c1 c2 v0 v1 v2 q0 q1 q2 ⟨κ, hκ, ?_, ?_⟩ <;> rw [d0, d1, d2] <;> simp <;> ring

/-- the whole body: the limit of the component `xx` of the tensor is too small -/
theorem slip_total (hp : mkPoly tetra inHull = .ok p) {ρ Gc : ℝ} (hK : 0 ≤ Gc * ρ) {G : V3 ℝ} {T : M3 ℝ}
    (hv : Call.onNew p ⟨lineStation, ρ, Gc, true⟩ = .ok (G, T)) :
    ∃ out, ContG out ∧ (∀ᶠ A : Setting in slips, @Call.onNew ℝ A (polyAt A tetra p) ⟨A.place lineStation, A.weigh ρ, A.scale Gc, true⟩ = .ok (out A)) ∧
      (out ideal).2.r0.x ≤ T.r0.x - 1000000000 * Gc * ρ / 24 := by
  have hn4 : p.faces.length = 4 := (C24_counter_clockwise tetra_isHull hp).1
  have hlist : ∀ L : List (Face ℝ), L.length = 4 → ∃ f0 f1 f2 f3, L = [f0, f1, f2, f3] := by
    intro L hL
    rcases L with _ | ⟨f0, _ | ⟨f1, _ | ⟨f2, _ | ⟨f3, _ | ⟨f4, fs⟩⟩⟩⟩⟩ <;> simp at hL
    exact ⟨_, _, _, _, rfl⟩
  obtain ⟨f0, f1, f2, f3, hF⟩ := hlist _ hn4
  have g0 : p.faces[0]? = some f0 := by rw [hF]; rfl
  have g1 : p.faces[1]? = some f1 := by rw [hF]; rfl
  have g2 : p.faces[2]? = some f2 := by rw [hF]; rfl
  have g3 : p.faces[3]? = some f3 := by rw [hF]; rfl
  obtain ⟨⟨o0, a0, b0, c0⟩, d0⟩ := slip_face0 hp g0 ρ Gc
  obtain ⟨o1, a1, b1, c1⟩ := slip_face_good hp g1 (.inl rfl) ρ Gc
  obtain ⟨o2, a2, b2, c2⟩ := slip_face_good hp g2 (.inr rfl) ρ Gc
  obtain ⟨o3, r3, a3, b3, c3, d3⟩ := slip_face3 hp g3 hK
  refine ⟨fun A => (@V3.add ℝ A (@V3.add ℝ A (@V3.add ℝ A (@V3.add ℝ A (@V3.zeros ℝ A) (o0 A).1) (o1 A).1) (o2 A).1) (o3 A).1,
      @M3.add ℝ A (@M3.add ℝ A (@M3.add ℝ A (@M3.add ℝ A (@M3.zeros ℝ A) (o0 A).2) (o1 A).2) (o2 A).2) (o3 A).2),
    ⟨contV_add (contV_add (contV_add (contV_add contV_zeros a0.1) a1.1) a2.1) a3.1,
      contM_add (contM_add (contM_add (contM_add contM_zeros a0.2) a1.2) a2.2) a3.2⟩, ?_, ?_⟩
  · filter_upwards [b0, b1, b2, b3] with A k0 k1 k2 k3
    rw [@onNew_closed ℝ A _ (wellTwinned_at A (wellTwinned_of_hull tetra_isHull hp))]
    have : (polyAt A tetra p).faces = [faceAt A tetra 0 f0, faceAt A tetra 1 f1, faceAt A tetra 2 f2, faceAt A tetra 3 f3] := by
      unfold polyAt
      simp only [hF]
      rfl
    rw [this]
    simp only [facesValue, k0, k1, k2, k3]
  · rw [onNew_closed (wellTwinned_of_hull tetra_isHull hp), hF] at hv
    rcases h0 : faceValue p lineStation ρ Gc true 0 f0 with x | r0
    · simp only [facesValue, h0] at hv; cases hv
    have := d0 r0 h0
    simp only [facesValue, h0, c1, c2, c3] at hv
    have hT := congrArg (fun x => x.2.r0.x) (Except.ok.inj hv)
    simp only [M3.add, add_x] at hT ⊢
    linarith

end

/-! ### the theorems -/

instance : NeBot slips := by unfold slips; infer_instance

/-- **C75** On the line of an edge: the tetrahedron at (2,-1,0), a station outside of the body where the exact component `xx` of the tensor is the derivative
`T.r0.x` of the field.  However accurate one asks the arithmetic to be, there is one that is that accurate, builds the polyhedron without an exception and
returns a component that is too small by `1e9 Gc ρ / 48`. -/
theorem C75_edge_line {inHull : V3 ℝ → Bool} {p : Poly ℝ} (hp : mkPoly tetra inHull = .ok p) {ρ Gc : ℝ} (hK : 0 < Gc * ρ) {G : V3 ℝ} {T : M3 ℝ}
    (hv : Call.onNew p ⟨lineStation, ρ, Gc, true⟩ = .ok (G, T)) {u : ℝ} (hu : 0 < u) :
    HasDerivAt (fun x => 1000000000 * Gc * ρ * (attraction tetra.body (lineStation.add (V3.smul x ⟨1, 0, 0⟩))).x) T.r0.x 0 ∧
    ∃ A : Arith ℝ, Accurate A u ∧ ∃ p' G' T', @mkPoly ℝ A tetra inHull = .ok p' ∧ @Call.onNew ℝ A p' ⟨lineStation, ρ, Gc, true⟩ = .ok (G', T') ∧
      T'.r0.x ≤ T.r0.x - 1000000000 * Gc * ρ / 48 := by
  refine ⟨?_, ?_⟩
  · have := (C19_newton tetra_isHull hp line_tensorRegular hv ⟨1, 0, 0⟩).1
    simpa [rdot] using this
  obtain ⟨out, h1, h2, h3⟩ := slip_total hp hK.le hv
  have hc := (h1.2.1.1.eventually (ε := 1000000000 * Gc * ρ / 48) (by nlinarith)).filter_mono slips_le
  have hacc : ∀ᶠ A : Setting in slips, Accurate A u := by
    show ∀ᶠ δ in 𝓝[>] (0 : ℝ), Accurate (slipArith δ) u
    filter_upwards [Ioc_mem_nhdsGT hu] with δ hδ
    exact (slip_accurate hδ.1).mono hδ.1 hδ.2
  obtain ⟨A, k1, k2, k3, k4, k5⟩ := ((mkPoly_at tetra_isHull hp).filter_mono slips_le |>.and (h2.and (hc.and (hacc.and slips_plain)))).exists
  rw [k5, Hull.moved_plain] at k1
  rw [k5] at k2
  refine ⟨A, k4, polyAt A tetra p, (out A).1, (out A).2, ?_, ?_, ?_⟩
  · rw [k5]; exact k1 inHull
  · rw [k5]; exact k2
  have := (abs_le.mp k3).2
  linarith

/-- C75: density 2670, `Gc = 1`: the component is too small by more than 10^10 Eötvös, with an arithmetic accurate to 1e-16. -/
example : ∃ p G T, mkPoly tetra (fun _ => true) = .ok p ∧ Call.onNew p ⟨⟨2, -1, 0⟩, 2670, 1, true⟩ = .ok (G, T) ∧ ∃ A : Arith ℝ, Accurate A (1 / 10 ^ 16) ∧
    ∃ p' G' T', @mkPoly ℝ A tetra (fun _ => true) = .ok p' ∧ @Call.onNew ℝ A p' ⟨⟨2, -1, 0⟩, 2670, 1, true⟩ = .ok (G', T') ∧ T'.r0.x ≤ T.r0.x - 10 ^ 10 := by
  obtain ⟨p, hp⟩ := hull_mkPoly_ok tetra_isHull (fun _ => true)
  obtain ⟨G, T, hv⟩ := C19_newton_returned tetra_isHull hp line_tensorRegular 2670 1
  obtain ⟨-, A, hA, p', G', T', k1, k2, k3⟩ := C75_edge_line hp (by norm_num) hv (u := 1 / 10 ^ 16) (by positivity)
  exact ⟨p, G, T, hp, hv, A, hA, p', G', T', k1, k2, by linarith⟩

/-- **C75** is false: the tensor does not converge with increasing precision at every station where the exact tensor is right. -/
theorem C75_false : ¬ ∀ (h : Hull ℝ) (inHull : V3 ℝ → Bool) (p : Poly ℝ) (s : V3 ℝ) (ρ Gc : ℝ) (G : V3 ℝ) (T : M3 ℝ), h.IsHull → h.TensorRegular s →
    mkPoly h inHull = .ok p → Call.onNew p ⟨s, ρ, Gc, true⟩ = .ok (G, T) → ∀ ε, 0 < ε → ∃ u, 0 < u ∧ ∀ A : Arith ℝ, Accurate A u →
      ∃ p' G' T', @mkPoly ℝ A h inHull = .ok p' ∧ @Call.onNew ℝ A p' ⟨s, ρ, Gc, true⟩ = .ok (G', T') ∧ |T'.r0.x - T.r0.x| ≤ ε := by
  intro hall
  obtain ⟨p, hp⟩ := hull_mkPoly_ok tetra_isHull (fun _ => true)
  obtain ⟨G, T, hv⟩ := C19_newton_returned tetra_isHull hp line_tensorRegular 1 1
  obtain ⟨u, hu, h⟩ := hall tetra (fun _ => true) p lineStation 1 1 G T tetra_isHull line_tensorRegular hp hv 1 one_pos
  obtain ⟨-, A, hA, p', G', T', k1, k2, k3⟩ := C75_edge_line hp (by norm_num) hv hu
  obtain ⟨p'', G'', T'', q1, q2, q3⟩ := h A hA
  obtain rfl := Except.ok.inj (k1.symm.trans q1)
  have e : (G', T') = (G'', T'') := Except.ok.inj (k2.symm.trans q2)
  obtain rfl := (Prod.mk.inj e).2
  have := (abs_le.mp q3).1
  linarith

/-- **C75**, what holds: at stations aside the lines of all edges the whole tensor converges to the exact one. -/
theorem C75_partial {h : Hull ℝ} {inHull : V3 ℝ → Bool} {p : Poly ℝ} {s : V3 ℝ} {ρ Gc : ℝ} {G : V3 ℝ} {T : M3 ℝ} (hh : h.IsHull) (hs : h.TensorRegular s)
    (ha : h.Aside s) (hp : mkPoly h inHull = .ok p) (hv : Call.onNew p ⟨s, ρ, Gc, true⟩ = .ok (G, T)) {ε : ℝ} (hε : 0 < ε) :
    ∃ u, 0 < u ∧ ∀ A : Arith ℝ, Accurate A u → ∃ p' G' T', @mkPoly ℝ A h inHull = .ok p' ∧ @Call.onNew ℝ A p' ⟨s, ρ, Gc, true⟩ = .ok (G', T') ∧
      (|T'.r0.x - T.r0.x| ≤ ε ∧ |T'.r0.y - T.r0.y| ≤ ε ∧ |T'.r0.z - T.r0.z| ≤ ε) ∧
      (|T'.r1.x - T.r1.x| ≤ ε ∧ |T'.r1.y - T.r1.y| ≤ ε ∧ |T'.r1.z - T.r1.z| ≤ ε) ∧
      (|T'.r2.x - T.r2.x| ≤ ε ∧ |T'.r2.y - T.r2.y| ≤ ε ∧ |T'.r2.z - T.r2.z| ≤ ε) := by
  obtain ⟨out, h1, h2, h3⟩ := onNew_cont hh hp hs.regular ha ρ Gc true
  have hr := at_real h1
  simp only [polyAt_real hh hp] at hr
  have hT : (out ideal).2 = T := congrArg Prod.snd (Except.ok.inj (hr.symm.trans hv))
  obtain ⟨u, hu, k⟩ := eventually_plain ((mkPoly_at hh hp).and (h1.and ((h3.1.eventually hε).and ((h3.2.1.eventually hε).and (h3.2.2.eventually hε)))))
  refine ⟨u, hu, fun A hA => ?_⟩
  obtain ⟨k1, k2, k3, k4, k5⟩ := k A hA
  rw [Hull.moved_plain] at k1
  beta_reduce at k3 k4 k5
  rw [hT] at k3 k4 k5
  exact ⟨polyAt (.plain A) h p, (out (.plain A)).1, (out (.plain A)).2, k1 inHull, k2, k3, k4, k5⟩

/-- C75: the tetrahedron at (2,3,5) -/
example : ∃ p G T, mkPoly tetra (fun _ => true) = .ok p ∧ Call.onNew p ⟨⟨2, 3, 5⟩, 2670, 1, true⟩ = .ok (G, T) ∧ ∀ ε, 0 < ε → ∃ u, 0 < u ∧
    ∀ A : Arith ℝ, Accurate A u → ∃ p' G' T', @mkPoly ℝ A tetra (fun _ => true) = .ok p' ∧ @Call.onNew ℝ A p' ⟨⟨2, 3, 5⟩, 2670, 1, true⟩ = .ok (G', T') ∧
      |T'.r0.x - T.r0.x| ≤ ε := by
  obtain ⟨p, hp⟩ := hull_mkPoly_ok tetra_isHull (fun _ => true)
  obtain ⟨G, T, hv⟩ := C19_newton_returned tetra_isHull hp tetra_tensorRegular_out 2670 1
  refine ⟨p, G, T, hp, hv, fun ε hε => ?_⟩
  obtain ⟨u, hu, h⟩ := C75_partial tetra_isHull tetra_tensorRegular_out tetra_aside hp hv hε
  refine ⟨u, hu, fun A hA => ?_⟩
  obtain ⟨p', G', T', k1, k2, k3, -⟩ := h A hA
  exact ⟨p', G', T', k1, k2, k3.1⟩

end
end Geec
