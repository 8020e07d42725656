import Verif.Props.Limit
/-
C98: the error of the computed field and tensor is at most proportional to the accuracy of the arithmetic.
-/
namespace Geec
open Filter Topology MeasureTheory Asymptotics
noncomputable section
variable {h : Hull ℝ} {inHull : V3 ℝ → Bool} {p : Poly ℝ} {s : V3 ℝ}

theorem NearM.mono {ε δ : ℝ} {M N : M3 ℝ} (hn : NearM ε M N) (hle : ε ≤ δ) : NearM δ M N := ⟨hn.1.mono hle, hn.2.1.mono hle, hn.2.2.mono hle⟩

/-- one constant for a number -/
theorem Cont.rate {x : Setting → ℝ} (hx : Cont x) : ∀ᶠ C in atTop, ∀ᶠ q in fine, |x q.1 - x ideal| ≤ C * q.2 := by
  obtain ⟨C, hC⟩ := hx.bound
  filter_upwards [eventually_ge_atTop C] with K hK
  filter_upwards [hC, accuracy_pos] with q hq h0
  rw [Real.norm_eq_abs, Real.norm_eq_abs, abs_of_pos h0] at hq
  exact hq.trans (mul_le_mul_of_nonneg_right hK h0.le)

theorem ContV.rate {v : Setting → V3 ℝ} (hv : ContV v) : ∀ᶠ C in atTop, ∀ᶠ q in fine, NearV (C * q.2) (v q.1) (v ideal) := by
  filter_upwards [hv.1.rate, hv.2.1.rate, hv.2.2.rate] with C h1 h2 h3
  exact h1.and (h2.and h3)

theorem ContM.rate {m : Setting → M3 ℝ} (hm : ContM m) : ∀ᶠ C in atTop, ∀ᶠ q in fine, NearM (C * q.2) (m q.1) (m ideal) := by
  filter_upwards [hm.1.rate, hm.2.1.rate, hm.2.2.rate] with C h1 h2 h3
  exact h1.and (h2.and h3)

/-- A rate that holds along every ultrafilter, with a constant that depends on the ultrafilter, holds with one constant. -/
theorem rate_of_ultra {Q : ℝ → Setting → Prop} (mono : ∀ {a b : ℝ} {A}, a ≤ b → Q a A → Q b A)
    (hU : ∀ U : Ultrafilter (Setting × ℝ), ↑U ≤ fine → ∃ C, ∀ᶠ q in (U : Filter (Setting × ℝ)), Q (C * q.2) q.1) :
    ∃ C, ∀ᶠ q in fine, Q (C * q.2) q.1 := by
  by_contra hno
  rw [not_exists] at hno
  let L : Filter (Setting × ℝ) := ⨅ n : ℕ, fine ⊓ 𝓟 {q | 0 < q.2 ∧ ¬ Q (n * q.2) q.1}
  have hL : L.NeBot := by
    have dir : Directed (· ≥ ·) fun n : ℕ => fine ⊓ 𝓟 {q : Setting × ℝ | 0 < q.2 ∧ ¬ Q (n * q.2) q.1} := by
      refine directed_of_isDirected_le fun m n hmn => ?_
      refine inf_le_inf_left _ (principal_mono.mpr fun q hq => ⟨hq.1, fun h0 => hq.2 (mono ?_ h0)⟩)
      exact mul_le_mul_of_nonneg_right (by exact_mod_cast hmn) hq.1.le
    refine iInf_neBot_of_directed' dir fun n => ?_
    rw [← frequently_mem_iff_neBot]
    exact (Frequently.and_eventually (not_eventually.mp (hno n)) accuracy_pos).mono fun q hq => ⟨hq.2, hq.1⟩
  have hle : ∀ n : ℕ, ↑(Ultrafilter.of L) ≤ fine ⊓ 𝓟 {q : Setting × ℝ | 0 < q.2 ∧ ¬ Q (n * q.2) q.1} :=
    fun n => (Ultrafilter.of_le L).trans (iInf_le _ n)
  obtain ⟨C, hC⟩ := hU (Ultrafilter.of L) ((hle 0).trans inf_le_left)
  obtain ⟨n, hn⟩ := exists_nat_ge C
  have h2 : ∀ᶠ q in (Ultrafilter.of L : Filter (Setting × ℝ)), 0 < q.2 ∧ ¬ Q (n * q.2) q.1 := (hle n).trans inf_le_right (mem_principal_self _)
  obtain ⟨q, h3, h4, h5⟩ := (hC.and h2).exists
  exact h5 (mono (mul_le_mul_of_nonneg_right hn h4.le) h3)

/-- the field and the tensor of one body in accurate arithmetic, from slightly wrong inputs -/
theorem onNew_rate (hh : h.IsHull) (hp : mkPoly h inHull = .ok p) (hs : h.Decided s) {ρ Gc : ℝ} {gr : Bool} {G : V3 ℝ} {T : M3 ℝ}
    (hv : Call.onNew p ⟨s, ρ, Gc, gr⟩ = .ok (G, T)) :
    ∃ C, ∀ᶠ q in fine, ∃ p' G' T', (∀ inHull', @mkPoly ℝ q.1 (h.moved q.1) inHull' = .ok p') ∧
      @Call.onNew ℝ q.1 p' ⟨q.1.place s, q.1.weigh ρ, q.1.scale Gc, gr⟩ = .ok (G', T') ∧ NearV (C * q.2) G' G ∧ (h.OffLines s → NearM (C * q.2) T' T) := by
  refine rate_of_ultra (Q := fun ε A => ∃ p' G' T', (∀ inHull', @mkPoly ℝ A (h.moved A) inHull' = .ok p') ∧
      @Call.onNew ℝ A p' ⟨A.place s, A.weigh ρ, A.scale Gc, gr⟩ = .ok (G', T') ∧ NearV ε G' G ∧ (h.OffLines s → NearM ε T' T)) ?_ ?_
  · rintro a b A hab ⟨p', G', T', h1, h2, h3, h4⟩
    exact ⟨p', G', T', h1, h2, h3.mono hab, fun ho => (h4 ho).mono hab⟩
  · intro U hU
    have hU' : ↑(U.map Prod.fst) ≤ precise := (Filter.map_mono hU).trans tendsto_fst
    obtain ⟨out, o1, o2, o3, o4⟩ := onNew_ultra hh hp hs hU' hv
    obtain ⟨C, h1, h2⟩ := (o1.1.rate.and o1.2.rate).exists
    refine ⟨C, ?_⟩
    have k0 : ∀ᶠ q in (U : Filter (Setting × ℝ)), ∀ inHull', @mkPoly ℝ q.1 (h.moved q.1) inHull' = .ok (polyAt q.1 h p) :=
      hU (eventually_fst.mpr (mkPoly_at hh hp))
    have k2 : ∀ᶠ q in (U : Filter (Setting × ℝ)), @Call.onNew ℝ q.1 (polyAt q.1 h p) ⟨q.1.place s, q.1.weigh ρ, q.1.scale Gc, gr⟩ = .ok (out q.1) := o2
    filter_upwards [k0, k2, hU h1, hU h2] with q a1 a2 a3 a4
    refine ⟨polyAt q.1 h p, (out q.1).1, (out q.1).2, a1, a2, ?_, fun ho => ?_⟩
    · rw [← o3]; exact a3
    · rw [← o4 ho]; exact a4

/-- one constant for everything -/
theorem one_constant {Q : ℝ → Setting → Prop} (mono : ∀ {a b : ℝ} {A}, a ≤ b → Q a A → Q b A) (hC : ∃ C, ∀ᶠ q in fine, Q (C * q.2) q.1) :
    ∃ M, 0 < M ∧ ∀ (A : Setting) u, 0 < u → u ≤ 1 / M → A.AccurateOn M u → Q (M * u) A := by
  obtain ⟨C, n, hn, hq⟩ := hC
  have hm : 0 < max C n := lt_max_of_lt_right hn
  refine ⟨max C n, hm, fun A u h0 h1 hA => ?_⟩
  refine mono (mul_le_mul_of_nonneg_right (le_max_left C n) h0.le) (hq A u h0 ?_ (hA.mono hn (le_max_right _ _) le_rfl))
  exact h1.trans (one_div_le_one_div_of_le hn (le_max_right _ _))

/-- one body, with one constant -/
theorem onNew_joint (hh : h.IsHull) (hp : mkPoly h inHull = .ok p) (hs : h.Decided s) {ρ Gc : ℝ} {gr : Bool} {G : V3 ℝ} {T : M3 ℝ}
    (hv : Call.onNew p ⟨s, ρ, Gc, gr⟩ = .ok (G, T)) :
    ∃ M, 0 < M ∧ ∀ (A : Setting) (u : ℝ), 0 < u → u ≤ 1 / M → A.AccurateOn M u → ∃ p' G' T', (∀ inHull', @mkPoly ℝ A (h.moved A) inHull' = .ok p') ∧
      @Call.onNew ℝ A p' ⟨A.place s, A.weigh ρ, A.scale Gc, gr⟩ = .ok (G', T') ∧ NearV (M * u) G' G ∧ (h.OffLines s → NearM (M * u) T' T) := by
  refine one_constant (Q := fun ε A => ∃ p' G' T', (∀ inHull', @mkPoly ℝ A (h.moved A) inHull' = .ok p') ∧
      @Call.onNew ℝ A p' ⟨A.place s, A.weigh ρ, A.scale Gc, gr⟩ = .ok (G', T') ∧ NearV ε G' G ∧ (h.OffLines s → NearM ε T' T)) ?_ (onNew_rate hh hp hs hv)
  rintro a b A hab ⟨p', G', T', h1, h2, h3, h4⟩
  exact ⟨p', G', T', h1, h2, h3.mono hab, fun ho => (h4 ho).mono hab⟩

/-- **C98** The rate: let no strict comparison be a tie at the station.  If the program returns `G` and `T` in exact arithmetic, there is a constant `M` such that
with any arithmetic that is accurate to `u ≤ 1 / M` on numbers of size `M` the program builds the polyhedron, raises nothing, and returns a vector
within `M u` of `G`; and a matrix within `M u` of `T`, if the station is on the line of no edge. -/
theorem C98_rate (hh : h.IsHull) (hp : mkPoly h inHull = .ok p) (hs : h.Decided s) {ρ Gc : ℝ} {gr : Bool} {G : V3 ℝ} {T : M3 ℝ}
    (hv : Call.onNew p ⟨s, ρ, Gc, gr⟩ = .ok (G, T)) :
    ∃ M, 0 < M ∧ ∀ (A : Arith ℝ) (u : ℝ), 0 < u → u ≤ 1 / M → AccurateOn A M u → ∃ p' G' T', @mkPoly ℝ A h inHull = .ok p' ∧
      @Call.onNew ℝ A p' ⟨s, ρ, Gc, gr⟩ = .ok (G', T') ∧ NearV (M * u) G' G ∧ (h.OffLines s → NearM (M * u) T' T) := by
  obtain ⟨M, hM, k⟩ := onNew_joint hh hp hs hv
  refine ⟨M, hM, fun A u h0 h1 hA => ?_⟩
  obtain ⟨p', G', T', k1, k2, k3⟩ := k (.plain A) u h0 h1 (plain_accurateOn h0.le hA)
  rw [Hull.moved_plain] at k1
  exact ⟨p', G', T', k1 inHull, k2, k3⟩

/-- from the accuracy to the unit roundoff -/
theorem one_roundoff {Q : ℝ → Arith ℝ → Prop} (mono : ∀ {a b : ℝ} {A}, a ≤ b → Q a A → Q b A)
    (hM : ∃ M, 0 < M ∧ ∀ (A : Arith ℝ) (u : ℝ), 0 < u → u ≤ 1 / M → AccurateOn A M u → Q (M * u) A) :
    ∃ K, 0 < K ∧ ∀ (rnd : ℝ → ℝ) (δ : ℝ), 0 < δ → δ ≤ 1 / K → (∀ a, |a| ≤ K → |rnd a - a| ≤ δ * max 1 |a|) → Q (K * δ) (roundArith rnd) := by
  obtain ⟨M, h0, hM⟩ := hM
  set v := max M 200 with hv
  have v1 : M ≤ v := le_max_left _ _
  have v2 : 200 ≤ v := le_max_right _ _
  have v0 : 0 < v := by linarith
  have hK : 0 < 3 * v ^ 3 := by positivity
  have hvK : 3 * v ^ 2 ≤ 3 * v ^ 3 := by nlinarith [sq_nonneg v]
  refine ⟨3 * v ^ 3, hK, fun rnd δ hδ hδK hr => ?_⟩
  have hA := accurateOn_floating v2 hδ.le (rnd := rnd) fun a ha => hr a (ha.trans hvK)
  have hu : 0 < 3 * v ^ 2 * δ := by positivity
  have hle : 3 * v ^ 2 * δ ≤ 1 / v := by
    rw [le_div_iff₀ v0]
    rw [le_div_iff₀ hK] at hδK
    nlinarith
  refine mono ?_ (hM _ _ hu (hle.trans (one_div_le_one_div_of_le h0 v1)) (hA.mono h0 v1 le_rfl))
  calc M * (3 * v ^ 2 * δ) ≤ v * (3 * v ^ 2 * δ) := mul_le_mul_of_nonneg_right v1 hu.le
    _ = 3 * v ^ 3 * δ := by ring

/-- **C98** In floating point: under the same hypotheses there is a constant `K` such that with numbers that are rounded, after every operation, with the unit
roundoff `δ ≤ 1 / K` (gradual underflow, no overflow for numbers of size up to `K`), the results are within `K δ` of the exact ones. -/
theorem C98_roundoff (hh : h.IsHull) (hp : mkPoly h inHull = .ok p) (hs : h.Decided s) {ρ Gc : ℝ} {gr : Bool} {G : V3 ℝ} {T : M3 ℝ}
    (hv : Call.onNew p ⟨s, ρ, Gc, gr⟩ = .ok (G, T)) :
    ∃ K, 0 < K ∧ ∀ (rnd : ℝ → ℝ) (δ : ℝ), 0 < δ → δ ≤ 1 / K → (∀ a, |a| ≤ K → |rnd a - a| ≤ δ * max 1 |a|) → ∃ p' G' T',
      @mkPoly ℝ (roundArith rnd) h inHull = .ok p' ∧ @Call.onNew ℝ (roundArith rnd) p' ⟨s, ρ, Gc, gr⟩ = .ok (G', T') ∧ NearV (K * δ) G' G ∧
      (h.OffLines s → NearM (K * δ) T' T) := by
  refine one_roundoff (Q := fun ε A => ∃ p' G' T', @mkPoly ℝ A h inHull = .ok p' ∧ @Call.onNew ℝ A p' ⟨s, ρ, Gc, gr⟩ = .ok (G', T') ∧ NearV ε G' G ∧
      (h.OffLines s → NearM ε T' T)) ?_ (C98_rate hh hp hs hv)
  rintro a b A hab ⟨p', G', T', h1, h2, h3, h4⟩
  exact ⟨p', G', T', h1, h2, h3.mono hab, fun ho => (h4 ho).mono hab⟩

/-- **C98** with C16, Newton's law: at a regular station what is computed with the unit roundoff `δ` is within `K δ` of `1e5 Gc ρ` times the attraction of
the body. -/
theorem C98_newton (hh : h.IsHull) (inHull : V3 ℝ → Bool) (hs : h.Decided s) (hr : h.Regular s) (ρ Gc : ℝ) :
    ∃ K, 0 < K ∧ ∀ (rnd : ℝ → ℝ) (δ : ℝ), 0 < δ → δ ≤ 1 / K → (∀ a, |a| ≤ K → |rnd a - a| ≤ δ * max 1 |a|) → ∃ p' G' T',
      @mkPoly ℝ (roundArith rnd) h inHull = .ok p' ∧ @Call.onNew ℝ (roundArith rnd) p' ⟨s, ρ, Gc, false⟩ = .ok (G', T') ∧
      |G'.x - 100000 * Gc * ρ * (attraction h.body s).x| ≤ K * δ ∧ |G'.y - 100000 * Gc * ρ * (attraction h.body s).y| ≤ K * δ ∧
      |G'.z - 100000 * Gc * ρ * (attraction h.body s).z| ≤ K * δ := by
  obtain ⟨p, hp⟩ := hull_mkPoly_ok hh inHull
  obtain ⟨G, T, hv⟩ := C22_total hh hp hs.ne_corner ρ Gc
  obtain ⟨K, h0, k⟩ := C98_roundoff hh hp hs hv
  refine ⟨K, h0, fun rnd δ h1 h2 h3 => ?_⟩
  obtain ⟨p', G', T', k1, k2, k3, -⟩ := k rnd δ h1 h2 h3
  refine ⟨p', G', T', k1, k2, ?_⟩
  rw [(C16_newton hh hp hr hv).1] at k3
  exact k3

/-- **C98** with C19, the derivative: at a station off the surface and off the lines of the edges, the matrix computed with the unit roundoff `δ` is within
`K δ` of the derivative of the field, in Eötvös. -/
theorem C98_newton_tensor (hh : h.IsHull) (inHull : V3 ℝ → Bool) (hs : h.Decided s) (ho : h.OffLines s) (hT : h.TensorRegular s) (ρ Gc : ℝ) :
    ∃ D : M3 ℝ, (∀ d, HasDerivAt (fun x => 1000000000 * Gc * ρ * (attraction h.body (s.add (V3.smul x d))).x) (rdot D.r0 d) 0 ∧
      HasDerivAt (fun x => 1000000000 * Gc * ρ * (attraction h.body (s.add (V3.smul x d))).y) (rdot D.r1 d) 0 ∧
      HasDerivAt (fun x => 1000000000 * Gc * ρ * (attraction h.body (s.add (V3.smul x d))).z) (rdot D.r2 d) 0) ∧
    ∃ K, 0 < K ∧ ∀ (rnd : ℝ → ℝ) (δ : ℝ), 0 < δ → δ ≤ 1 / K → (∀ a, |a| ≤ K → |rnd a - a| ≤ δ * max 1 |a|) → ∃ p' G' T',
      @mkPoly ℝ (roundArith rnd) h inHull = .ok p' ∧ @Call.onNew ℝ (roundArith rnd) p' ⟨s, ρ, Gc, true⟩ = .ok (G', T') ∧ NearM (K * δ) T' D := by
  obtain ⟨p, hp⟩ := hull_mkPoly_ok hh inHull
  obtain ⟨G, T, hv⟩ := C19_newton_returned hh hp hT ρ Gc
  obtain ⟨K, h0, k⟩ := C98_roundoff hh hp hs hv
  refine ⟨T, fun d => C19_newton hh hp hT hv d, K, h0, fun rnd δ h1 h2 h3 => ?_⟩
  obtain ⟨p', G', T', k1, k2, -, k4⟩ := k rnd δ h1 h2 h3
  exact ⟨p', G', T', k1, k2, k4 ho⟩

theorem tetra_decided : tetra.Decided ⟨2, 3, 5⟩ := by
  apply tetra_tensorRegular_out.decided tetra_isHull
  intro t ht i hi
  have h4 : i < 4 := tetra_isHull.cornerIndex t ht i hi
  have e3 : repsilon < 1 := by unfold repsilon; norm_num
  refine e3.trans_le ?_
  unfold vlen
  apply Real.le_sqrt_of_sq_le
  interval_cases i <;> simp only [rdot, sub_x, sub_y, sub_z, tetra_pt0, tetra_pt1, tetra_pt2, tetra_pt3] <;> norm_num

/-- C98: a tetrahedron of density 2670 seen from (2,3,5) -/
example : ∃ K, 0 < K ∧ ∀ (rnd : ℝ → ℝ) (δ : ℝ), 0 < δ → δ ≤ 1 / K → (∀ a, |a| ≤ K → |rnd a - a| ≤ δ * max 1 |a|) → ∃ p' G' T',
    @mkPoly ℝ (roundArith rnd) tetra (fun _ => true) = .ok p' ∧ @Call.onNew ℝ (roundArith rnd) p' ⟨⟨2, 3, 5⟩, 2670, 1, false⟩ = .ok (G', T') ∧
    |G'.x - 100000 * 1 * 2670 * (attraction tetra.body ⟨2, 3, 5⟩).x| ≤ K * δ ∧ |G'.y - 100000 * 1 * 2670 * (attraction tetra.body ⟨2, 3, 5⟩).y| ≤ K * δ ∧
    |G'.z - 100000 * 1 * 2670 * (attraction tetra.body ⟨2, 3, 5⟩).z| ≤ K * δ :=
  C98_newton tetra_isHull _ tetra_decided tetra_tensorRegular_out.regular 2670 1

/-- C98: and from (2,-1,0), on the line of an edge -/
example : ∃ K, 0 < K ∧ ∀ (rnd : ℝ → ℝ) (δ : ℝ), 0 < δ → δ ≤ 1 / K → (∀ a, |a| ≤ K → |rnd a - a| ≤ δ * max 1 |a|) → ∃ p' G' T',
    @mkPoly ℝ (roundArith rnd) tetra (fun _ => true) = .ok p' ∧ @Call.onNew ℝ (roundArith rnd) p' ⟨⟨2, -1, 0⟩, 2670, 1, false⟩ = .ok (G', T') ∧
    |G'.x - 100000 * 1 * 2670 * (attraction tetra.body ⟨2, -1, 0⟩).x| ≤ K * δ ∧ |G'.y - 100000 * 1 * 2670 * (attraction tetra.body ⟨2, -1, 0⟩).y| ≤ K * δ ∧
    |G'.z - 100000 * 1 * 2670 * (attraction tetra.body ⟨2, -1, 0⟩).z| ≤ K * δ :=
  C98_newton tetra_isHull _ line_decided line_tensorRegular.regular 2670 1

/-- C98, tensor: from (2,3,5) -/
example := C98_newton_tensor tetra_isHull (fun _ => true) tetra_decided (fun t ht i j hi hj hij => (tetra_aside t ht i j hi hj hij).1) tetra_tensorRegular_out 2670 1

/-- rounding to the nearest multiple of `2⁻⁵²` (numbers of fixed point) is such a rounding; so is the rounding to nothing -/
example (a : ℝ) : |(round (a * 2 ^ 52) : ℝ) / 2 ^ 52 - a| ≤ (1 / 2) ^ 53 * max 1 |a| := by
  have h1 := abs_sub_round (a * 2 ^ 52)
  have h2 : (round (a * 2 ^ 52) : ℝ) / 2 ^ 52 - a = -((a * 2 ^ 52 - round (a * 2 ^ 52)) / 2 ^ 52) := by
    field_simp
    ring
  rw [h2, abs_neg, abs_div, abs_of_pos (by positivity : (0 : ℝ) < 2 ^ 52), div_le_iff₀ (by positivity)]
  have h3 := le_max_left 1 |a|
  calc _ ≤ (1 : ℝ) / 2 := h1
    _ = (1 / 2) ^ 53 * 1 * 2 ^ 52 := by norm_num
    _ ≤ _ := by gcongr

end
end Geec
