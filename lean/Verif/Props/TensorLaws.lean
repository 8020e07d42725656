import Verif.Props.TensorNewton
import Verif.Props.Station
/-
Laws of the returned tensor: C58-C63.
-/
namespace Geec
open Arith MeasureTheory
noncomputable section
variable {h : Hull ℝ} {inHull : V3 ℝ → Bool} {p : Poly ℝ}

/-- the component of the attraction along `e` -/
theorem attraction_dot (hh : h.IsHull) (s e : V3 ℝ) : rdot (attraction h.body s) e = ∫ q in h.body, kernelAt s e q := by
  obtain ⟨p, hp⟩ := hull_mkPoly_ok hh (fun _ => true)
  have ix := (newton_faces (hull_surface hh hp) s ⟨1, 0, 0⟩).1
  have iy := (newton_faces (hull_surface hh hp) s ⟨0, 1, 0⟩).1
  have iz := (newton_faces (hull_surface hh hp) s ⟨0, 0, 1⟩).1
  have e1 : ∀ q, kernelAt s e q = (e.x * kernelAt s ⟨1, 0, 0⟩ q + e.y * kernelAt s ⟨0, 1, 0⟩ q) + e.z * kernelAt s ⟨0, 0, 1⟩ q := by
    intro q; unfold kernelAt; simp only [rdot]; ring
  have hxy : IntegrableOn (fun q => e.x * kernelAt s ⟨1, 0, 0⟩ q + e.y * kernelAt s ⟨0, 1, 0⟩ q) h.body := (ix.const_mul _).add (iy.const_mul _)
  simp only [e1]
  rw [integral_add hxy (iz.const_mul _), integral_add (ix.const_mul _) (iy.const_mul _), integral_const_mul, integral_const_mul, integral_const_mul,
    kernelAt_x, kernelAt_y, kernelAt_z]
  unfold rdot attraction
  ring

/-- the tensor as a bilinear form -/
theorem tensor_direction (hh : h.IsHull) (hp : mkPoly h inHull = .ok p) {s : V3 ℝ} (hs : h.TensorRegular s) {ρ Gc : ℝ}
    {G : V3 ℝ} {T : M3 ℝ} (hv : Call.onNew p ⟨s, ρ, Gc, true⟩ = .ok (G, T)) (d e : V3 ℝ) :
    HasDerivAt (fun x => 1000000000 * Gc * ρ * ∫ q in h.body, kernelAt (s.add (V3.smul x d)) e q) (rdot (T.apply d) e) 0 := by
  obtain ⟨hx, hy, hz⟩ := C19_newton hh hp hs hv d
  simp only [← attraction_dot hh]
  refine ((((hx.mul_const e.x).add (hy.mul_const e.y)).add (hz.mul_const e.z)).congr_deriv rfl).congr_of_eventuallyEq ?_
  refine Filter.Eventually.of_forall fun x => ?_
  simp only [Pi.add_apply, rdot]
  ring

theorem M3.ext_apply {A B : M3 ℝ} (h : ∀ d e, rdot (A.apply d) e = rdot (B.apply d) e) : A = B := by
  have k := fun d e => h d e
  refine M3.ext' (V3.ext' ?_ ?_ ?_) (V3.ext' ?_ ?_ ?_) (V3.ext' ?_ ?_ ?_)
  · simpa [M3.apply, rdot] using k ⟨1, 0, 0⟩ ⟨1, 0, 0⟩
  · simpa [M3.apply, rdot] using k ⟨0, 1, 0⟩ ⟨1, 0, 0⟩
  · simpa [M3.apply, rdot] using k ⟨0, 0, 1⟩ ⟨1, 0, 0⟩
  · simpa [M3.apply, rdot] using k ⟨1, 0, 0⟩ ⟨0, 1, 0⟩
  · simpa [M3.apply, rdot] using k ⟨0, 1, 0⟩ ⟨0, 1, 0⟩
  · simpa [M3.apply, rdot] using k ⟨0, 0, 1⟩ ⟨0, 1, 0⟩
  · simpa [M3.apply, rdot] using k ⟨1, 0, 0⟩ ⟨0, 0, 1⟩
  · simpa [M3.apply, rdot] using k ⟨0, 1, 0⟩ ⟨0, 0, 1⟩
  · simpa [M3.apply, rdot] using k ⟨0, 0, 1⟩ ⟨0, 0, 1⟩

theorem V3.ext_rdot {a b : V3 ℝ} (h : ∀ e, rdot a e = rdot b e) : a = b := by
  refine V3.ext' ?_ ?_ ?_
  · simpa [rdot] using h ⟨1, 0, 0⟩
  · simpa [rdot] using h ⟨0, 1, 0⟩
  · simpa [rdot] using h ⟨0, 0, 1⟩

/-! ### C58 -/

/-- **C58** The tensor depends only on the body: two hulls with the same body (points in another order, points that are not
corners, faces cut into triangles in another way) give the same tensor. -/
theorem C58_tensor_triangulation {h h' : Hull ℝ} (hh : h.IsHull) (hh' : h'.IsHull) {inHull inHull' : V3 ℝ → Bool} {p p' : Poly ℝ}
    (hp : mkPoly h inHull = .ok p) (hp' : mkPoly h' inHull' = .ok p') (hbody : h'.body = h.body) {s : V3 ℝ} (hs : h.TensorRegular s)
    (hs' : h'.TensorRegular s) {ρ Gc : ℝ} {G G' : V3 ℝ} {T T' : M3 ℝ} (hv : Call.onNew p ⟨s, ρ, Gc, true⟩ = .ok (G, T))
    (hv' : Call.onNew p' ⟨s, ρ, Gc, true⟩ = .ok (G', T')) : T' = T := by
  apply M3.ext_apply
  intro d e
  have h1 := tensor_direction hh hp hs hv d e
  have h2 := tensor_direction hh' hp' hs' hv' d e
  rw [hbody] at h2
  exact h2.unique h1

/-! ### C59, C60 -/

/-- **Similar bodies** have similar tensors. -/
theorem similar_tensors {h h' : Hull ℝ} (hh : h.IsHull) (hh' : h'.IsHull) {inHull inHull' : V3 ℝ → Bool} {p p' : Poly ℝ}
    (hp : mkPoly h inHull = .ok p) (hp' : mkPoly h' inHull' = .ok p') {k : ℝ} (hk : 0 < k) {R : M3 ℝ} (hR : IsOrthogonal R) (t : V3 ℝ)
    (hbody : h'.body = similarMap k R t '' h.body) {s : V3 ℝ} (hs : h.TensorRegular s) (hs' : h'.TensorRegular (similar k R t s)) {ρ Gc : ℝ}
    {G G' : V3 ℝ} {T T' : M3 ℝ} (hv : Call.onNew p ⟨s, ρ, Gc, true⟩ = .ok (G, T))
    (hv' : Call.onNew p' ⟨similar k R t s, ρ, Gc, true⟩ = .ok (G', T')) (d : V3 ℝ) : T'.apply (R.apply d) = R.apply (T.apply d) := by
  apply V3.ext_rdot
  intro e
  have h1 := (tensor_direction hh hp hs hv d (((V3.smul e.x R.r0).add (V3.smul e.y R.r1)).add (V3.smul e.z R.r2))).const_mul k
  have h2 := tensor_direction hh' hp' hs' hv' (V3.smul k (R.apply d)) e
  have hpath : ∀ x, (similar k R t s).add (V3.smul x (V3.smul k (R.apply d))) = similar k R t (s.add (V3.smul x d)) := by
    intro x; refine V3.ext' ?_ ?_ ?_ <;> simp [similar, M3.apply, rdot] <;> ring
  have hfun : ∀ x, 1000000000 * Gc * ρ * (∫ q in h'.body, kernelAt ((similar k R t s).add (V3.smul x (V3.smul k (R.apply d)))) e q) =
      k * (1000000000 * Gc * ρ * ∫ q in h.body, kernelAt (s.add (V3.smul x d)) (((V3.smul e.x R.r0).add (V3.smul e.y R.r1)).add (V3.smul e.z R.r2)) q) := by
    intro x
    rw [hpath, hbody, integral_similar hk hR t h.body_compact.isClosed.measurableSet]
    simp only [kernelAt_similar hk hR]
    rw [integral_const_mul]
    have := hk.ne'
    field_simp
  rw [funext hfun] at h2
  have := h2.unique h1
  simp only [M3.apply, rdot, add_x, add_y, add_z, smul_x, smul_y, smul_z] at this ⊢
  apply mul_left_cancel₀ hk.ne'
  linear_combination this

theorem body_of_similar {h h' : Hull ℝ} {k : ℝ} {R : M3 ℝ} {t : V3 ℝ}
    (hpts : ∀ a, a ∈ h'.points ↔ ∃ b ∈ h.points, a = similar k R t b) : h'.body = similarMap k R t '' h.body := by
  have e : (fun q => similarLin k R q + t.toP) = similarMap k R t := funext fun q => (similarMap_eq k R t q).symm
  let A : P3 →ᵃ[ℝ] P3 := ((similarLin k R : P3 →L[ℝ] P3) : P3 →ₗ[ℝ] P3).toAffineMap + AffineMap.const ℝ P3 t.toP
  have hA : ∀ q, A q = similarMap k R t q := by intro q; rw [similarMap_eq]; rfl
  have hA' : similarMap k R t = A := funext fun q => (hA q).symm
  unfold Hull.body
  rw [hA', AffineMap.image_convexHull]
  congr 1
  ext q
  constructor
  · rintro ⟨a, ha, rfl⟩
    obtain ⟨b, hb, rfl⟩ := (hpts a).mp ha
    exact ⟨b.toP, ⟨b, hb, rfl⟩, by rw [hA]; unfold similarMap; rw [toP_toV]⟩
  · rintro ⟨_, ⟨b, hb, rfl⟩, rfl⟩
    exact ⟨similar k R t b, (hpts _).mpr ⟨b, hb, rfl⟩, by rw [hA]; unfold similarMap; rw [toP_toV]⟩

/-- **C59** Scaling body and station by `k` leaves the tensor unchanged. -/
theorem C59_tensor_scaling {h h' : Hull ℝ} (hh : h.IsHull) (hh' : h'.IsHull) {inHull inHull' : V3 ℝ → Bool} {p p' : Poly ℝ}
    (hp : mkPoly h inHull = .ok p) (hp' : mkPoly h' inHull' = .ok p') {k : ℝ} (hk : 0 < k)
    (hpts : h'.points = h.points.map (V3.smul k)) {s : V3 ℝ} (hs : h.TensorRegular s) (hs' : h'.TensorRegular (V3.smul k s)) {ρ Gc : ℝ}
    {G G' : V3 ℝ} {T T' : M3 ℝ} (hv : Call.onNew p ⟨s, ρ, Gc, true⟩ = .ok (G, T))
    (hv' : Call.onNew p' ⟨V3.smul k s, ρ, Gc, true⟩ = .ok (G', T')) : T' = T := by
  have hap : ∀ a, similar k unitM3 V3.zeros a = V3.smul k a := by
    intro a; unfold similar; rw [unitM3_apply]; refine V3.ext' ?_ ?_ ?_ <;> simp
  have hbody := body_of_similar (h := h) (h' := h') (k := k) (R := unitM3) (t := V3.zeros) (by
    intro a
    rw [hpts, List.mem_map]
    constructor
    · rintro ⟨b, hb, rfl⟩; exact ⟨b, hb, (hap b).symm⟩
    · rintro ⟨b, hb, rfl⟩; exact ⟨b, hb, (hap b).symm⟩)
  apply M3.ext_apply
  intro d e
  have := similar_tensors hh hh' hp hp' hk unitM3_orthogonal V3.zeros hbody hs (by rw [hap]; exact hs') hv (by rw [hap]; exact hv') d
  rw [unitM3_apply, unitM3_apply] at this
  rw [this]

/-- **C60** Moving, turning and mirroring body and station transforms the tensor as `R T Rᵀ`, that is `T' (R d) = R (T d)` for
every direction `d`. -/
theorem C60_tensor_congruent {h h' : Hull ℝ} (hh : h.IsHull) (hh' : h'.IsHull) {inHull inHull' : V3 ℝ → Bool} {p p' : Poly ℝ}
    (hp : mkPoly h inHull = .ok p) (hp' : mkPoly h' inHull' = .ok p') {R : M3 ℝ} (hR : IsOrthogonal R) (t : V3 ℝ)
    (hpts : ∀ a, a ∈ h'.points ↔ ∃ b ∈ h.points, a = (R.apply b).add t) {s : V3 ℝ} (hs : h.TensorRegular s)
    (hs' : h'.TensorRegular ((R.apply s).add t)) {ρ Gc : ℝ} {G G' : V3 ℝ} {T T' : M3 ℝ}
    (hv : Call.onNew p ⟨s, ρ, Gc, true⟩ = .ok (G, T)) (hv' : Call.onNew p' ⟨(R.apply s).add t, ρ, Gc, true⟩ = .ok (G', T')) (d : V3 ℝ) :
    T'.apply (R.apply d) = R.apply (T.apply d) := by
  have hap : ∀ a, similar 1 R t a = (R.apply a).add t := by
    intro a; unfold similar; congr 1; refine V3.ext' ?_ ?_ ?_ <;> simp
  have hbody := body_of_similar (h := h) (h' := h') (k := 1) (R := R) (t := t) (by simpa only [hap] using hpts)
  exact similar_tensors hh hh' hp hp' one_pos hR t hbody hs (by rw [hap]; exact hs') hv (by rw [hap]; exact hv') d

/-! ### C61 -/

theorem accumulate_T (rs : List (V3 ℝ × M3 ℝ)) : ∀ (s : Station ℝ) (d e : V3 ℝ),
    rdot ((accumulate s rs).T.apply d) e = rdot (s.T.apply d) e + (rs.map (fun r => rdot (r.2.apply d) e)).sum := by
  induction rs with
  | nil => intro s d e; simp [accumulate]
  | cons r rs ih =>
    intro s d e
    obtain ⟨G, T⟩ := r
    simp only [accumulate, ih, List.map_cons, List.sum_cons]
    simp only [M3.apply, M3.add, rdot, add_x, add_y, add_z]
    ring

/-- **C61** If the bodies of a list tile a body, `compute_gravity` with gradient on the list adds to the station the tensor of
the whole. -/
theorem C61_tensor_tiling (H : Nat → Hull ℝ) {w : World ℝ} (hw : w.Ready) {inHull : Nat → V3 ℝ → Bool} (ids : List Nat)
    (hH : ∀ k ∈ ids, (H k).IsHull) (hp : ∀ k ∈ ids, mkPoly (H k) (inHull k) = .ok (w.poly k))
    (hdis : ids.Pairwise fun i j => Disjoint (interior (H i).body) (interior (H j).body))
    {h : Hull ℝ} (hh : h.IsHull) {inHull' : V3 ℝ → Bool} {p : Poly ℝ} (hp' : mkPoly h inHull' = .ok p)
    (htile : h.body = {q | ∃ k ∈ ids, q ∈ (H k).body}) {s : Station ℝ} (hr : ∀ k ∈ ids, (H k).TensorRegular s.coord) (hr' : h.TensorRegular s.coord)
    {ρ Gc : ℝ} {rs : List (V3 ℝ × M3 ℝ)}
    (hrs : ids.map (fun k => (Call.mk s.coord ρ Gc true).onNew (w.poly k)) = rs.map .ok)
    {G : V3 ℝ} {T : M3 ℝ} (hv : Call.onNew p ⟨s.coord, ρ, Gc, true⟩ = .ok (G, T)) :
    ∃ s' w', computeGravity (.list (ids.map .poly)) ρ Gc true s w = (.ok (), s', w') ∧ s'.T = s.T.add T := by
  obtain ⟨w', h1, -, -⟩ := C06_station_accumulates ρ Gc true ids s w hw rs hrs
  refine ⟨_, w', h1, ?_⟩
  apply M3.ext_apply
  intro d e
  rw [accumulate_T]
  have e1 : rdot ((s.T.add T).apply d) e = rdot (s.T.apply d) e + rdot (T.apply d) e := by
    simp only [M3.apply, M3.add, rdot, add_x, add_y, add_z]; ring
  rw [e1]
  congr 1
  have hT := tensor_direction hh hp' hr' hv d e
  have hi : ∀ x, ∀ k ∈ ids, IntegrableOn (kernelAt (s.coord.add (V3.smul x d)) e) (H k).body :=
    fun x k hk => (newton_faces (hull_surface (hH k hk) (hp k hk)) _ e).1
  have hsum : ∀ x, (∫ q in h.body, kernelAt (s.coord.add (V3.smul x d)) e q) = (ids.map fun k => ∫ q in (H k).body, kernelAt (s.coord.add (V3.smul x d)) e q).sum := by
    intro x; rw [htile, (tiles_integral H ids (hi x) hdis).2.2]
  simp only [hsum] at hT
  refine HasDerivAt.unique ?_ hT
  clear h1 htile hdis hT hi hsum
  induction ids generalizing rs with
  | nil =>
    rcases rs with _ | ⟨r, rs⟩
    · simp only [List.map_nil, List.sum_nil, mul_zero]; exact hasDerivAt_const 0 0
    · simp at hrs
  | cons k ids ih =>
    rcases rs with _ | ⟨r, rs⟩
    · simp at hrs
    · simp only [List.map_cons, List.cons.injEq] at hrs
      have h1 := ih (fun j hj => hH j (.tail _ hj)) (fun j hj => hp j (.tail _ hj)) (fun j hj => hr j (.tail _ hj)) hrs.2
      have h2 := tensor_direction (hH k (.head _)) (hp k (.head _)) (hr k (.head _)) hrs.1 d e
      simp only [List.map_cons, List.sum_cons, mul_add]
      exact h2.add h1

/-! ### C62, C63 -/

/-- the second derivatives of the potential of a body of density 1: the integrals of `(3 rᵢ rⱼ - δᵢⱼ r²) / r⁵` over the body, where
`r` is the vector from the station to the point of the body -/
def tidal (B : Set P3) (s : V3 ℝ) : M3 ℝ :=
  ⟨⟨∫ q in B, (3 * (q.1 - s.x) ^ 2 - dist3 q s ^ 2) / dist3 q s ^ 5, ∫ q in B, 3 * (q.1 - s.x) * (q.2.1 - s.y) / dist3 q s ^ 5,
      ∫ q in B, 3 * (q.1 - s.x) * (q.2.2 - s.z) / dist3 q s ^ 5⟩,
    ⟨∫ q in B, 3 * (q.2.1 - s.y) * (q.1 - s.x) / dist3 q s ^ 5, ∫ q in B, (3 * (q.2.1 - s.y) ^ 2 - dist3 q s ^ 2) / dist3 q s ^ 5,
      ∫ q in B, 3 * (q.2.1 - s.y) * (q.2.2 - s.z) / dist3 q s ^ 5⟩,
    ⟨∫ q in B, 3 * (q.2.2 - s.z) * (q.1 - s.x) / dist3 q s ^ 5, ∫ q in B, 3 * (q.2.2 - s.z) * (q.2.1 - s.y) / dist3 q s ^ 5,
      ∫ q in B, (3 * (q.2.2 - s.z) ^ 2 - dist3 q s ^ 2) / dist3 q s ^ 5⟩⟩

theorem continuousOn_pull2 {B : Set P3} {s : V3 ℝ} (hs : s.toP ∉ B) (e d : V3 ℝ) :
    ContinuousOn (fun q : P3 => pull2 ((P3.toV q).sub s) e d) B := by
  have cd : ∀ e : V3 ℝ, Continuous (fun q : P3 => rdot ((P3.toV q).sub s) e) := by
    intro e; simp only [rdot, sub_x, sub_y, sub_z, P3.toV]; fun_prop
  have hn : ∀ q ∈ B, vlen ((P3.toV q).sub s) ≠ 0 := by
    intro q hq
    refine (vlen_pos ?_).ne'
    intro h0
    apply hs
    have : P3.toV q = s := by
      have hx := congrArg V3.x h0
      have hy := congrArg V3.y h0
      have hz := congrArg V3.z h0
      simp only [sub_x, sub_y, sub_z, zeros_x, zeros_y, zeros_z] at hx hy hz
      exact V3.ext' (by linarith) (by linarith) (by linarith)
    rw [← this, toV_toP]; exact hq
  unfold pull2
  exact ((continuous_const.mul ((cd e).mul (cd d))).continuousOn.div ((continuous_dist s).pow 5).continuousOn (fun q hq => pow_ne_zero 5 (hn q hq))).sub
    (continuousOn_const.div ((continuous_dist s).pow 3).continuousOn (fun q hq => pow_ne_zero 3 (hn q hq)))

/-- differentiation under the integral sign, the station staying outside the body -/
theorem outside_deriv {B : Set P3} (hB : IsCompact B) {s : V3 ℝ} (hs : s.toP ∉ B) (e d : V3 ℝ) :
    HasDerivAt (fun x => ∫ q in B, kernelAt (s.add (V3.smul x d)) e q) (∫ q in B, pull2 ((P3.toV q).sub s) e d) 0 := by
  have hm : MeasurableSet B := hB.isClosed.measurableSet
  have hc : Continuous (fun x : ℝ => (s.add (V3.smul x d)).toP) := by
    simp only [V3.toP, add_x, add_y, add_z, smul_x, smul_y, smul_z]; fun_prop
  have h00 : s.add (V3.smul 0 d) = s := by refine V3.ext' ?_ ?_ ?_ <;> simp
  have hopen : ∀ᶠ x in nhds (0 : ℝ), (s.add (V3.smul x d)).toP ∈ Bᶜ :=
    (hc.tendsto 0).eventually (hB.isClosed.isOpen_compl.mem_nhds (by rw [h00]; exact hs))
  obtain ⟨δ', hδ', hb⟩ := Metric.eventually_nhds_iff.mp hopen
  let δ := δ' / 2
  have hδ : 0 < δ := by positivity
  have hout : ∀ x ∈ Set.Icc (-δ) δ, (s.add (V3.smul x d)).toP ∉ B := by
    intro x hx
    apply hb
    rw [Real.dist_eq, sub_zero]
    exact lt_of_le_of_lt (abs_le.mpr hx) (by show δ' / 2 < δ'; linarith)
  have hmove : ∀ (x : ℝ) (q : P3), (P3.toV q).sub (s.add (V3.smul x d)) = ((P3.toV q).sub s).sub (V3.smul x d) := by
    intro x q; refine V3.ext' ?_ ?_ ?_ <;> simp <;> ring
  have hpt : ∀ x ∈ Set.Icc (-δ) δ, ∀ q ∈ B, ((P3.toV q).sub s).sub (V3.smul x d) ≠ V3.zeros := by
    intro x hx q hq h0
    apply hout x hx
    have : P3.toV q = s.add (V3.smul x d) := by
      rw [← hmove] at h0
      have hx := congrArg V3.x h0
      have hy := congrArg V3.y h0
      have hz := congrArg V3.z h0
      simp only [sub_x, sub_y, sub_z, zeros_x, zeros_y, zeros_z] at hx hy hz
      exact V3.ext' (by linarith) (by linarith) (by linarith)
    rw [← this, toV_toP]; exact hq
  let F : ℝ → P3 → ℝ := fun x q => rdot (((P3.toV q).sub s).sub (V3.smul x d)) e / vlen (((P3.toV q).sub s).sub (V3.smul x d)) ^ 3
  let F' : ℝ → P3 → ℝ := fun x q => pull2 (((P3.toV q).sub s).sub (V3.smul x d)) e d
  have hmem : Set.Icc (-δ) δ ∈ nhds (0 : ℝ) := Icc_mem_nhds (by linarith) hδ
  have cl : Continuous (fun w : ℝ × P3 => vlen (((P3.toV w.2).sub s).sub (V3.smul w.1 d))) := by
    apply continuous_vlen <;> simp only [P3.toV, sub_x, sub_y, sub_z, smul_x, smul_y, smul_z] <;> fun_prop
  have cd : ∀ e : V3 ℝ, Continuous (fun w : ℝ × P3 => rdot (((P3.toV w.2).sub s).sub (V3.smul w.1 d)) e) := by
    intro e; simp only [rdot, P3.toV, sub_x, sub_y, sub_z, smul_x, smul_y, smul_z]; fun_prop
  have hn : ∀ w ∈ Set.Icc (-δ) δ ×ˢ B, vlen (((P3.toV w.2).sub s).sub (V3.smul w.1 d)) ≠ 0 :=
    fun w hw => (vlen_pos (hpt w.1 hw.1 w.2 hw.2)).ne'
  have hF : ContinuousOn (fun w : ℝ × P3 => F w.1 w.2) (Set.Icc (-δ) δ ×ˢ B) :=
    (cd e).continuousOn.div (cl.pow 3).continuousOn (fun w hw => pow_ne_zero 3 (hn w hw))
  have hF' : ContinuousOn (fun w : ℝ × P3 => F' w.1 w.2) (Set.Icc (-δ) δ ×ˢ B) := by
    simp only [F', pull2]
    exact ((continuous_const.mul ((cd e).mul (cd d))).continuousOn.div (cl.pow 5).continuousOn (fun w hw => pow_ne_zero 5 (hn w hw))).sub
        (continuousOn_const.div (cl.pow 3).continuousOn (fun w hw => pow_ne_zero 3 (hn w hw)))
  have slice : ∀ {f : ℝ → P3 → ℝ}, ContinuousOn (fun w : ℝ × P3 => f w.1 w.2) (Set.Icc (-δ) δ ×ˢ B) → ∀ x ∈ Set.Icc (-δ) δ, ContinuousOn (f x) B := by
    intro f hf x hx
    exact hf.comp (f := fun q => (x, q)) (by fun_prop) (fun q hq => ⟨hx, hq⟩)
  obtain ⟨C, hC⟩ := (isCompact_Icc.prod hB).exists_bound_of_continuousOn hF'
  have h0 : (0 : ℝ) ∈ Set.Icc (-δ) δ := ⟨by linarith, hδ.le⟩
  have key := hasDerivAt_integral_of_dominated_loc_of_deriv_le (μ := volume.restrict B) (F := F) (F' := F') (x₀ := (0 : ℝ)) (bound := fun _ => C) hmem
    (Filter.eventually_of_mem hmem (fun x hx => (slice hF x hx).aestronglyMeasurable hm))
    ((slice hF 0 h0).integrableOn_compact hB) ((slice hF' 0 h0).aestronglyMeasurable hm)
    ((ae_restrict_iff' hm).mpr (Filter.Eventually.of_forall fun q hq x hx => hC (x, q) ⟨hx, hq⟩))
    (integrableOn_const hB.measure_ne_top)
    ((ae_restrict_iff' hm).mpr (Filter.Eventually.of_forall fun q hq x hx => pull_path e (hpt x hx q hq)))
  have k2 := key.2
  have e0 : ∀ q : P3, F' 0 q = pull2 ((P3.toV q).sub s) e d := by
    intro q
    have : ((P3.toV q).sub s).sub (V3.smul 0 d) = (P3.toV q).sub s := by refine V3.ext' ?_ ?_ ?_ <;> simp
    simp only [F', this]
  simp only [e0] at k2
  refine k2.congr_of_eventuallyEq (Filter.Eventually.of_forall fun x => ?_)
  simp only [F, kernelAt, hmove]

/-- the tensor as a bilinear form, outside the body -/
theorem tensor_outside (hh : h.IsHull) (hp : mkPoly h inHull = .ok p) {s : V3 ℝ} (hs : h.TensorRegular s) (hout : s.toP ∉ h.body) {ρ Gc : ℝ}
    {G : V3 ℝ} {T : M3 ℝ} (hv : Call.onNew p ⟨s, ρ, Gc, true⟩ = .ok (G, T)) (d e : V3 ℝ) :
    rdot (T.apply d) e = 1000000000 * Gc * ρ * ∫ q in h.body, pull2 ((P3.toV q).sub s) e d :=
  (tensor_direction hh hp hs hv d e).unique ((outside_deriv h.body_compact hout e d).const_mul _)

theorem vlen_dist3 (q : P3) (s : V3 ℝ) : vlen ((P3.toV q).sub s) = dist3 q s := by
  unfold dist3 vlen
  simp only [rdot, P3.toV, sub_x, sub_y, sub_z, ← pow_two]

theorem dist3_ne {B : Set P3} {s : V3 ℝ} (hs : s.toP ∉ B) {q : P3} (hq : q ∈ B) : dist3 q s ≠ 0 := by
  rw [← vlen_dist3]
  refine (vlen_pos ?_).ne'
  intro h0
  apply hs
  have : P3.toV q = s := by
    have hx := congrArg V3.x h0
    have hy := congrArg V3.y h0
    have hz := congrArg V3.z h0
    simp only [sub_x, sub_y, sub_z, zeros_x, zeros_y, zeros_z] at hx hy hz
    exact V3.ext' (by linarith) (by linarith) (by linarith)
  rw [← this, toV_toP]; exact hq

/-- **C62** Outside the body the returned tensor is `10⁹ Gc ρ` times the integral of `(3 rᵢ rⱼ - δᵢⱼ r²) / r⁵` over the body. -/
theorem C62_tidal_integrals (hh : h.IsHull) (hp : mkPoly h inHull = .ok p) {s : V3 ℝ} (hs : h.TensorRegular s) (hout : s.toP ∉ h.body) {ρ Gc : ℝ}
    {G : V3 ℝ} {T : M3 ℝ} (hv : Call.onNew p ⟨s, ρ, Gc, true⟩ = .ok (G, T)) :
    T.r0 = V3.smul (1000000000 * Gc * ρ) (tidal h.body s).r0 ∧ T.r1 = V3.smul (1000000000 * Gc * ρ) (tidal h.body s).r1 ∧
    T.r2 = V3.smul (1000000000 * Gc * ρ) (tidal h.body s).r2 := by
  have k := fun d e => tensor_outside hh hp hs hout hv d e
  have hm : MeasurableSet h.body := h.body_compact.isClosed.measurableSet
  have diag : ∀ (a : P3 → ℝ), (∫ q in h.body, (3 * (a q * a q) / dist3 q s ^ 5 - 1 / dist3 q s ^ 3)) = ∫ q in h.body, (3 * a q ^ 2 - dist3 q s ^ 2) / dist3 q s ^ 5 := by
    intro a
    refine setIntegral_congr_fun hm fun q hq => ?_
    have := dist3_ne hout hq
    field_simp
  have offd : ∀ (a b : P3 → ℝ), (∫ q in h.body, (3 * (a q * b q) / dist3 q s ^ 5 - 0 / dist3 q s ^ 3)) = ∫ q in h.body, 3 * a q * b q / dist3 q s ^ 5 := by
    intro a b
    refine setIntegral_congr_fun hm fun q hq => ?_
    show _ = _
    ring
  have k00 := k ⟨1, 0, 0⟩ ⟨1, 0, 0⟩
  have k01 := k ⟨0, 1, 0⟩ ⟨1, 0, 0⟩
  have k02 := k ⟨0, 0, 1⟩ ⟨1, 0, 0⟩
  have k10 := k ⟨1, 0, 0⟩ ⟨0, 1, 0⟩
  have k11 := k ⟨0, 1, 0⟩ ⟨0, 1, 0⟩
  have k12 := k ⟨0, 0, 1⟩ ⟨0, 1, 0⟩
  have k20 := k ⟨1, 0, 0⟩ ⟨0, 0, 1⟩
  have k21 := k ⟨0, 1, 0⟩ ⟨0, 0, 1⟩
  have k22 := k ⟨0, 0, 1⟩ ⟨0, 0, 1⟩
  simp only [pull2, vlen_dist3] at k00 k01 k02 k10 k11 k12 k20 k21 k22
  simp only [M3.apply, rdot, sub_x, sub_y, sub_z, P3.toV, mul_one, mul_zero, add_zero, zero_add, diag, offd] at k00 k01 k02 k10 k11 k12 k20 k21 k22
  refine ⟨V3.ext' ?_ ?_ ?_, V3.ext' ?_ ?_ ?_, V3.ext' ?_ ?_ ?_⟩ <;>
    simp only [smul_x, smul_y, smul_z, tidal]
  · exact k00
  · exact k01
  · exact k02
  · exact k10
  · exact k11
  · exact k12
  · exact k20
  · exact k21
  · exact k22

theorem pull2_bound {r : V3 ℝ} (hr : 0 < vlen r) (e d : V3 ℝ) : |pull2 r e d| ≤ 2 * (vlen d * vlen e) / vlen r ^ 3 := by
  set w : V3 ℝ := V3.sub (V3.smul (3 * rdot r d) r) (V3.smul (vlen r ^ 2) d) with hw
  have hq := vlen_sq r
  have e1 : pull2 r e d = rdot w e / vlen r ^ 5 := by
    unfold pull2
    rw [hw]
    have : rdot ((V3.smul (3 * rdot r d) r).sub (V3.smul (vlen r ^ 2) d)) e = 3 * rdot r d * rdot r e - vlen r ^ 2 * rdot d e := by
      simp only [rdot, sub_x, sub_y, sub_z, smul_x, smul_y, smul_z]; ring
    rw [this]
    field_simp
  have e2 : vlen w ≤ 2 * (vlen r ^ 2 * vlen d) := by
    have hnn : 0 ≤ 2 * (vlen r ^ 2 * vlen d) := by have := vlen_nonneg d; positivity
    refine abs_le_of_sq_le_sq' ?_ hnn |>.2
    have h1 : vlen w ^ 2 = 3 * (rdot r d) ^ 2 * rdot r r + (rdot r r) ^ 2 * rdot d d := by
      rw [pow_two, vlen_sq, hw, pow_two, hq]
      simp only [rdot, sub_x, sub_y, sub_z, smul_x, smul_y, smul_z]; ring
    have h2 : (rdot r d) ^ 2 ≤ rdot r r * rdot d d := by
      have := abs_rdot_le r d
      have h3 : |rdot r d| ^ 2 ≤ (vlen r * vlen d) ^ 2 := pow_le_pow_left₀ (abs_nonneg _) this 2
      rw [sq_abs, mul_pow, pow_two (vlen r), pow_two (vlen d), hq, vlen_sq] at h3
      exact h3
    have h4 : (2 * (vlen r ^ 2 * vlen d)) ^ 2 = 4 * (rdot r r) ^ 2 * rdot d d := by
      rw [← hq, ← vlen_sq d]; ring
    rw [h1, h4]
    have := rdot_self_nonneg r
    nlinarith [mul_le_mul_of_nonneg_left h2 this]
  rw [e1, abs_div, abs_of_pos (show 0 < vlen r ^ 5 by positivity), div_le_div_iff₀ (by positivity) (by positivity)]
  have h5 : |rdot w e| ≤ 2 * (vlen r ^ 2 * vlen d) * vlen e := (abs_rdot_le w e).trans (mul_le_mul_of_nonneg_right e2 (vlen_nonneg e))
  calc |rdot w e| * vlen r ^ 3 ≤ 2 * (vlen r ^ 2 * vlen d) * vlen e * vlen r ^ 3 := mul_le_mul_of_nonneg_right h5 (by positivity)
    _ = _ := by ring

/-- **C63** The tensor of a body at distance at least `δ` from the station is bounded by twice its mass over the cube of `δ`: for
all directions `d`, `e` of length 1, `|e · T d| ≤ 2 · 10⁹ Gc ρ V / δ³`. -/
theorem C63_tensor_bound (hh : h.IsHull) (hp : mkPoly h inHull = .ok p) {s : V3 ℝ} (hs : h.TensorRegular s) {ρ Gc : ℝ} (hρ : 0 ≤ ρ) (hG : 0 ≤ Gc)
    {G : V3 ℝ} {T : M3 ℝ} (hv : Call.onNew p ⟨s, ρ, Gc, true⟩ = .ok (G, T)) {δ : ℝ} (hδ : 0 < δ) (hdist : ∀ q ∈ h.body, δ ≤ dist3 q s) (d e : V3 ℝ) :
    |rdot (T.apply d) e| ≤ 2 * (1000000000 * Gc * ρ) * (volume h.body).toReal / δ ^ 3 * (vlen d * vlen e) := by
  have hout : s.toP ∉ h.body := by
    intro hin
    have := hdist _ hin
    rw [← vlen_dist3, toP_toV] at this
    have h0 : s.sub s = V3.zeros := by refine V3.ext' ?_ ?_ ?_ <;> simp
    rw [h0] at this
    have : vlen (V3.zeros : V3 ℝ) = 0 := by unfold vlen; simp [rdot]
    linarith
  have hm : MeasurableSet h.body := h.body_compact.isClosed.measurableSet
  have hfin : volume h.body ≠ ⊤ := h.body_compact.measure_ne_top
  have hb : ‖∫ q in h.body, pull2 ((P3.toV q).sub s) e d‖ ≤ 2 * (vlen d * vlen e) / δ ^ 3 * volume.real h.body := by
    refine norm_setIntegral_le_of_norm_le_const (lt_top_iff_ne_top.mpr hfin) fun q hq => ?_
    have h1 := hdist q hq
    rw [← vlen_dist3] at h1
    rw [Real.norm_eq_abs]
    refine (pull2_bound (by linarith) e d).trans ?_
    have := mul_nonneg (vlen_nonneg d) (vlen_nonneg e)
    gcongr
  rw [tensor_outside hh hp hs hout hv d e, abs_mul, abs_of_nonneg (by positivity : 0 ≤ 1000000000 * Gc * ρ)]
  rw [Real.norm_eq_abs] at hb
  calc 1000000000 * Gc * ρ * |∫ q in h.body, pull2 ((P3.toV q).sub s) e d|
      ≤ 1000000000 * Gc * ρ * (2 * (vlen d * vlen e) / δ ^ 3 * volume.real h.body) := by gcongr
    _ = _ := by rw [measureReal_def]; ring

/-! ### Concrete cases -/

theorem tensorRegular_bounds {h : Hull ℝ} (hh : h.IsHull) {s : V3 ℝ} (H : ∀ t ∈ h.simplices,
    rdot (cross ((h.pt t.2.1).sub (h.pt t.1)) ((h.pt t.2.2).sub (h.pt t.1))) (cross ((h.pt t.2.1).sub (h.pt t.1)) ((h.pt t.2.2).sub (h.pt t.1))) ≤ 100 ∧
      1 / 1000 ≤ |rdot (cross ((h.pt t.2.1).sub (h.pt t.1)) ((h.pt t.2.2).sub (h.pt t.1))) ((h.pt t.1).sub s)| ∧
      ∀ i j, Corner t i → Corner t j → i ≠ j → ClearOf (h.pt i) (h.pt j) s) : h.TensorRegular s := by
  refine Hull.OffPlanes.tensorRegular hh (regular_bounds fun t ht => .inr (H t ht)) ?_
  intro t ht h0
  have := (H t ht).2.1
  rw [h0, abs_zero] at this
  norm_num at this

/-- in the plane `z = 0` of a face, and on the line of an edge -/
theorem tetra_tensorRegular {s : V3 ℝ} (hz : s.z = 0) (hy : s.y = 0 ∨ 1 / 1000 ≤ |s.y|) (hx : 1 / 1000 ≤ |s.x|) (h1 : 1 / 1000 ≤ |1 - s.x - s.y - s.z|)
    (hout : 1 < s.x) (hc : ∀ a b, a < 4 → b < 4 → a ≠ b → ClearOf (tetra.pt a) (tetra.pt b) s) : tetra.TensorRegular s := by
  have hco : ∀ t ∈ tetra.simplices, ∀ i, Corner t i → i < 4 := fun t ht i hi => tetra_isHull.cornerIndex t ht i hi
  refine ⟨?_, fun t ht i j hi hj hij => hc i j (hco t ht i hi) (hco t ht j hj) hij, ?_⟩
  · apply regular_bounds
    intro t ht
    have hcl : ∀ i j, Corner t i → Corner t j → i ≠ j → ClearOf (tetra.pt i) (tetra.pt j) s := fun i j hi hj hij => hc i j (hco t ht i hi) (hco t ht j hj) hij
    simp only [tetra, List.mem_cons, List.not_mem_nil, or_false] at ht
    rcases ht with rfl | rfl | rfl | rfl
    · left; simp [tetra_pt0, tetra_pt1, tetra_pt2, tetra_pt3, rdot, hz]
    · rcases hy with hy | hy
      · left; simp [tetra_pt0, tetra_pt1, tetra_pt2, tetra_pt3, rdot, hy]
      · right
        refine ⟨?_, ?_, hcl⟩ <;> simp only [tetra_pt0, tetra_pt1, tetra_pt2, tetra_pt3, rdot, cross_x, cross_y, cross_z, sub_x, sub_y, sub_z]
        · norm_num
        · refine hy.trans (le_of_eq ?_); congr 1; ring
    · right
      refine ⟨?_, ?_, hcl⟩ <;> simp only [tetra_pt0, tetra_pt1, tetra_pt2, tetra_pt3, rdot, cross_x, cross_y, cross_z, sub_x, sub_y, sub_z]
      · norm_num
      · refine hx.trans (le_of_eq ?_); rw [← abs_neg]; congr 1; ring
    · right
      refine ⟨?_, ?_, hcl⟩ <;> simp only [tetra_pt0, tetra_pt1, tetra_pt2, tetra_pt3, rdot, cross_x, cross_y, cross_z, sub_x, sub_y, sub_z]
      · norm_num
      · refine h1.trans (le_of_eq ?_); congr 1; ring
  · intro hf
    have := tetra.body_compact.isClosed.frontier_subset hf
    rw [tetra_body] at this
    obtain ⟨a1, a2, a3, a4⟩ := this
    simp only [V3.toP] at a1 a2 a3 a4
    linarith

theorem tetra_tensorRegular_plane : tetra.TensorRegular ⟨2, 3, 0⟩ := by
  apply tetra_tensorRegular rfl (.inr (by norm_num)) (by norm_num) (by norm_num) (by norm_num)
  intro a b ha hb hne
  apply clearOf_bounds <;> interval_cases a <;> interval_cases b <;> first | exact absurd rfl hne | skip
  all_goals simp only [rdot, cross_x, cross_y, cross_z, sub_x, sub_y, sub_z, tetra_pt0, tetra_pt1, tetra_pt2, tetra_pt3]; norm_num

theorem tetra_tensorRegular_line : tetra.TensorRegular ⟨3, 0, 0⟩ := by
  apply tetra_tensorRegular rfl (.inl rfl) (by norm_num) (by norm_num) (by norm_num)
  have e3 : repsilon ≤ 1 / 100000000 := by unfold repsilon; norm_num
  have v2 : 1 ≤ vlen (⟨-2, 0, 0⟩ : V3 ℝ) := by
    unfold vlen; apply Real.le_sqrt_of_sq_le; simp [rdot]; norm_num
  have c10 : ClearOf (tetra.pt 1) (tetra.pt 0) ⟨3, 0, 0⟩ := by
    right; left
    refine ⟨2, by norm_num, ?_, ?_⟩
    · rw [tetra_pt0, tetra_pt1]; refine V3.ext' ?_ ?_ ?_ <;> simp; norm_num
    · have : (tetra.pt 1).sub ⟨3, 0, 0⟩ = ⟨-2, 0, 0⟩ := by rw [tetra_pt1]; refine V3.ext' ?_ ?_ ?_ <;> simp; norm_num
      rw [this]; linarith
  have c01 : ClearOf (tetra.pt 0) (tetra.pt 1) ⟨3, 0, 0⟩ := by
    right; right
    refine ⟨2, by norm_num, ?_, ?_⟩
    · rw [tetra_pt0, tetra_pt1]; refine V3.ext' ?_ ?_ ?_ <;> simp; norm_num
    · have : (tetra.pt 1).sub ⟨3, 0, 0⟩ = ⟨-2, 0, 0⟩ := by rw [tetra_pt1]; refine V3.ext' ?_ ?_ ?_ <;> simp; norm_num
      rw [this]; linarith
  intro a b ha hb hne
  by_cases h01 : a = 0 ∧ b = 1
  · obtain ⟨rfl, rfl⟩ := h01; exact c01
  by_cases h10 : a = 1 ∧ b = 0
  · obtain ⟨rfl, rfl⟩ := h10; exact c10
  apply clearOf_bounds <;> interval_cases a <;> interval_cases b <;> first | exact absurd rfl hne | exact absurd ⟨rfl, rfl⟩ h01 | exact absurd ⟨rfl, rfl⟩ h10 | skip
  all_goals simp only [rdot, cross_x, cross_y, cross_z, sub_x, sub_y, sub_z, tetra_pt0, tetra_pt1, tetra_pt2, tetra_pt3]; norm_num

theorem tetra_tensorRegular_out : tetra.TensorRegular ⟨2, 3, 5⟩ :=
  (tetra_offPlanes (by norm_num) (by norm_num) (by norm_num) (by norm_num)).tensorRegular tetra_isHull tetra_regular_out
theorem tetra_tensorRegular_in : tetra.TensorRegular ⟨1 / 2, 1 / 8, 1 / 4⟩ :=
  (tetra_offPlanes (by norm_num) (by norm_num) (by norm_num) (by norm_num)).tensorRegular tetra_isHull tetra_regular_in

/-- C19 from a station in the plane of a face and from one on the line of an edge: the first row of the tensor is the derivative of
the first component of Newton's attraction. -/
example : ∃ p, mkPoly tetra (fun _ => true) = .ok p ∧ ∀ s : V3 ℝ, s = ⟨2, 3, 0⟩ ∨ s = ⟨3, 0, 0⟩ → ∃ G T, Call.onNew p ⟨s, 2670, 1, true⟩ = .ok (G, T) ∧
    HasDerivAt (fun x => 1000000000 * 1 * 2670 * (attraction tetra.body (s.add (V3.smul x ⟨0, 1, 2⟩))).x) (T.r0.y + 2 * T.r0.z) 0 := by
  obtain ⟨p, hp⟩ := hull_mkPoly_ok tetra_isHull (fun _ => true)
  refine ⟨p, hp, fun s hs => ?_⟩
  have hr : tetra.TensorRegular s := by
    rcases hs with rfl | rfl
    · exact tetra_tensorRegular_plane
    · exact tetra_tensorRegular_line
  obtain ⟨G, T, hv⟩ := C19_newton_returned tetra_isHull hp hr 2670 1
  refine ⟨G, T, hv, (C19_newton tetra_isHull hp hr hv ⟨0, 1, 2⟩).1.congr_deriv ?_⟩
  simp [rdot]; ring

/-- C58: the corners in another order -/
theorem tetraC_tensorRegular : tetraC.TensorRegular ⟨2, 3, 5⟩ := by
  apply tensorRegular_bounds tetraC_isHull
  intro t ht
  have h0 := tetraC_pt (i := 0) (by norm_num)
  have h1 := tetraC_pt (i := 1) (by norm_num)
  have h2 := tetraC_pt (i := 2) (by norm_num)
  have h3 := tetraC_pt (i := 3) (by norm_num)
  simp only [tetra_pt0, tetra_pt1, tetra_pt2, tetra_pt3] at h0 h1 h2 h3
  simp only [tetraC, Hull.affine, tetra, List.mem_cons, List.not_mem_nil, or_false] at ht
  rcases ht with rfl | rfl | rfl | rfl
  all_goals
    refine ⟨?_, ?_, ?_⟩
    · simp only [h0, h1, h2, h3, rdot, cross_x, cross_y, cross_z, sub_x, sub_y, sub_z]; norm_num
    · simp only [h0, h1, h2, h3, rdot, cross_x, cross_y, cross_z, sub_x, sub_y, sub_z]; norm_num
    · intro i j hi hj hne
      rcases hi with rfl | rfl | rfl <;> rcases hj with rfl | rfl | rfl <;> first | exact absurd rfl hne | skip
      all_goals
        apply clearOf_bounds <;> simp only [rdot, cross_x, cross_y, cross_z, sub_x, sub_y, sub_z, h0, h1, h2, h3] <;> norm_num

example : ∃ p p', mkPoly tetra (fun _ => true) = .ok p ∧ mkPoly tetraC (fun _ => true) = .ok p' ∧ ∃ G G' T,
    Call.onNew p ⟨⟨2, 3, 5⟩, 2670, 1, true⟩ = .ok (G, T) ∧ Call.onNew p' ⟨⟨2, 3, 5⟩, 2670, 1, true⟩ = .ok (G', T) := by
  obtain ⟨p, hp⟩ := hull_mkPoly_ok tetra_isHull (fun _ => true)
  obtain ⟨p', hp'⟩ := hull_mkPoly_ok tetraC_isHull (fun _ => true)
  obtain ⟨G, T, hv⟩ := C19_newton_returned tetra_isHull hp tetra_tensorRegular_out 2670 1
  obtain ⟨G', T', hv'⟩ := C19_newton_returned tetraC_isHull hp' tetraC_tensorRegular 2670 1
  have := C58_tensor_triangulation tetra_isHull tetraC_isHull hp hp' tetraC_body tetra_tensorRegular_out tetraC_tensorRegular hv hv'
  exact ⟨p, p', hp, hp', G, G', T, hv, this ▸ hv'⟩

/-- C59: the tetrahedron and its double, seen from an inner point -/
theorem tetra2_tensorRegular : tetra2.TensorRegular ⟨1, 1 / 4, 1 / 2⟩ := by
  apply tensorRegular_bounds tetra2_isHull
  intro t ht
  simp only [tetra2, Hull.affine, tetra, List.mem_cons, List.not_mem_nil, or_false] at ht
  rcases ht with rfl | rfl | rfl | rfl
  all_goals
    refine ⟨?_, ?_, ?_⟩
    · simp only [tetra2_pt0, tetra2_pt1, tetra2_pt2, tetra2_pt3, rdot, cross_x, cross_y, cross_z, sub_x, sub_y, sub_z]; norm_num
    · simp only [tetra2_pt0, tetra2_pt1, tetra2_pt2, tetra2_pt3, rdot, cross_x, cross_y, cross_z, sub_x, sub_y, sub_z]; norm_num
    · intro i j hi hj hne
      rcases hi with rfl | rfl | rfl <;> rcases hj with rfl | rfl | rfl <;> first | exact absurd rfl hne | skip
      all_goals
        apply clearOf_bounds <;> simp only [rdot, cross_x, cross_y, cross_z, sub_x, sub_y, sub_z, tetra2_pt0, tetra2_pt1, tetra2_pt2, tetra2_pt3] <;> norm_num

example : ∃ p p', mkPoly tetra (fun _ => true) = .ok p ∧ mkPoly tetra2 (fun _ => true) = .ok p' ∧ ∃ G G' T,
    Call.onNew p ⟨⟨1 / 2, 1 / 8, 1 / 4⟩, 2670, 1, true⟩ = .ok (G, T) ∧ Call.onNew p' ⟨⟨1, 1 / 4, 1 / 2⟩, 2670, 1, true⟩ = .ok (G', T) := by
  obtain ⟨p, hp⟩ := hull_mkPoly_ok tetra_isHull (fun _ => true)
  obtain ⟨p', hp'⟩ := hull_mkPoly_ok tetra2_isHull (fun _ => true)
  have hpts : tetra2.points = tetra.points.map (V3.smul 2) := by
    simp only [tetra2, Hull.affine, tetra, List.map_cons, List.map_nil, affV]
    refine List.cons_eq_cons.mpr ⟨?_, List.cons_eq_cons.mpr ⟨?_, List.cons_eq_cons.mpr ⟨?_, List.cons_eq_cons.mpr ⟨?_, rfl⟩⟩⟩⟩ <;>
      refine V3.ext' ?_ ?_ ?_ <;> simp [similarLin, rowForm_apply, rdot, P3.toV, V3.toP]
  have e : (⟨1, 1 / 4, 1 / 2⟩ : V3 ℝ) = V3.smul 2 ⟨1 / 2, 1 / 8, 1 / 4⟩ := by refine V3.ext' ?_ ?_ ?_ <;> simp <;> norm_num
  have hr := tetra2_tensorRegular
  obtain ⟨G, T, hv⟩ := C19_newton_returned tetra_isHull hp tetra_tensorRegular_in 2670 1
  obtain ⟨G', T', hv'⟩ := C19_newton_returned tetra2_isHull hp' hr 2670 1
  have hv'' := hv'
  rw [e] at hr hv''
  have := C59_tensor_scaling tetra_isHull tetra2_isHull hp hp' two_pos hpts tetra_tensorRegular_in hr hv hv''
  exact ⟨p, p', hp, hp', G, G', T, hv, this ▸ hv'⟩

/-- C60: the mirror image -/
theorem tetraM_tensorRegular : tetraM.TensorRegular ⟨-2, 3, 5⟩ := by
  apply tensorRegular_bounds tetraM_isHull
  intro t ht
  have h0 := tetraM_pt (i := 0) (by norm_num)
  have h1 := tetraM_pt (i := 1) (by norm_num)
  have h2 := tetraM_pt (i := 2) (by norm_num)
  have h3 := tetraM_pt (i := 3) (by norm_num)
  simp only [tetra_pt0, tetra_pt1, tetra_pt2, tetra_pt3] at h0 h1 h2 h3
  simp only [tetraM, Hull.affine, tetra, List.mem_cons, List.not_mem_nil, or_false] at ht
  rcases ht with rfl | rfl | rfl | rfl
  all_goals
    refine ⟨?_, ?_, ?_⟩
    · simp only [h0, h1, h2, h3, rdot, cross_x, cross_y, cross_z, sub_x, sub_y, sub_z]; norm_num
    · simp only [h0, h1, h2, h3, rdot, cross_x, cross_y, cross_z, sub_x, sub_y, sub_z]; norm_num
    · intro i j hi hj hne
      rcases hi with rfl | rfl | rfl <;> rcases hj with rfl | rfl | rfl <;> first | exact absurd rfl hne | skip
      all_goals
        apply clearOf_bounds <;> simp only [rdot, cross_x, cross_y, cross_z, sub_x, sub_y, sub_z, h0, h1, h2, h3] <;> norm_num

example : ∃ p p', mkPoly tetra (fun _ => true) = .ok p ∧ mkPoly tetraM (fun _ => true) = .ok p' ∧ ∃ G G' T T',
    Call.onNew p ⟨⟨2, 3, 5⟩, 2670, 1, true⟩ = .ok (G, T) ∧ Call.onNew p' ⟨⟨-2, 3, 5⟩, 2670, 1, true⟩ = .ok (G', T') ∧
    T'.r0 = ⟨T.r0.x, -T.r0.y, -T.r0.z⟩ := by
  obtain ⟨p, hp⟩ := hull_mkPoly_ok tetra_isHull (fun _ => true)
  obtain ⟨p', hp'⟩ := hull_mkPoly_ok tetraM_isHull (fun _ => true)
  have e : (⟨-2, 3, 5⟩ : V3 ℝ) = ((⟨⟨-1, 0, 0⟩, ⟨0, 1, 0⟩, ⟨0, 0, 1⟩⟩ : M3 ℝ).apply ⟨2, 3, 5⟩).add V3.zeros := by
    refine V3.ext' ?_ ?_ ?_ <;> simp [M3.apply, rdot]
  have hr := tetraM_tensorRegular
  obtain ⟨G, T, hv⟩ := C19_newton_returned tetra_isHull hp tetra_tensorRegular_out 2670 1
  obtain ⟨G', T', hv'⟩ := C19_newton_returned tetraM_isHull hp' hr 2670 1
  refine ⟨p, p', hp, hp', G, G', T, T', hv, hv', ?_⟩
  rw [e] at hr hv'
  have := C60_tensor_congruent tetra_isHull tetraM_isHull hp hp' (by constructor <;> simp [rdot]) V3.zeros (by
    intro a
    simp only [tetraM, Hull.affine, List.mem_map]
    have key : ∀ b, affV (similarLin 1 ⟨⟨-1, 0, 0⟩, ⟨0, 1, 0⟩, ⟨0, 0, 1⟩⟩) (0, 0, 0) b = ((⟨⟨-1, 0, 0⟩, ⟨0, 1, 0⟩, ⟨0, 0, 1⟩⟩ : M3 ℝ).apply b).add V3.zeros := by
      intro b; refine V3.ext' ?_ ?_ ?_ <;> simp [affV, similarLin, rowForm_apply, P3.toV, V3.toP, M3.apply]
    constructor
    · rintro ⟨b, hb, rfl⟩; exact ⟨b, hb, key b⟩
    · rintro ⟨b, hb, rfl⟩; exact ⟨b, hb, key b⟩) tetra_tensorRegular_out hr hv hv'
  have kx := congrArg V3.x (this ⟨1, 0, 0⟩)
  have ky := congrArg V3.x (this ⟨0, 1, 0⟩)
  have kz := congrArg V3.x (this ⟨0, 0, 1⟩)
  simp [M3.apply, rdot] at kx ky kz
  exact V3.ext' kx ky kz

theorem halfA_tensorRegular : halfA.TensorRegular ⟨2, 3, 5⟩ := by
  apply tensorRegular_bounds halfA_isHull
  intro t ht
  have h0 := halfA_pt (i := 0) (by norm_num)
  have h1 := halfA_pt (i := 1) (by norm_num)
  have h2 := halfA_pt (i := 2) (by norm_num)
  have h3 := halfA_pt (i := 3) (by norm_num)
  simp only [tetra_pt0, tetra_pt1, tetra_pt2, tetra_pt3] at h0 h1 h2 h3
  simp only [halfA, Hull.affine, tetra, List.mem_cons, List.not_mem_nil, or_false] at ht
  rcases ht with rfl | rfl | rfl | rfl
  all_goals
    refine ⟨?_, ?_, ?_⟩
    · simp only [h0, h1, h2, h3, rdot, cross_x, cross_y, cross_z, sub_x, sub_y, sub_z]; norm_num
    · simp only [h0, h1, h2, h3, rdot, cross_x, cross_y, cross_z, sub_x, sub_y, sub_z]; norm_num
    · intro i j hi hj hne
      rcases hi with rfl | rfl | rfl <;> rcases hj with rfl | rfl | rfl <;> first | exact absurd rfl hne | skip
      all_goals
        apply clearOf_bounds <;> simp only [rdot, cross_x, cross_y, cross_z, sub_x, sub_y, sub_z, h0, h1, h2, h3] <;> norm_num
theorem halfB_tensorRegular : halfB.TensorRegular ⟨2, 3, 5⟩ := by
  apply tensorRegular_bounds halfB_isHull
  intro t ht
  have h0 := halfB_pt (i := 0) (by norm_num)
  have h1 := halfB_pt (i := 1) (by norm_num)
  have h2 := halfB_pt (i := 2) (by norm_num)
  have h3 := halfB_pt (i := 3) (by norm_num)
  simp only [tetra_pt0, tetra_pt1, tetra_pt2, tetra_pt3] at h0 h1 h2 h3
  simp only [halfB, Hull.affine, tetra, List.mem_cons, List.not_mem_nil, or_false] at ht
  rcases ht with rfl | rfl | rfl | rfl
  all_goals
    refine ⟨?_, ?_, ?_⟩
    · simp only [h0, h1, h2, h3, rdot, cross_x, cross_y, cross_z, sub_x, sub_y, sub_z]; norm_num
    · simp only [h0, h1, h2, h3, rdot, cross_x, cross_y, cross_z, sub_x, sub_y, sub_z]; norm_num
    · intro i j hi hj hne
      rcases hi with rfl | rfl | rfl <;> rcases hj with rfl | rfl | rfl <;> first | exact absurd rfl hne | skip
      all_goals
        apply clearOf_bounds <;> simp only [rdot, cross_x, cross_y, cross_z, sub_x, sub_y, sub_z, h0, h1, h2, h3] <;> norm_num

/-- C61: the tetrahedron cut along the plane `x = y` -/
example : ∃ (w : World ℝ) (p : Poly ℝ) (s' : Station ℝ) (w' : World ℝ) (G : V3 ℝ),
    mkPoly halfA (fun _ => true) = .ok (w.poly 0) ∧ mkPoly halfB (fun _ => true) = .ok (w.poly 1) ∧
    mkPoly tetra (fun _ => true) = .ok p ∧
    computeGravity (.list ([0, 1].map .poly)) 2670 1 true ⟨⟨2, 3, 5⟩, V3.zeros, M3.zeros⟩ w = (.ok (), s', w') ∧
    Call.onNew p ⟨⟨2, 3, 5⟩, 2670, 1, true⟩ = .ok (G, s'.T) := by
  obtain ⟨pA, hA⟩ := hull_mkPoly_ok halfA_isHull (fun _ => true)
  obtain ⟨pB, hB⟩ := hull_mkPoly_ok halfB_isHull (fun _ => true)
  obtain ⟨p, hp⟩ := hull_mkPoly_ok tetra_isHull (fun _ => true)
  let poly : Nat → Poly ℝ := fun k => if k = 0 then pA else pB
  have hw : (World.new poly).Ready := World.new_ready poly (by
    intro k
    by_cases hk : k = 0
    · exact ⟨halfA, _, by simp only [poly, hk]; exact hA⟩
    · exact ⟨halfB, _, by simp only [poly, if_neg hk]; exact hB⟩)
  obtain ⟨GA, TA, hvA⟩ := C19_newton_returned halfA_isHull hA halfA_tensorRegular 2670 1
  obtain ⟨GB, TB, hvB⟩ := C19_newton_returned halfB_isHull hB halfB_tensorRegular 2670 1
  obtain ⟨G, T, hv⟩ := C19_newton_returned tetra_isHull hp tetra_tensorRegular_out 2670 1
  let H : Nat → Hull ℝ := fun k => if k = 0 then halfA else halfB
  have two : ∀ P : Nat → Prop, P 0 → P 1 → ∀ k ∈ [0, 1], P k := by
    intro P h0 h1 k hk
    simp only [List.mem_cons, List.not_mem_nil, or_false] at hk
    rcases hk with rfl | rfl
    · exact h0
    · exact h1
  obtain ⟨s', w', hc, hT⟩ := C61_tensor_tiling H hw (inHull := fun _ _ => true) [0, 1] (two _ halfA_isHull halfB_isHull) (two _ hA hB)
    (by
      rw [List.pairwise_pair]
      rw [Set.disjoint_left]
      intro q (hq : q ∈ interior halfA.body) (hq' : q ∈ interior halfB.body)
      obtain ⟨t, ht, h1⟩ := exists_step hq (-1, 0, 0)
      have h2 := interior_subset hq'
      rw [halfA_body] at h1
      rw [halfB_body] at h2
      have h1 := h1.2.1
      have h2 := h2.2.1
      simp only [Prod.fst_add, Prod.snd_add, Prod.smul_fst, Prod.smul_snd, smul_eq_mul] at h1 h2
      linarith) tetra_isHull hp
    (by
      have e : {q | ∃ k ∈ [0, 1], q ∈ (H k).body} = halfA.body ∪ halfB.body := by ext q; simp [H]
      rw [e, halfA_body, halfB_body, tetra_body]
      ext q
      simp only [Set.mem_ofPred_eq, Set.mem_union]
      constructor
      · rintro ⟨h1, h2, h3, h4⟩
        rcases le_total q.1 q.2.1 with h | h
        · right; refine ⟨?_, ?_, ?_, ?_⟩ <;> linarith
        · left; refine ⟨?_, ?_, ?_, ?_⟩ <;> linarith
      · rintro (⟨h1, h2, h3, h4⟩ | ⟨h1, h2, h3, h4⟩) <;> refine ⟨?_, ?_, ?_, ?_⟩ <;> linarith)
    (s := ⟨⟨2, 3, 5⟩, V3.zeros, M3.zeros⟩) (two _ halfA_tensorRegular halfB_tensorRegular) tetra_tensorRegular_out (rs := [(GA, TA), (GB, TB)])
    (by show [_, _] = [_, _]; rw [← hvA, ← hvB]; rfl) hv
  refine ⟨World.new poly, p, s', w', G, hA, hB, hp, hc, ?_⟩
  rw [hv, hT]
  congr 2
  refine M3.ext' ?_ ?_ ?_ <;> refine V3.ext' ?_ ?_ ?_ <;> simp [M3.add, M3.zeros]

/-- C62, C63: the tetrahedron from outside -/
example : ∃ p, mkPoly tetra (fun _ => true) = .ok p ∧ ∃ G T, Call.onNew p ⟨⟨2, 3, 5⟩, 2670, 1, true⟩ = .ok (G, T) ∧
    T.r0.y = 1000000000 * 1 * 2670 * (∫ q in tetra.body, 3 * (q.1 - 2) * (q.2.1 - 3) / dist3 q ⟨2, 3, 5⟩ ^ 5) ∧
    |T.r0.y| ≤ 2 * (1000000000 * 1 * 2670) * (volume tetra.body).toReal / 4 ^ 3 := by
  obtain ⟨p, hp⟩ := hull_mkPoly_ok tetra_isHull (fun _ => true)
  obtain ⟨G, T, hv⟩ := C19_newton_returned tetra_isHull hp tetra_tensorRegular_out 2670 1
  refine ⟨p, hp, G, T, hv, ?_, ?_⟩
  · have := (C62_tidal_integrals tetra_isHull hp tetra_tensorRegular_out (by
      rw [tetra_body]
      rintro ⟨-, -, -, h⟩
      norm_num [V3.toP] at h) hv).1
    rw [this]; rfl
  · have := C63_tensor_bound tetra_isHull hp tetra_tensorRegular_out (by norm_num) (by norm_num) hv (δ := 4) (by norm_num) (by
      intro q hq
      rw [tetra_body] at hq
      obtain ⟨h1, h2, h3, h4⟩ := hq
      apply Real.le_sqrt_of_sq_le
      nlinarith [sq_nonneg (q.1 - 2), sq_nonneg (q.2.1 - 3)]) ⟨0, 1, 0⟩ ⟨1, 0, 0⟩
    simpa [M3.apply, rdot, vlen] using this

end
end Geec
