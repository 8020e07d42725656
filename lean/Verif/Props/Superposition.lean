import Verif.Props.Sphere
import Verif.Props.TensorLaws
/-
C95, C96: several bodies with densities of their own, bodies inside bodies, cavities; bodies with symmetries.
-/
namespace Geec
open Arith MeasureTheory Metric Set Filter Topology
noncomputable section

/-! ### C95 -/

/-- One call of `Station.compute_gravity` per body, each with a density of its own. -/
def observeAll (Gc : ℝ) (gr : Bool) : List (Nat × ℝ) → Station ℝ → World ℝ → Except PyErr Unit × Station ℝ × World ℝ
  | [], s, w => (.ok (), s, w)
  | (k, ρ) :: cs, s, w =>
    match computeGravity (.poly k) ρ Gc gr s w with
    | (.ok (), s', w') => observeAll Gc gr cs s' w'
    | (.error e, s', w') => (.error e, s', w')

/-- the density at a point: the sum of the densities of the bodies that contain it -/
def densityAt (H : Nat → Hull ℝ) : List (Nat × ℝ) → P3 → ℝ
  | [], _ => 0
  | (k, ρ) :: cs, q => (H k).body.indicator (fun _ => ρ) q + densityAt H cs q

/-- **C95** The station holds, on top of what it held, Newton's integral of the summed density over all space, however the bodies overlap. -/
theorem C95_density (H : Nat → Hull ℝ) {inHull : Nat → V3 ℝ → Bool} (Gc : ℝ) (gr : Bool) (cs : List (Nat × ℝ)) {s : Station ℝ} {w : World ℝ} (hw : w.Ready)
    (hH : ∀ c ∈ cs, (H c.1).IsHull) (hp : ∀ c ∈ cs, mkPoly (H c.1) (inHull c.1) = .ok (w.poly c.1)) (hr : ∀ c ∈ cs, (H c.1).Regular s.coord)
    {s' : Station ℝ} {w' : World ℝ} (h : observeAll Gc gr cs s w = (.ok (), s', w')) (e : V3 ℝ) :
    Integrable (fun q => densityAt H cs q * kernelAt s.coord e q) ∧
      rdot s'.G e = rdot s.G e + 100000 * Gc * ∫ q, densityAt H cs q * kernelAt s.coord e q := by
  induction cs generalizing s w with
  | nil =>
    simp only [observeAll, Prod.mk.injEq, true_and] at h
    obtain ⟨rfl, -⟩ := h
    simp [densityAt]
  | cons c cs ih =>
    obtain ⟨k, ρ⟩ := c
    have hk : (k, ρ) ∈ (k, ρ) :: cs := List.mem_cons_self
    have hcg : computeGravity (.poly k) ρ Gc gr s w = computeGravity (.list ([k].map .poly)) ρ Gc gr s w := rfl
    rw [observeAll, hcg] at h
    cases hc : Call.onNew (w.poly k) ⟨s.coord, ρ, Gc, gr⟩ with
    | error err =>
      exfalso
      rcases ho : computeGravity (.list ([k].map .poly)) ρ Gc gr s w with ⟨r, s1, w1⟩
      cases r with
      | error _ => rw [ho] at h; simp at h
      | ok u =>
        simp only [computeGravity, polyIds_map] at ho
        obtain ⟨rs, hrs⟩ := stationLoop_returns [k] hw.sound ho
        cases rs with
        | nil => cases hrs
        | cons r rs => simp only [List.map_cons, List.cons.injEq] at hrs; rw [hc] at hrs; cases hrs.1
    | ok v =>
      obtain ⟨w1, h1, h2, h3⟩ := C06_station_accumulates ρ Gc gr [k] s w hw [v] (by simp only [List.map_cons, List.map_nil, hc])
      rw [h1] at h
      obtain ⟨i1, i2⟩ := newton_direction (hH _ hk) (hp _ hk) (hr _ hk) hc e
      have hco : (accumulate s [v]).coord = s.coord := rfl
      obtain ⟨j1, j2⟩ := ih (s := accumulate s [v]) (w := w1) h2 (fun c hc => hH c (List.mem_cons_of_mem _ hc))
        (fun c hc => by rw [h3]; exact hp c (List.mem_cons_of_mem _ hc)) (fun c hc => by rw [hco]; exact hr c (List.mem_cons_of_mem _ hc)) h
      rw [hco] at j1 j2
      have hm := (H k).body_decent.meas
      have hfun : ∀ q, densityAt H ((k, ρ) :: cs) q * kernelAt s.coord e q =
          ρ * (H k).body.indicator (kernelAt s.coord e) q + densityAt H cs q * kernelAt s.coord e q := by
        intro q
        rw [densityAt, add_mul]
        congr 1
        by_cases hq : q ∈ (H k).body
        · rw [indicator_of_mem hq, indicator_of_mem hq]
        · rw [indicator_of_notMem hq, indicator_of_notMem hq, zero_mul, mul_zero]
      have hi : Integrable (fun q => ρ * (H k).body.indicator (kernelAt s.coord e) q) := ((integrable_indicator_iff hm).mpr i1).const_mul ρ
      simp only [hfun]
      refine ⟨hi.add j1, ?_⟩
      rw [integral_add hi j1, integral_const_mul, integral_indicator hm, j2]
      have : rdot (accumulate s [v]).G e = rdot s.G e + rdot v.1 e := by
        simp only [accumulate, rdot, add_x, add_y, add_z]; ring
      rw [this, i2]; ring

/-- **C95** Two ways to compose the same distribution of density out of bodies give the station the same total. -/
theorem C95_same (H : Nat → Hull ℝ) {inHull : Nat → V3 ℝ → Bool} (Gc : ℝ) (gr gr' : Bool) (cs cs' : List (Nat × ℝ)) {s : Station ℝ} {w : World ℝ} (hw : w.Ready)
    (hH : ∀ c ∈ cs ++ cs', (H c.1).IsHull) (hp : ∀ c ∈ cs ++ cs', mkPoly (H c.1) (inHull c.1) = .ok (w.poly c.1))
    (hr : ∀ c ∈ cs ++ cs', (H c.1).Regular s.coord) (hsame : ∀ᵐ q, densityAt H cs q = densityAt H cs' q)
    {s1 s2 : Station ℝ} {w1 w2 : World ℝ} (h1 : observeAll Gc gr cs s w = (.ok (), s1, w1)) (h2 : observeAll Gc gr' cs' s w = (.ok (), s2, w2)) : s1.G = s2.G := by
  apply V3.ext_rdot
  intro e
  rw [(C95_density H Gc gr cs hw (fun c hc => hH c (List.mem_append_left _ hc)) (fun c hc => hp c (List.mem_append_left _ hc))
      (fun c hc => hr c (List.mem_append_left _ hc)) h1 e).2,
    (C95_density H Gc gr' cs' hw (fun c hc => hH c (List.mem_append_right _ hc)) (fun c hc => hp c (List.mem_append_right _ hc))
      (fun c hc => hr c (List.mem_append_right _ hc)) h2 e).2]
  congr 2
  refine integral_congr_ae (hsame.mono fun q hq => ?_)
  simp only [hq]

variable {A B : Hull ℝ} {inHull inHull' : V3 ℝ → Bool} {p p' : Poly ℝ}

/-- **C95** A cavity: the body with density `ρ` and the cavity with density `-ρ` give Newton's integral over what is left of the body. -/
theorem C95_cavity (hA : A.IsHull) (hB : B.IsHull) (hpA : mkPoly A inHull = .ok p) (hpB : mkPoly B inHull' = .ok p') (hsub : A.body ⊆ B.body)
    {s : V3 ℝ} (hsA : A.Regular s) (hsB : B.Regular s) {ρ Gc : ℝ} {gr gr' : Bool} {G G' : V3 ℝ} {T T' : M3 ℝ}
    (hvA : Call.onNew p ⟨s, -ρ, Gc, gr⟩ = .ok (G, T)) (hvB : Call.onNew p' ⟨s, ρ, Gc, gr'⟩ = .ok (G', T')) :
    G'.add G = V3.smul (100000 * Gc * ρ) (attraction (B.body \ A.body) s) := by
  apply V3.ext_rdot
  intro e
  obtain ⟨i1, i2⟩ := newton_direction hA hpA hsA hvA e
  obtain ⟨j1, j2⟩ := newton_direction hB hpB hsB hvB e
  have hd : Decent (B.body \ A.body) := ⟨B.body_decent.meas.diff A.body_decent.meas, B.body_decent.bdd.subset sdiff_subset, by
    rw [sdiff_eq]
    refine measure_mono_null (frontier_inter_subset _ _) (measure_union_null (measure_mono_null inter_subset_left B.body_decent.front) (measure_mono_null inter_subset_right ?_))
    rw [frontier_compl]; exact A.body_decent.front⟩
  have h0 : rdot (V3.smul (100000 * Gc * ρ) (attraction (B.body \ A.body) s)) e = 100000 * Gc * ρ * ∫ q in B.body \ A.body, kernelAt s e q := by
    have := rdot_attraction hd s e
    simp only [pull_kernelAt] at this
    rw [← this]; simp only [rdot, smul_x, smul_y, smul_z]; ring
  have h1 := integral_inter_add_sdiff A.body_decent.meas j1
  rw [inter_eq_right.mpr hsub] at h1
  have h2 : rdot (G'.add G) e = rdot G' e + rdot G e := by simp only [rdot, add_x, add_y, add_z]; ring
  rw [h0, h2, i2, j2, ← h1]; ring

/-- **C95** A body attracts at least as strongly as a part of it, in every direction in which all of it lies. -/
theorem C95_part (hA : A.IsHull) (hB : B.IsHull) (hpA : mkPoly A inHull = .ok p) (hpB : mkPoly B inHull' = .ok p') (hsub : A.body ⊆ B.body)
    {s : V3 ℝ} (hsA : A.Regular s) (hsB : B.Regular s) {ρ Gc : ℝ} (hρ : 0 ≤ Gc * ρ) {gr gr' : Bool} {G G' : V3 ℝ} {T T' : M3 ℝ}
    (hvA : Call.onNew p ⟨s, ρ, Gc, gr⟩ = .ok (G, T)) (hvB : Call.onNew p' ⟨s, ρ, Gc, gr'⟩ = .ok (G', T'))
    {e : V3 ℝ} (he : ∀ q ∈ B.points, 0 ≤ rdot (q.sub s) e) : rdot G e ≤ rdot G' e := by
  obtain ⟨i1, i2⟩ := newton_direction hA hpA hsA hvA e
  obtain ⟨j1, j2⟩ := newton_direction hB hpB hsB hvB e
  rw [i2, j2]
  have hK : 0 ≤ 100000 * Gc * ρ := by nlinarith
  refine mul_le_mul_of_nonneg_left ?_ hK
  have hside : ∀ q ∈ B.body, 0 ≤ rdot ((P3.toV q).sub s) e := by
    have hconv : Convex ℝ {q : P3 | 0 ≤ rdot ((P3.toV q).sub s) e} := by
      intro x hx y hy a b ha hb hab
      simp only [mem_ofPred_eq, rdot, sub_x, sub_y, sub_z, P3.toV] at hx hy ⊢
      simp only [Prod.fst_add, Prod.snd_add, Prod.smul_fst, Prod.smul_snd, smul_eq_mul]
      have e1 : (a * x.1 + b * y.1 - s.x) * e.x + (a * x.2.1 + b * y.2.1 - s.y) * e.y + (a * x.2.2 + b * y.2.2 - s.z) * e.z =
        a * ((x.1 - s.x) * e.x + (x.2.1 - s.y) * e.y + (x.2.2 - s.z) * e.z) + b * ((y.1 - s.x) * e.x + (y.2.1 - s.y) * e.y + (y.2.2 - s.z) * e.z) := by
        have : b = 1 - a := by linarith
        subst this; ring
      rw [e1]; positivity
    have : B.body ⊆ {q : P3 | 0 ≤ rdot ((P3.toV q).sub s) e} := by
      apply convexHull_min _ hconv
      rintro _ ⟨a, ha, rfl⟩
      simp only [mem_ofPred_eq, toP_toV]
      exact he a ha
    exact this
  refine setIntegral_mono_set j1 ?_ (Eventually.of_forall hsub)
  refine (ae_restrict_mem B.body_decent.meas).mono fun q hq => ?_
  exact div_nonneg (hside q hq) (pow_nonneg (vlen_nonneg _) 3)

/-- **C95** No field inside a hollow sphere: bodies that approximate two balls about a centre, the smaller one with the opposite density, at a station inside. -/
theorem C95_hollow (hA : A.IsHull) (hB : B.IsHull) (hpA : mkPoly A inHull = .ok p) (hpB : mkPoly B inHull' = .ok p') {c : V3 ℝ} {r R r' R' : ℝ}
    (hr : 0 < r) (hrR : r ≤ R) (hin : eball c r ⊆ A.body) (hout : A.body ⊆ eball c R)
    (hr' : 0 < r') (hrR' : r' ≤ R') (hin' : eball c r' ⊆ B.body) (hout' : B.body ⊆ eball c R')
    {s : V3 ℝ} (hsA : A.Regular s) (hsB : B.Regular s) (hd : vlen (s.sub c) ≤ R) (hd' : vlen (s.sub c) ≤ R') {ρ Gc : ℝ} {gr gr' : Bool} {G G' : V3 ℝ} {T T' : M3 ℝ}
    (hvA : Call.onNew p ⟨s, -ρ, Gc, gr⟩ = .ok (G, T)) (hvB : Call.onNew p' ⟨s, ρ, Gc, gr'⟩ = .ok (G', T')) {x : ℝ} (hx : 0 < x) :
    vlen (G'.add G) ≤ |100000 * Gc * ρ| * (96 * x + 4 / 3 * Real.pi * ((R ^ 3 - r ^ 3) + (R' ^ 3 - r' ^ 3)) / x ^ 2) := by
  have h1 := C94_between hA hpA hr hrR hin hout hsA hvA hx
  have h2 := C94_between hB hpB hr' hrR' hin' hout' hsB hvB hx
  have e : G'.add G = (G'.sub (ballField Gc ρ c R' s)).add (G.sub (ballField Gc (-ρ) c R s)) := by
    unfold ballField
    rw [min_eq_right hd, min_eq_right hd']
    refine V3.ext' ?_ ?_ ?_ <;> simp <;> ring
  have e2 : |100000 * Gc * -ρ| = |100000 * Gc * ρ| := by rw [mul_neg, abs_neg]
  rw [e2] at h1
  rw [e]
  refine (vlen_add_le _ _).trans ((add_le_add h2 h1).trans (le_of_eq ?_))
  ring

/-! ### C96 -/

/-- **C96** A motion or reflection that maps the body and the station to themselves leaves the field in place: at a station on an axis of rotation the field
is along the axis, on a plane of symmetry in the plane. -/
theorem C96_field (hA : A.IsHull) (hpA : mkPoly A inHull = .ok p) {R : M3 ℝ} (hR : IsOrthogonal R) (t : V3 ℝ)
    (hpts : ∀ a, a ∈ A.points ↔ ∃ b ∈ A.points, a = (R.apply b).add t) {s : V3 ℝ} (hs : A.Regular s) (hfix : (R.apply s).add t = s) {ρ Gc : ℝ} {gr : Bool}
    {G : V3 ℝ} {T : M3 ℝ} (hv : Call.onNew p ⟨s, ρ, Gc, gr⟩ = .ok (G, T)) : R.apply G = G :=
  (C57_congruent hA hA hpA hpA hR t hpts hs (by rw [hfix]; exact hs) hv (by rw [hfix]; exact hv)).symm

/-- **C96** The same for the tensor. -/
theorem C96_tensor (hA : A.IsHull) (hpA : mkPoly A inHull = .ok p) {R : M3 ℝ} (hR : IsOrthogonal R) (t : V3 ℝ)
    (hpts : ∀ a, a ∈ A.points ↔ ∃ b ∈ A.points, a = (R.apply b).add t) {s : V3 ℝ} (hs : A.TensorRegular s) (hfix : (R.apply s).add t = s) {ρ Gc : ℝ}
    {G : V3 ℝ} {T : M3 ℝ} (hv : Call.onNew p ⟨s, ρ, Gc, true⟩ = .ok (G, T)) (d : V3 ℝ) : T.apply (R.apply d) = R.apply (T.apply d) :=
  C60_tensor_congruent hA hA hpA hpA hR t hpts hs (by rw [hfix]; exact hs) hv (by rw [hfix]; exact hv) d

/-! ### concrete cases -/

/-- the calls return when every single one does -/
theorem observeAll_returns (Gc : ℝ) (gr : Bool) (cs : List (Nat × ℝ)) : ∀ (s : Station ℝ) (w : World ℝ), w.Ready →
    (∀ c ∈ cs, ∃ v, Call.onNew (w.poly c.1) ⟨s.coord, c.2, Gc, gr⟩ = .ok v) → ∃ s' w', observeAll Gc gr cs s w = (.ok (), s', w') := by
  induction cs with
  | nil => intro s w _ _; exact ⟨s, w, rfl⟩
  | cons c cs ih =>
    intro s w hw hc
    obtain ⟨k, ρ⟩ := c
    obtain ⟨v, hv⟩ := hc (k, ρ) List.mem_cons_self
    obtain ⟨w1, h1, h2, h3⟩ := C06_station_accumulates ρ Gc gr [k] s w hw [v] (by simp only [List.map_cons, List.map_nil, hv])
    obtain ⟨s', w', h4⟩ := ih (accumulate s [v]) w1 h2 (fun c hc' => by rw [h3]; exact hc c (List.mem_cons_of_mem _ hc'))
    refine ⟨s', w', ?_⟩
    have hcg : computeGravity (.poly k) ρ Gc gr s w = computeGravity (.list ([k].map .poly)) ρ Gc gr s w := rfl
    rw [observeAll, hcg, h1]
    exact h4

theorem octa_out_corner : ∀ t ∈ octa.simplices, ∀ i, Corner t i → octa.pt i ≠ ⟨2, 3, 5⟩ := by
  intro t ht i hi
  have : i < 6 := octa_isHull.cornerIndex t ht i hi
  interval_cases i <;> simp [octa_pt0, octa_pt1, octa_pt2, octa_pt3, octa_pt4, octa_pt5]

theorem tetra_in_octa : tetra.body ⊆ octa.body := by
  rw [tetra_body, octa_body]
  rintro ⟨x, y, z⟩ ⟨h1, h2, h3, h4⟩
  simp only at h1 h2 h3 h4
  simp only [mem_ofPred_eq, l1, abs_of_nonneg h1, abs_of_nonneg h2, abs_of_nonneg h3]
  exact h4

/-- C95: the tetrahedron as a cavity of the octahedron -/
example : ∃ p p' G T G' T', mkPoly tetra (fun _ => true) = .ok p ∧ mkPoly octa (fun _ => true) = .ok p' ∧ Call.onNew p ⟨⟨2, 3, 5⟩, -2670, 1, false⟩ = .ok (G, T) ∧
    Call.onNew p' ⟨⟨2, 3, 5⟩, 2670, 1, false⟩ = .ok (G', T') ∧ G'.add G = V3.smul (100000 * 1 * 2670) (attraction (octa.body \ tetra.body) ⟨2, 3, 5⟩) := by
  obtain ⟨p, hp⟩ := hull_mkPoly_ok tetra_isHull (fun _ => true)
  obtain ⟨p', hp'⟩ := hull_mkPoly_ok octa_isHull (fun _ => true)
  obtain ⟨G, T, hv⟩ := C22_total tetra_isHull hp tetra_out_corner (-2670) 1
  obtain ⟨G', T', hv'⟩ := C22_total octa_isHull hp' octa_out_corner 2670 1
  exact ⟨p, p', G, T, G', T', hp, hp', hv, hv', C95_cavity tetra_isHull octa_isHull hp hp' tetra_in_octa tetra_regular_out octa_regular_out hv hv'⟩

/-- C95: the part attracts less -/
example : ∃ p p' G T G' T', mkPoly tetra (fun _ => true) = .ok p ∧ mkPoly octa (fun _ => true) = .ok p' ∧ Call.onNew p ⟨⟨2, 3, 5⟩, 2670, 1, false⟩ = .ok (G, T) ∧
    Call.onNew p' ⟨⟨2, 3, 5⟩, 2670, 1, false⟩ = .ok (G', T') ∧ rdot G ⟨-1, -1, -1⟩ ≤ rdot G' ⟨-1, -1, -1⟩ := by
  obtain ⟨p, hp⟩ := hull_mkPoly_ok tetra_isHull (fun _ => true)
  obtain ⟨p', hp'⟩ := hull_mkPoly_ok octa_isHull (fun _ => true)
  obtain ⟨G, T, hv⟩ := C22_total tetra_isHull hp tetra_out_corner 2670 1
  obtain ⟨G', T', hv'⟩ := C22_total octa_isHull hp' octa_out_corner 2670 1
  refine ⟨p, p', G, T, G', T', hp, hp', hv, hv', C95_part tetra_isHull octa_isHull hp hp' tetra_in_octa tetra_regular_out octa_regular_out (by norm_num) hv hv' ?_⟩
  intro a ha
  simp only [octa, List.mem_cons, List.not_mem_nil, or_false] at ha
  rcases ha with rfl | rfl | rfl | rfl | rfl | rfl <;> simp only [rdot, sub_x, sub_y, sub_z] <;> norm_num

/-- C95: a station sees the octahedron and a denser tetrahedron inside of it -/
example : ∃ w : World ℝ, w.Ready ∧ ∃ s' w', observeAll 1 false [(0, 2670), (1, 600)] (Station.new ⟨2, 3, 5⟩) w = (.ok (), s', w') ∧ ∀ e,
    rdot s'.G e = 100000 * 1 * ∫ q, (octa.body.indicator (fun _ => 2670) q + (tetra.body.indicator (fun _ => 600) q + 0)) * kernelAt ⟨2, 3, 5⟩ e q := by
  obtain ⟨p, hp⟩ := hull_mkPoly_ok octa_isHull (fun _ => true)
  obtain ⟨p', hp'⟩ := hull_mkPoly_ok tetra_isHull (fun _ => true)
  let H : Nat → Hull ℝ := fun k => if k = 0 then octa else tetra
  let P : Nat → Poly ℝ := fun k => if k = 0 then p else p'
  have hw : (World.new P).Ready := World.new_ready P (by
    intro k
    by_cases hk : k = 0
    · exact ⟨octa, fun _ => true, by simp [P, hk, hp]⟩
    · exact ⟨tetra, fun _ => true, by simp [P, hk, hp']⟩)
  refine ⟨World.new P, hw, ?_⟩
  obtain ⟨G, T, hv⟩ := C22_total octa_isHull hp octa_out_corner 2670 1
  obtain ⟨G', T', hv'⟩ := C22_total tetra_isHull hp' tetra_out_corner 600 1
  obtain ⟨s', w', h⟩ := observeAll_returns 1 false [(0, 2670), (1, 600)] (Station.new ⟨2, 3, 5⟩) (World.new P) hw (by
    intro c hc
    simp only [List.mem_cons, List.not_mem_nil, or_false] at hc
    rcases hc with rfl | rfl
    · exact ⟨_, hv⟩
    · exact ⟨_, hv'⟩)
  refine ⟨s', w', h, fun e => ?_⟩
  have := (C95_density H (inHull := fun _ _ => true) 1 false [(0, 2670), (1, 600)] hw ?_ ?_ ?_ h e).2
  · rw [this]
    have h0 : rdot (Station.new (⟨2, 3, 5⟩ : V3 ℝ)).G e = 0 := by simp [Station.new, rdot]
    rw [h0, zero_add]
    rfl
  all_goals
    intro c hc
    simp only [List.mem_cons, List.not_mem_nil, or_false] at hc
    rcases hc with rfl | rfl
  · exact octa_isHull
  · exact tetra_isHull
  · exact hp
  · exact hp'
  · exact octa_regular_out
  · exact tetra_regular_out

/-- C96: a station on a plane of symmetry of the tetrahedron -/
theorem tetra_regular_diagonal : tetra.Regular ⟨2, 2, 5⟩ := by
  apply tetra_regular
  · intro a b ha hb hne
    apply clearOf_bounds <;> interval_cases a <;> interval_cases b <;> first | exact absurd rfl hne | skip
    all_goals simp only [rdot, cross_x, cross_y, cross_z, sub_x, sub_y, sub_z, tetra_pt0, tetra_pt1, tetra_pt2, tetra_pt3]; norm_num
  all_goals norm_num

example : ∃ p G T, mkPoly tetra (fun _ => true) = .ok p ∧ Call.onNew p ⟨⟨2, 2, 5⟩, 2670, 1, true⟩ = .ok (G, T) ∧ G.x = G.y ∧ T.r0.x = T.r1.y ∧ T.r0.z = T.r1.z := by
  obtain ⟨p, hp⟩ := hull_mkPoly_ok tetra_isHull (fun _ => true)
  have hr := tetra_regular_diagonal
  have hr' : tetra.TensorRegular ⟨2, 2, 5⟩ := (tetra_offPlanes (by norm_num) (by norm_num) (by norm_num) (by norm_num)).tensorRegular tetra_isHull hr
  obtain ⟨G, T, hv⟩ := C19_newton_returned tetra_isHull hp hr' 2670 1
  have hR : IsOrthogonal (⟨⟨0, 1, 0⟩, ⟨1, 0, 0⟩, ⟨0, 0, 1⟩⟩ : M3 ℝ) := by constructor <;> simp [rdot]
  have hpts : ∀ a, a ∈ tetra.points ↔ ∃ b ∈ tetra.points, a = ((⟨⟨0, 1, 0⟩, ⟨1, 0, 0⟩, ⟨0, 0, 1⟩⟩ : M3 ℝ).apply b).add V3.zeros := by
    intro a
    simp only [tetra, List.mem_cons, List.not_mem_nil, or_false, exists_eq_or_imp, exists_eq_left]
    simp [M3.apply, rdot, V3.add]
    tauto
  have hfix : ((⟨⟨0, 1, 0⟩, ⟨1, 0, 0⟩, ⟨0, 0, 1⟩⟩ : M3 ℝ).apply ⟨2, 2, 5⟩).add V3.zeros = ⟨2, 2, 5⟩ := by
    refine V3.ext' ?_ ?_ ?_ <;> simp [M3.apply, rdot]
  have h1 := congrArg V3.y (C96_field tetra_isHull hp hR V3.zeros hpts hr hfix hv)
  have h2 := congrArg V3.y (C96_tensor tetra_isHull hp hR V3.zeros hpts hr' hfix hv ⟨1, 0, 0⟩)
  have h3 := congrArg V3.x (C96_tensor tetra_isHull hp hR V3.zeros hpts hr' hfix hv ⟨0, 0, 1⟩)
  simp [M3.apply, rdot] at h1 h2 h3
  exact ⟨p, G, T, hp, hv, h1, by linarith, by linarith⟩

/-- the octahedron in the sphere of radius 2 -/
def octa2 : Hull ℝ := octa.affine (similarLin 1 ⟨⟨2, 0, 0⟩, ⟨0, 2, 0⟩, ⟨0, 0, 2⟩⟩) (0, 0, 0)

theorem octa2_isHull : octa2.IsHull := by
  apply affine_rows octa_isHull _ ⟨⟨1 / 2, 0, 0⟩, ⟨0, 1 / 2, 0⟩, ⟨0, 0, 1 / 2⟩⟩
  all_goals intro a; refine V3.ext' ?_ ?_ ?_ <;> simp [M3.apply, rdot]

theorem octa2_pt {i : Nat} (hi : i < 6) : octa2.pt i = V3.smul 2 (octa.pt i) := by
  unfold octa2; rw [affine_rows_pt _ hi]; refine V3.ext' ?_ ?_ ?_ <;> simp [M3.apply, rdot, P3.toV]

theorem octa2_mem (a : V3 ℝ) : a ∈ octa2.points ↔ ∃ b ∈ octa.points, a = V3.smul 2 b := by
  simp only [octa2, Hull.affine, List.mem_map]
  have key : ∀ b, affV (similarLin 1 ⟨⟨2, 0, 0⟩, ⟨0, 2, 0⟩, ⟨0, 0, 2⟩⟩) (0, 0, 0) b = V3.smul 2 b := by
    intro b; refine V3.ext' ?_ ?_ ?_ <;> simp [affV, similarLin, rowForm_apply, P3.toV, V3.toP, rdot]
  simp only [key]
  exact ⟨fun ⟨b, hb, h⟩ => ⟨b, hb, h.symm⟩, fun ⟨b, hb, h⟩ => ⟨b, hb, h.symm⟩⟩

theorem octa2_between : eball V3.zeros (2 - 1.84) ⊆ octa2.body ∧ octa2.body ⊆ eball V3.zeros 2 := by
  apply ball_between (by norm_num)
  · intro a ha
    obtain ⟨b, hb, rfl⟩ := (octa2_mem a).mp ha
    have := octa_in_sphere b hb
    have e : (V3.smul 2 b).sub V3.zeros = V3.smul 2 (b.sub V3.zeros) := by refine V3.ext' ?_ ?_ ?_ <;> simp
    rw [e, vlen_smul, abs_of_pos two_pos]; linarith
  · intro b hb
    have e : (V3.smul (1 / 2) b).sub V3.zeros = V3.smul (1 / 2) (b.sub V3.zeros) := by refine V3.ext' ?_ ?_ ?_ <;> simp
    obtain ⟨a, ha, h⟩ := octa_dense (V3.smul (1 / 2) b) (by rw [e, vlen_smul, hb, abs_of_pos (by norm_num)]; norm_num)
    refine ⟨V3.smul 2 a, (octa2_mem _).mpr ⟨a, ha, rfl⟩, ?_⟩
    have e2 : (V3.smul 2 a).sub b = V3.smul 2 (a.sub (V3.smul (1 / 2) b)) := by refine V3.ext' ?_ ?_ ?_ <;> simp <;> ring
    rw [e2, vlen_smul, abs_of_pos two_pos]
    linarith

theorem octa2_regular_centre : octa2.Regular ⟨0, 0, 0⟩ := by
  have h0 := octa2_pt (i := 0) (by norm_num)
  have h1 := octa2_pt (i := 1) (by norm_num)
  have h2 := octa2_pt (i := 2) (by norm_num)
  have h3 := octa2_pt (i := 3) (by norm_num)
  have h4 := octa2_pt (i := 4) (by norm_num)
  have h5 := octa2_pt (i := 5) (by norm_num)
  simp only [octa_pt0, octa_pt1, octa_pt2, octa_pt3, octa_pt4, octa_pt5] at h0 h1 h2 h3 h4 h5
  apply regular_bounds
  intro t ht
  right
  simp only [octa2, Hull.affine, octa, octaSimplices, List.mem_cons, List.not_mem_nil, or_false] at ht
  rcases ht with rfl | rfl | rfl | rfl | rfl | rfl | rfl | rfl
  all_goals
    refine ⟨?_, ?_, ?_⟩
    · simp only [h0, h1, h2, h3, h4, h5, rdot, cross_x, cross_y, cross_z, sub_x, sub_y, sub_z, smul_x, smul_y, smul_z]; norm_num
    · simp only [h0, h1, h2, h3, h4, h5, rdot, cross_x, cross_y, cross_z, sub_x, sub_y, sub_z, smul_x, smul_y, smul_z]; norm_num [abs_of_pos, abs_of_neg]
    · intro i j hi hj hne
      rcases hi with rfl | rfl | rfl <;> rcases hj with rfl | rfl | rfl <;> first | exact absurd rfl hne | skip
      all_goals
        apply clearOf_bounds <;> simp only [h0, h1, h2, h3, h4, h5, rdot, cross_x, cross_y, cross_z, sub_x, sub_y, sub_z, smul_x, smul_y, smul_z] <;> norm_num

/-- C95: the hollow sphere, from its centre -/
example {p p' : Poly ℝ} (hp : mkPoly octa (fun _ => true) = .ok p) (hp' : mkPoly octa2 (fun _ => true) = .ok p') : ∃ G T G' T',
    Call.onNew p ⟨V3.zeros, -2670, 1, false⟩ = .ok (G, T) ∧ Call.onNew p' ⟨V3.zeros, 2670, 1, false⟩ = .ok (G', T') ∧
    vlen (G'.add G) ≤ |100000 * 1 * (2670 : ℝ)| * (96 * 1 + 4 / 3 * Real.pi * ((1 ^ 3 - (1 - 0.92) ^ 3) + (2 ^ 3 - (2 - 1.84) ^ 3)) / 1 ^ 2) := by
  have hc : ∀ t ∈ octa.simplices, ∀ i, Corner t i → octa.pt i ≠ V3.zeros := by
    intro t ht i hi
    have : i < 6 := octa_isHull.cornerIndex t ht i hi
    interval_cases i <;> simp [octa_pt0, octa_pt1, octa_pt2, octa_pt3, octa_pt4, octa_pt5, V3.zeros]
  have hc' : ∀ t ∈ octa2.simplices, ∀ i, Corner t i → octa2.pt i ≠ V3.zeros := by
    intro t ht i hi
    have : i < 6 := octa_isHull.cornerIndex t ht i hi
    rw [octa2_pt this]
    interval_cases i <;> simp [octa_pt0, octa_pt1, octa_pt2, octa_pt3, octa_pt4, octa_pt5, V3.zeros, V3.smul]
  obtain ⟨G, T, hv⟩ := C22_total octa_isHull hp hc (-2670) 1
  obtain ⟨G', T', hv'⟩ := C22_total octa2_isHull hp' hc' 2670 1
  have hb := ball_between (h := octa) (R := 1) (by norm_num) octa_in_sphere octa_dense
  have z : (V3.zeros : V3 ℝ) = ⟨0, 0, 0⟩ := rfl
  have hd : vlen ((V3.zeros : V3 ℝ).sub V3.zeros) = 0 := by simp [vlen, rdot]
  exact ⟨G, T, G', T', hv, hv', C95_hollow octa_isHull octa2_isHull hp hp' (by norm_num) (by norm_num) hb.1 hb.2 (by norm_num) (by norm_num) octa2_between.1
    octa2_between.2 (by rw [z]; exact octa_regular_centre) (by rw [z]; exact octa2_regular_centre) (by rw [hd]; norm_num) (by rw [hd]; norm_num) hv hv' one_pos⟩

end
end Geec
