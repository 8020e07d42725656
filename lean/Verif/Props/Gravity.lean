import Verif.Lemmas.FaceSum
import Verif.Lemmas.Equivariance
import Mathlib.Analysis.Convex.Extreme
/-
C09, C10, C12, C21, C22: dependence of a gravity query on density, position and orientation, and its exceptions
(exact arithmetic).
-/
namespace Geec
open Arith
noncomputable section

/-! ### C09 -/

/-- **C09** `G` and `T` are linear in the density and in the gravitational constant: scaling either by `k` scales both,
they are additive in the density, they depend on the product only, they vanish when either is zero; and whether a query
raises (and what) does not depend on them at all. -/
theorem C09_linear {p : Poly ℝ} (hw : p.WellTwinned) (obs : V3 ℝ) (gr : Bool) :
    (∀ ρ Gc ρ' Gc' x, Call.onNew p ⟨obs, ρ, Gc, gr⟩ = .error x → Call.onNew p ⟨obs, ρ', Gc', gr⟩ = .error x) ∧
    ∀ ρ Gc G T, Call.onNew p ⟨obs, ρ, Gc, gr⟩ = .ok (G, T) →
      (∀ k, Call.onNew p ⟨obs, k * ρ, Gc, gr⟩ =
        .ok (V3.smul k G, ⟨V3.smul k T.r0, V3.smul k T.r1, V3.smul k T.r2⟩)) ∧
      (∀ k, Call.onNew p ⟨obs, ρ, k * Gc, gr⟩ =
        .ok (V3.smul k G, ⟨V3.smul k T.r0, V3.smul k T.r1, V3.smul k T.r2⟩)) ∧
      (∀ ρ' G' T', Call.onNew p ⟨obs, ρ', Gc, gr⟩ = .ok (G', T') →
        Call.onNew p ⟨obs, ρ + ρ', Gc, gr⟩ = .ok (G.add G', T.add T')) ∧
      (∀ ρ' Gc', ρ' * Gc' = ρ * Gc → Call.onNew p ⟨obs, ρ', Gc', gr⟩ = .ok (G, T)) ∧
      (ρ = 0 ∨ Gc = 0 → G = V3.zeros ∧ T = M3.zeros) := by
  constructor
  · intro ρ Gc ρ' Gc' x h
    rw [onNew_scale hw] at h ⊢
    rcases h1 : Call.onNew p ⟨obs, 1, 1, gr⟩ with y | v <;> rw [h1] at h <;> cases h
    rfl
  · intro ρ Gc G T h
    rw [onNew_scale hw] at h
    rcases h1 : Call.onNew p ⟨obs, 1, 1, gr⟩ with y | ⟨G1, T1⟩ <;> rw [h1] at h <;> simp only [Except.map, Except.ok.injEq, reduceCtorEq] at h
    have key : ∀ ρ' Gc', Call.onNew p ⟨obs, ρ', Gc', gr⟩ = .ok (scaleField (ρ' * Gc') (G1, T1)) := by
      intro ρ' Gc'; rw [onNew_scale hw, h1]; rfl
    have hG : G = V3.smul (ρ * Gc) G1 := (congrArg Prod.fst h).symm
    have hT : T = ⟨V3.smul (ρ * Gc) T1.r0, V3.smul (ρ * Gc) T1.r1, V3.smul (ρ * Gc) T1.r2⟩ := (congrArg Prod.snd h).symm
    subst hG hT
    refine ⟨?_, ?_, ?_, ?_, ?_⟩
    · intro k
      rw [key]
      refine congrArg _ (Prod.ext (V3.ext' ?_ ?_ ?_) (M3.ext' (V3.ext' ?_ ?_ ?_) (V3.ext' ?_ ?_ ?_) (V3.ext' ?_ ?_ ?_))) <;> simp [scaleField] <;> ring
    · intro k
      rw [key]
      refine congrArg _ (Prod.ext (V3.ext' ?_ ?_ ?_) (M3.ext' (V3.ext' ?_ ?_ ?_) (V3.ext' ?_ ?_ ?_) (V3.ext' ?_ ?_ ?_))) <;> simp [scaleField] <;> ring
    · intro ρ' G' T' h'
      rw [key] at h'
      cases h'
      rw [key]
      refine congrArg _ (Prod.ext (V3.ext' ?_ ?_ ?_) (M3.ext' (V3.ext' ?_ ?_ ?_) (V3.ext' ?_ ?_ ?_) (V3.ext' ?_ ?_ ?_))) <;> simp [scaleField, M3.add] <;> ring
    · intro ρ' Gc' he
      rw [key, he]
      rfl
    · intro h0
      have : ρ * Gc = 0 := by rcases h0 with h0 | h0 <;> simp [h0]
      rw [this]
      refine ⟨V3.ext' ?_ ?_ ?_, M3.ext' (V3.ext' ?_ ?_ ?_) (V3.ext' ?_ ?_ ?_) (V3.ext' ?_ ?_ ?_)⟩ <;> simp [M3.zeros]

/-- the same for the body made from a hull -/
theorem C09_hull {h : Hull ℝ} (hh : h.IsHull) {inHull : V3 ℝ → Bool} {p : Poly ℝ} (hp : mkPoly h inHull = .ok p)
    (obs : V3 ℝ) (gr : Bool) {ρ Gc : ℝ} {G : V3 ℝ} {T : M3 ℝ} (hg : Call.onNew p ⟨obs, ρ, Gc, gr⟩ = .ok (G, T)) (k : ℝ) :
    Call.onNew p ⟨obs, k * ρ, Gc, gr⟩ = .ok (V3.smul k G, ⟨V3.smul k T.r0, V3.smul k T.r1, V3.smul k T.r2⟩) :=
  ((C09_linear (wellTwinned_of_hull hh hp) obs gr).2 ρ Gc G T hg).1 k

/-! ### C10 -/

/-- the hull construction of a moved body -/
theorem faces_points_ne {h : Hull ℝ} (hh : h.IsHull) {inHull : V3 ℝ → Bool} {p : Poly ℝ} (hp : mkPoly h inHull = .ok p) :
    ∀ f ∈ p.faces, f.points ≠ [] := by
  intro f hf
  obtain ⟨k, hk⟩ := List.getElem?_of_mem hf
  obtain ⟨s, -, a, b, c, e0, e1, e2, -, -, hpts, -⟩ := edges_of_hull hh hp hk
  rw [hpts]; simp

/-- **C10** A body moved by `t` gives, at the station moved by `t`, exactly the same answer: the same `G` and `T`, or
the same exception. -/
theorem C10_translation {h : Hull ℝ} (hh : h.IsHull) {inHull inHull' : V3 ℝ → Bool} {p p' : Poly ℝ} (t : V3 ℝ)
    (hp : mkPoly h inHull = .ok p) (hp' : mkPoly { h with points := h.points.map (fun q => q.add t) } inHull' = .ok p')
    (obs : V3 ℝ) (ρ Gc : ℝ) (gr : Bool) :
    Call.onNew p' ⟨obs.add t, ρ, Gc, gr⟩ = Call.onNew p ⟨obs, ρ, Gc, gr⟩ := by
  have hm := Motion.mkPoly_map (Motion.translation_proper t) hh hp inHull'
  have hmove : h.move (Motion.translation t) = { h with points := h.points.map (fun q => q.add t) } := by
    unfold Hull.move
    congr 1
    apply List.map_congr_left
    intro a _
    exact Motion.translation_app t a
  rw [hmove, hp'] at hm
  cases hm
  rw [← Motion.translation_app, onNew_closed (wellTwinned_of_hull hh hp),
    onNew_closed (Motion.wellTwinned_map (wellTwinned_of_hull hh hp))]
  exact Motion.facesValue_translation t p obs ρ Gc gr p.faces 0 _ _ (faces_points_ne hh hp)

/-- The moved body can always be constructed. -/
theorem C10_constructs {h : Hull ℝ} (hh : h.IsHull) {inHull : V3 ℝ → Bool} (φ : Motion) (hφ : φ.Proper) :
    ∃ p', mkPoly (h.move φ) inHull = .ok p' := by
  obtain ⟨p, hp⟩ := hull_mkPoly_ok hh inHull
  exact ⟨_, Motion.mkPoly_map hφ hh hp inHull⟩

/-! ### C12 -/

/-- **C12** A body rotated about the origin gives, at the rotated station, the rotated `G` or the same exception. -/
theorem C12_rotation {h : Hull ℝ} (hh : h.IsHull) {inHull inHull' : V3 ℝ → Bool} {p p' : Poly ℝ} {R : M3 ℝ} (hR : IsRotation R)
    (hp : mkPoly h inHull = .ok p) (hp' : mkPoly { h with points := h.points.map R.apply } inHull' = .ok p')
    (obs : V3 ℝ) (ρ Gc : ℝ) (gr : Bool) :
    (Call.onNew p' ⟨R.apply obs, ρ, Gc, gr⟩).map Prod.fst = (Call.onNew p ⟨obs, ρ, Gc, gr⟩).map (fun v => R.apply v.1) := by
  have hm := Motion.mkPoly_map (Motion.rotation_proper hR) hh hp inHull'
  have hmove : h.move (Motion.rotation R) = { h with points := h.points.map R.apply } := by
    unfold Hull.move
    congr 1
    apply List.map_congr_left
    intro a _
    exact Motion.rotation_app R a
  rw [hmove, hp'] at hm
  cases hm
  rw [← Motion.rotation_app, onNew_closed (wellTwinned_of_hull hh hp),
    onNew_closed (Motion.wellTwinned_map (wellTwinned_of_hull hh hp))]
  have := Motion.facesValue_rotation hR p obs ρ Gc gr p.faces 0 V3.zeros M3.zeros M3.zeros (faces_points_ne hh hp)
  rw [apply_zeros] at this
  exact this

/-! ### C21 -/

/-- start of an edge is a corner of its simplex -/
theorem edge_start_corner {h : Hull ℝ} (hh : h.IsHull) {inHull : V3 ℝ → Bool} {p : Poly ℝ} (hp : mkPoly h inHull = .ok p)
    {i j : Nat} {e : Edge ℝ} (he : p.edgeAt i j = some e) : ∃ s, h.simplices[i]? = some s ∧
      (∃ a, Corner s a ∧ e.start = h.pt a) ∧ ∃ b, Corner s b ∧ e.fin = h.pt b := by
  obtain ⟨f, hf, hfe⟩ := Option.bind_eq_some_iff.mp he
  obtain ⟨s, hs, a, b, c, e0, e1, e2, hE, hperm, -, h0, h1, h2⟩ := edges_of_hull hh hp hf
  have hc : ∀ x ∈ [a, b, c], Corner s x := by
    intro x hx
    have := hperm.mem_iff.mp hx
    simpa [Corner] using this
  have hmem := List.mem_of_getElem? hfe
  rw [hE] at hmem
  simp only [List.mem_cons, List.not_mem_nil, or_false] at hmem
  refine ⟨s, hs, ?_⟩
  rcases hmem with rfl | rfl | rfl
  · exact ⟨⟨a, hc a (by simp), h0.1⟩, ⟨b, hc b (by simp), h0.2⟩⟩
  · exact ⟨⟨b, hc b (by simp), h1.1⟩, ⟨c, hc c (by simp), h1.2⟩⟩
  · exact ⟨⟨c, hc c (by simp), h2.1⟩, ⟨a, hc a (by simp), h2.2⟩⟩

/-- **C21** At a corner of one of its triangles the body raises `ZeroDivisionError`, with or without gradient. -/
theorem C21_corner {h : Hull ℝ} (hh : h.IsHull) {inHull : V3 ℝ → Bool} {p : Poly ℝ} (hp : mkPoly h inHull = .ok p)
    {s : Nat × Nat × Nat} (hs : s ∈ h.simplices) {v : Nat} (hv : Corner s v) (ρ Gc : ℝ) (gr : Bool) :
    Call.onNew p ⟨h.pt v, ρ, Gc, gr⟩ = .error .zeroDivisionError := by
  classical
  have hw := wellTwinned_of_hull hh hp
  obtain ⟨hlen, -⟩ := C24_counter_clockwise hh hp
  set obs := h.pt v
  -- the first face with an edge that starts at the station
  have hex : ∃ i, ∃ j e, p.edgeAt i j = some e ∧ e.start = obs := by
    obtain ⟨k, hk⟩ := List.getElem?_of_mem hs
    have hkl : k < p.faces.length := by rw [hlen]; exact (List.getElem?_eq_some_iff.mp hk).1
    obtain ⟨s', hs', a, b, c, e0, e1, e2, hE, hperm, -, h0, h1, h2⟩ := edges_of_hull hh hp (List.getElem?_eq_getElem hkl)
    rw [hk] at hs'
    cases hs'
    have hmem : v ∈ [a, b, c] := hperm.mem_iff.mpr (by simpa [Corner] using hv)
    have hedge : ∀ j e, [e0, e1, e2][j]? = some e → p.edgeAt k j = some e := by
      intro j e hj
      unfold Poly.edgeAt
      rw [List.getElem?_eq_getElem hkl, Option.bind_some, hE]
      exact hj
    simp only [List.mem_cons, List.not_mem_nil, or_false] at hmem
    rcases hmem with rfl | rfl | rfl
    · exact ⟨k, 0, e0, hedge 0 e0 rfl, h0.1⟩
    · exact ⟨k, 1, e1, hedge 1 e1 rfl, h1.1⟩
    · exact ⟨k, 2, e2, hedge 2 e2 rfl, h2.1⟩
  obtain ⟨j, e, he, hst⟩ := Nat.find_spec hex
  set i := Nat.find hex
  have hmin : ∀ i' j' e', p.edgeAt i' j' = some e' → e'.start = obs → i ≤ i' :=
    fun i' j' e' h1 h2 => Nat.find_min' hex ⟨j', e', h1, h2⟩
  obtain ⟨f, hf, hfe⟩ := Option.bind_eq_some_iff.mp he
  obtain ⟨i', j', f', e', htw, hf', hfe', -, -, -, -, hes, hef, -⟩ := C25_twins hh hp hf hfe
  -- the face of the twin has an edge starting at the station too
  have hi' : i ≤ i' := by
    obtain ⟨s', hs', a, b, c, e0, e1, e2, hE, hperm, -, h0, h1, h2⟩ := edges_of_hull hh hp hf'
    have hedge : ∀ j e, [e0, e1, e2][j]? = some e → p.edgeAt i' j = some e := by
      intro j e hj
      unfold Poly.edgeAt
      rw [hf', Option.bind_some, hE]
      exact hj
    have hmem := List.mem_of_getElem? hfe'
    rw [hE] at hmem
    simp only [List.mem_cons, List.not_mem_nil, or_false] at hmem
    rw [hst] at hef
    rcases hmem with rfl | rfl | rfl
    · exact hmin i' 1 e1 (hedge 1 e1 rfl) (by rw [h1.1, ← h0.2, hef])
    · exact hmin i' 2 e2 (hedge 2 e2 rfl) (by rw [h2.1, ← h1.2, hef])
    · exact hmin i' 0 e0 (hedge 0 e0 rfl) (by rw [h0.1, ← h2.2, hef])
  have hval : edgeValue p obs gr i e = .error .zeroDivisionError := by
    unfold edgeValue
    rw [htw]
    simp only [if_neg (not_lt.mpr hi')]
    exact edgeIntegral_at_start hst gr
  have hne : ∀ (k : Nat) f, p.faces[k]? = some f → f.edges ≠ [] := by
    intro k f hk
    obtain ⟨-, -, -, -, -, e0, e1, e2, hE, -⟩ := edges_of_hull hh hp hk
    rw [hE]; simp
  rw [onNew_closed hw]
  apply facesValue_raises
  · intro k f y hk hy
    rw [Nat.zero_add] at hy
    exact faceValue_error hw hk (hne k f hk) hy
  · refine ⟨i, f, hf, ?_⟩
    rw [Nat.zero_add]
    rcases hv : faceValue p obs ρ Gc gr i f with y | v
    · rw [faceValue_error hw hf (hne i f hf) hv]
    · exfalso
      unfold faceValue at hv
      split at hv
      · cases hv
      · split at hv
        · cases hv
        · next vs hvs =>
          have : ∀ (es : List (Edge ℝ)) vs, e ∈ es → edgesValue p obs gr i es ≠ .ok vs := by
            intro es
            induction es with
            | nil => intro vs hm; cases hm
            | cons d es ih =>
              intro vs hm hx
              simp only [edgesValue] at hx
              rcases List.mem_cons.mp hm with rfl | hm
              · rw [hval] at hx; cases hx
              · split at hx
                · cases hx
                · split at hx
                  · cases hx
                  · next h3 => exact ih _ hm h3
          exact this _ _ (List.mem_of_getElem? hfe) hvs

/-- extreme points of the body are corners of triangles -/
theorem extreme_corner {h : Hull ℝ} (hh : h.IsHull) {q : P3} (hq : q ∈ Set.extremePoints ℝ h.body) :
    ∃ s ∈ h.simplices, ∃ v, Corner s v ∧ q = (h.pt v).toP := by
  have hb : q ∈ h.body := hq.1
  have hfr : q ∈ frontier h.body := by
    refine ⟨subset_closure hb, fun hi => ?_⟩
    obtain ⟨t1, ht1, m1⟩ := exists_step hi (1, 0, 0)
    obtain ⟨t2, ht2, m2⟩ := exists_step hi (-1, 0, 0)
    have hseg : q ∈ openSegment ℝ (q + t1 • ((1, 0, 0) : P3)) (q + t2 • ((-1, 0, 0) : P3)) := by
      refine ⟨t2 / (t1 + t2), t1 / (t1 + t2), by positivity, by positivity, by field_simp; ring, ?_⟩
      have : t1 + t2 ≠ 0 := by positivity
      refine Prod.ext ?_ (Prod.ext ?_ ?_) <;> simp <;> field_simp <;> ring
    have := hq.2 m1 m2 hseg
    have := congrArg Prod.fst this
    simp at this
    exact ht1.ne' this
  rw [hh.cover] at hfr
  obtain ⟨s, hs, ht⟩ := hfr
  refine ⟨s, hs, ?_⟩
  have hsub : h.tri s ⊆ h.body := by
    apply convexHull_min _ (convex_convexHull ℝ _)
    intro x hx
    simp only [Set.mem_insert_iff, Set.mem_singleton_iff] at hx
    rcases hx with rfl | rfl | rfl
    · exact Hull.mem_body (Hull.pt_mem (hh.cornerIndex s hs _ (.inl rfl)))
    · exact Hull.mem_body (Hull.pt_mem (hh.cornerIndex s hs _ (.inr (.inl rfl))))
    · exact Hull.mem_body (Hull.pt_mem (hh.cornerIndex s hs _ (.inr (.inr rfl))))
  have hx := extremePoints_convexHull_subset (inter_extremePoints_subset_extremePoints_of_subset hsub ⟨ht, hq⟩)
  simp only [Set.mem_insert_iff, Set.mem_singleton_iff] at hx
  rcases hx with hx | hx | hx
  · exact ⟨_, .inl rfl, hx⟩
  · exact ⟨_, .inr (.inl rfl), hx⟩
  · exact ⟨_, .inr (.inr rfl), hx⟩

/-- **C21** At a vertex (extreme point) of the body `get_gravity` raises `ZeroDivisionError`. -/
theorem C21_vertex {h : Hull ℝ} (hh : h.IsHull) {inHull : V3 ℝ → Bool} {p : Poly ℝ} (hp : mkPoly h inHull = .ok p)
    {obs : V3 ℝ} (hv : obs.toP ∈ Set.extremePoints ℝ h.body) (ρ Gc : ℝ) (gr : Bool) :
    Call.onNew p ⟨obs, ρ, Gc, gr⟩ = .error .zeroDivisionError := by
  obtain ⟨s, hs, v, hc, he⟩ := extreme_corner hh hv
  rw [V3.toP_injective he]
  exact C21_corner hh hp hs hc ρ Gc gr

/-! ### C22 -/

/-- **C22** Without gradient, a query returns a value at every station that is not a corner of a triangle of the body. -/
theorem C22_total {h : Hull ℝ} (hh : h.IsHull) {inHull : V3 ℝ → Bool} {p : Poly ℝ} (hp : mkPoly h inHull = .ok p)
    {obs : V3 ℝ} (hv : ∀ s ∈ h.simplices, ∀ i, Corner s i → h.pt i ≠ obs) (ρ Gc : ℝ) :
    ∃ G T, Call.onNew p ⟨obs, ρ, Gc, false⟩ = .ok (G, T) := by
  have hw := wellTwinned_of_hull hh hp
  rw [onNew_closed hw]
  have hok : ∀ i j e, p.edgeAt i j = some e → ∃ v, edgeIntegral e obs false = .ok v := by
    intro i j e he
    obtain ⟨s, hs, ⟨a, ha, hst⟩, -⟩ := edge_start_corner hh hp he
    apply edgeIntegral_ok
    rw [hst]
    exact hv s (List.mem_of_getElem? hs) a ha
  obtain ⟨⟨G, T⟩, hGT⟩ := facesValue_ok (p := p) (obs := obs) (ρ := ρ) (Gc := Gc) (gr := false) p.faces 0 V3.zeros M3.zeros (by
    intro k f hk
    rw [Nat.zero_add]
    obtain ⟨w, hw'⟩ := omegaValue_ok f obs false
    obtain ⟨vs, hvs, hl⟩ := edgesValue_ok (p := p) (obs := obs) (gr := false) (i := k) (es := f.edges) (by
      intro e he
      obtain ⟨j, hj⟩ := List.getElem?_of_mem he
      have hE : p.edgeAt k j = some e := by unfold Poly.edgeAt; rw [hk]; exact hj
      obtain ⟨i', j', e', ht, he', -, -⟩ := hw k j e hE
      unfold edgeValue
      rw [ht]
      simp only [he']
      split
      · obtain ⟨v, hv⟩ := hok i' j' e' he'
        exact ⟨pairNeg v, by rw [hv]; rfl⟩
      · exact hok k j e hE)
    obtain ⟨-, -, -, -, -, e0, e1, e2, hE, -⟩ := edges_of_hull hh hp hk
    rw [hE] at hl
    unfold faceValue
    rw [hw', hvs]
    rcases vs with _ | ⟨v, vs⟩
    · cases hl
    · exact ⟨_, rfl⟩)
  exact ⟨G, T, hGT⟩

/-- The stations where a query without gradient raises are exactly the corners. -/
theorem C22_raises_iff {h : Hull ℝ} (hh : h.IsHull) {inHull : V3 ℝ → Bool} {p : Poly ℝ} (hp : mkPoly h inHull = .ok p)
    (obs : V3 ℝ) (ρ Gc : ℝ) : (∃ x, Call.onNew p ⟨obs, ρ, Gc, false⟩ = .error x) ↔ ∃ s ∈ h.simplices, ∃ i, Corner s i ∧ h.pt i = obs := by
  constructor
  · rintro ⟨x, hx⟩
    by_contra hc
    push Not at hc
    obtain ⟨G, T, hok⟩ := C22_total hh hp (fun s hs i hi => hc s hs i hi) ρ Gc
    rw [hx] at hok
    cases hok
  · rintro ⟨s, hs, i, hi, rfl⟩
    exact ⟨_, C21_corner hh hp hs hi ρ Gc false⟩

/-! ### the hypotheses are met: the unit tetrahedron -/

/-- there is such a body, and a station where the query returns -/
example : ∃ p, mkPoly tetra (fun _ => true) = .ok p ∧ p.WellTwinned ∧ ∃ G T, Call.onNew p ⟨⟨2, 3, 5⟩, 1, 1, false⟩ = .ok (G, T) := by
  obtain ⟨p, hp⟩ := hull_mkPoly_ok tetra_isHull (fun _ => true)
  refine ⟨p, hp, wellTwinned_of_hull tetra_isHull hp, C22_total tetra_isHull hp ?_ 1 1⟩
  intro s _ i _ he
  have hlt : ∀ i, (tetra.pt i).z ≤ 1 := by
    intro i
    rcases i with _ | _ | _ | _ | i
    · show (0 : ℝ) ≤ 1; norm_num
    · show (0 : ℝ) ≤ 1; norm_num
    · show (0 : ℝ) ≤ 1; norm_num
    · show (1 : ℝ) ≤ 1; norm_num
    · show (0 : ℝ) ≤ 1; norm_num
  have := hlt i
  rw [he] at this
  norm_num at this

/-- and a rotation that is not trivial -/
example : IsRotation ⟨⟨0, -1, 0⟩, ⟨1, 0, 0⟩, ⟨0, 0, 1⟩⟩ := by
  refine ⟨?_, ?_, ?_, ?_⟩ <;> simp [rdot]

/-- the origin is a corner of the tetrahedron: the query raises there -/
example {p : Poly ℝ} (hp : mkPoly tetra (fun _ => true) = .ok p) :
    Call.onNew p ⟨⟨0, 0, 0⟩, 2670, 1, true⟩ = .error .zeroDivisionError :=
  C21_corner tetra_isHull hp (s := (0, 1, 2)) (by simp [tetra]) (v := 0) (.inl rfl) 2670 1 true

end
end Geec
