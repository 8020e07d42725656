import Verif.Props.HullExists
/-
C103 for the gradient: the tensor in floating point, with any hull library, for queries and for runs.
-/
namespace Geec
open Filter
noncomputable section

/-- what holds for every triangulation of the points, up to a constant times the unit roundoff, holds for whatever triangulation of the rounded points -/
theorem any_triangulation {pts : List (V3 ℝ)} (hf : Firm pts) {Q : (ℝ → ℝ) → ℝ → Hull ℝ → Prop} (mono : ∀ {rnd a b h}, a ≤ b → Q rnd a h → Q rnd b h)
    (key : ∀ H : Hull ℝ, H.points = pts → H.IsHull → ∃ K, 0 < K ∧ ∀ (rnd : ℝ → ℝ) (δ : ℝ), 0 < δ → δ ≤ 1 / K →
      (∀ a, |a| ≤ K → |rnd a - a| ≤ δ * max 1 |a|) → Q rnd (K * δ) { H with points := pts.map (V3.rounded rnd) }) :
    ∃ K, 0 < K ∧ ∀ (rnd : ℝ → ℝ) (δ : ℝ), 0 < δ → δ ≤ 1 / K → (∀ a, |a| ≤ K → |rnd a - a| ≤ δ * max 1 |a|) → ∀ h' : Hull ℝ,
      h'.points = pts.map (V3.rounded rnd) → h'.IsHull → h'.Tidy → Q rnd (K * δ) h' := by
  obtain ⟨K0, hK0, k0⟩ := hull_of_rounded hf
  have hfin := finite_hulls pts
  have key : ∀ H ∈ {H : Hull ℝ | H.points = pts ∧ H.IsHull ∧ H.Tidy}, ∃ K, 0 < K ∧ ∀ (rnd : ℝ → ℝ) (δ : ℝ), 0 < δ → δ ≤ 1 / K →
      (∀ a, |a| ≤ K → |rnd a - a| ≤ δ * max 1 |a|) → Q rnd (K * δ) { H with points := pts.map (V3.rounded rnd) } := fun H hH => key H hH.1 hH.2.1
  choose! k hk hkey using key
  obtain ⟨K1, hK1⟩ := (hfin.image k).bddAbove
  refine ⟨max K0 K1, lt_max_of_lt_left hK0, fun rnd δ hδ hδK hr h' hp hh' ht => ?_⟩
  have hH : { h' with points := pts } ∈ {H : Hull ℝ | H.points = pts ∧ H.IsHull ∧ H.Tidy} :=
    ⟨rfl, k0 rnd δ hδ (hδK.trans (one_div_le_one_div_of_le hK0 (le_max_left _ _))) (fun a ha => hr a (ha.trans (le_max_left _ _))) h' hp hh', ht⟩
  have hle : k { h' with points := pts } ≤ max K0 K1 := (hK1 ⟨_, hH, rfl⟩).trans (le_max_right _ _)
  have := hkey _ hH rnd δ hδ (hδK.trans (one_div_le_one_div_of_le (hk _ hH) hle)) (fun a ha => hr a (ha.trans hle))
  have e' : { ({ h' with points := pts } : Hull ℝ) with points := pts.map (V3.rounded rnd) } = h' := by
    rw [← hp]
  rw [e'] at this
  exact mono (mul_le_mul_of_nonneg_right hle hδ.le) this

/-- two matrices that are the derivative of the same field are the same -/
theorem derivative_unique {F : V3 ℝ → V3 ℝ} {k : ℝ} {s : V3 ℝ} {D E : M3 ℝ}
    (hD : ∀ d, HasDerivAt (fun x => k * (F (s.add (V3.smul x d))).x) (rdot D.r0 d) 0 ∧ HasDerivAt (fun x => k * (F (s.add (V3.smul x d))).y) (rdot D.r1 d) 0 ∧
      HasDerivAt (fun x => k * (F (s.add (V3.smul x d))).z) (rdot D.r2 d) 0)
    (hE : ∀ d, HasDerivAt (fun x => k * (F (s.add (V3.smul x d))).x) (rdot E.r0 d) 0 ∧ HasDerivAt (fun x => k * (F (s.add (V3.smul x d))).y) (rdot E.r1 d) 0 ∧
      HasDerivAt (fun x => k * (F (s.add (V3.smul x d))).z) (rdot E.r2 d) 0) : D = E := by
  have key : ∀ d, rdot D.r0 d = rdot E.r0 d ∧ rdot D.r1 d = rdot E.r1 d ∧ rdot D.r2 d = rdot E.r2 d := fun d =>
    ⟨(hD d).1.unique (hE d).1, (hD d).2.1.unique (hE d).2.1, (hD d).2.2.unique (hE d).2.2⟩
  obtain ⟨a0, a1, a2⟩ := key ⟨1, 0, 0⟩
  obtain ⟨b0, b1, b2⟩ := key ⟨0, 1, 0⟩
  obtain ⟨c0, c1, c2⟩ := key ⟨0, 0, 1⟩
  obtain ⟨⟨_, _, _⟩, ⟨_, _, _⟩, ⟨_, _, _⟩⟩ := D
  obtain ⟨⟨_, _, _⟩, ⟨_, _, _⟩, ⟨_, _, _⟩⟩ := E
  simp only [rdot, mul_one, mul_zero, add_zero, zero_add] at a0 a1 a2 b0 b1 b2 c0 c1 c2
  subst a0 a1 a2 b0 b1 b2 c0 c1 c2
  rfl

/-- **C103**, the gradient in floating point with any hull library: let the points of a body be firm, and the station off the surface, off the lines of the edges and
without ties, for all triangulations of the points; let `D` be the derivative of the field, in Eötvös.  The points, the station, the density and the constant are
rounded with the unit roundoff `δ ≤ 1 / K`, the hull library triangulates the rounded points in any way, and all operations are rounded.  The polyhedron is built
and the tensor that is returned is within `K δ` of `D`. -/
theorem C103_tensor {pts : List (V3 ℝ)} (hf : Firm pts) {s : V3 ℝ}
    (hs : ∀ h : Hull ℝ, h.points = pts → h.IsHull → h.Decided s ∧ h.OffLines s ∧ h.TensorRegular s) (ρ Gc : ℝ) {D : M3 ℝ}
    (hD : ∀ d, HasDerivAt (fun x => 1000000000 * Gc * ρ * (attraction (convexHull ℝ {q | ∃ p ∈ pts, q = p.toP}) (s.add (V3.smul x d))).x) (rdot D.r0 d) 0 ∧
      HasDerivAt (fun x => 1000000000 * Gc * ρ * (attraction (convexHull ℝ {q | ∃ p ∈ pts, q = p.toP}) (s.add (V3.smul x d))).y) (rdot D.r1 d) 0 ∧
      HasDerivAt (fun x => 1000000000 * Gc * ρ * (attraction (convexHull ℝ {q | ∃ p ∈ pts, q = p.toP}) (s.add (V3.smul x d))).z) (rdot D.r2 d) 0) :
    ∃ K, 0 < K ∧ ∀ (rnd : ℝ → ℝ) (δ : ℝ), 0 < δ → δ ≤ 1 / K → (∀ a, |a| ≤ K → |rnd a - a| ≤ δ * max 1 |a|) → ∀ (h' : Hull ℝ) (inHull' : V3 ℝ → Bool),
      h'.points = pts.map (V3.rounded rnd) → h'.IsHull → h'.Tidy → ∃ p' G' T',
      @mkPoly ℝ (roundArith rnd) h' inHull' = .ok p' ∧
      @Call.onNew ℝ (roundArith rnd) p' ⟨s.rounded rnd, rnd ρ, rnd Gc, true⟩ = .ok (G', T') ∧ NearM (K * δ) T' D := by
  obtain ⟨K, h0, k⟩ := any_triangulation hf (Q := fun rnd ε h' => ∀ inHull' : V3 ℝ → Bool, ∃ p' G' T', @mkPoly ℝ (roundArith rnd) h' inHull' = .ok p' ∧
      @Call.onNew ℝ (roundArith rnd) p' ⟨s.rounded rnd, rnd ρ, rnd Gc, true⟩ = .ok (G', T') ∧ NearM ε T' D) (by
    intro rnd a b h hab hQ inHull'
    obtain ⟨p', G', T', h1, h2, h3⟩ := hQ inHull'
    exact ⟨p', G', T', h1, h2, h3.mono hab⟩) (by
    rintro H rfl hH
    obtain ⟨k1, k2, k3⟩ := hs H rfl hH
    obtain ⟨p, hp⟩ := hull_mkPoly_ok hH (fun _ => true)
    obtain ⟨G, T, hv⟩ := C19_newton_returned hH hp k3 ρ Gc
    obtain ⟨K, h0, k⟩ := C101_roundoff hH hp k1 hv
    have hT : T = D := derivative_unique (F := attraction H.body) (k := 1000000000 * Gc * ρ) (fun d => C19_newton hH hp k3 hv d) hD
    refine ⟨K, h0, fun rnd δ h1 h2 h3 inHull' => ?_⟩
    obtain ⟨p', G', T', j1, j2, -, j4⟩ := k rnd δ h1 h2 h3 inHull'
    exact ⟨p', G', T', j1, j2, hT ▸ j4 k2⟩)
  exact ⟨K, h0, fun rnd δ h1 h2 h3 h' inHull' e1 e2 e3 => k rnd δ h1 h2 h3 h' e1 e2 e3 inHull'⟩

/-! ### runs -/

/-- the same for the bodies of a run -/
theorem any_triangulations {ms : List (Mass ℝ)} (hf : ∀ m ∈ ms, Firm m.dataset.coords.rows) {Q : (ℝ → ℝ) → ℝ → HullLib ℝ → Prop}
    (mono : ∀ {rnd a b lib}, a ≤ b → Q rnd a lib → Q rnd b lib)
    (key : ∀ lib : HullLib ℝ, lib.Honest → (∀ m ∈ ms, ∃ h, lib.convexHull m.dataset.coords.rows = .ok h) → ∃ K, 0 < K ∧ ∀ (rnd : ℝ → ℝ) (δ : ℝ), 0 < δ → δ ≤ 1 / K →
      (∀ a, |a| ≤ K → |rnd a - a| ≤ δ * max 1 |a|) → ∀ lib' : HullLib ℝ, (∀ m ∈ ms, ∀ H, lib.convexHull m.dataset.coords.rows = .ok H →
        lib'.convexHull (m.dataset.coords.rows.map (V3.rounded rnd)) = .ok { H with points := H.points.map (V3.rounded rnd) }) → Q rnd (K * δ) lib') :
    ∃ K, 0 < K ∧ ∀ (rnd : ℝ → ℝ) (δ : ℝ), 0 < δ → δ ≤ 1 / K → (∀ a, |a| ≤ K → |rnd a - a| ≤ δ * max 1 |a|) → ∀ lib : HullLib ℝ,
      (∀ m ∈ ms, ∃ H, lib.convexHull (m.dataset.coords.rows.map (V3.rounded rnd)) = .ok H ∧ H.points = m.dataset.coords.rows.map (V3.rounded rnd) ∧
        H.IsHull ∧ H.Tidy) → Q rnd (K * δ) lib := by
  have := rows_finite ms
  have hgr : ∀ r : Rows ms, Firm r.1 := by
    rintro ⟨_, m, hm, rfl⟩
    exact hf m hm
  choose k0 k0pos k0key using fun r : Rows ms => hull_of_rounded (hgr r)
  obtain ⟨K0, hK0⟩ := (Set.finite_range k0).bddAbove
  let C : Rows ms → Set (Hull ℝ) := fun r => {h : Hull ℝ | h.points = r.1 ∧ h.IsHull ∧ h.Tidy}
  have hfin : ({c : Rows ms → Hull ℝ | ∀ r, c r ∈ C r}).Finite := Set.Finite.pi' fun r => finite_hulls r.1
  have key : ∀ c ∈ {c : Rows ms → Hull ℝ | ∀ r, c r ∈ C r}, ∃ K, 0 < K ∧ ∀ (rnd : ℝ → ℝ) (δ : ℝ), 0 < δ → δ ≤ 1 / K →
      (∀ a, |a| ≤ K → |rnd a - a| ≤ δ * max 1 |a|) → ∀ lib' : HullLib ℝ,
      (∀ m ∈ ms, ∀ H, (pick ms c).convexHull m.dataset.coords.rows = .ok H →
        lib'.convexHull (m.dataset.coords.rows.map (V3.rounded rnd)) = .ok { H with points := H.points.map (V3.rounded rnd) }) → Q rnd (K * δ) lib' :=
    fun c hc => key (pick ms c) (pick_honest fun r => ⟨(hc r).1, (hc r).2.1⟩) fun m hm => ⟨_, pick_eq c hm⟩
  choose! k hk hkey using key
  obtain ⟨K1, hK1⟩ := (hfin.image k).bddAbove
  have hKpos : 0 < max 1 (max K0 K1) := lt_max_of_lt_left one_pos
  refine ⟨max 1 (max K0 K1), hKpos, fun rnd δ hδ hδK hr lib hl => ?_⟩
  have hl' : ∀ r : Rows ms, ∃ H, lib.convexHull (r.1.map (V3.rounded rnd)) = .ok H ∧ H.points = r.1.map (V3.rounded rnd) ∧ H.IsHull ∧ H.Tidy := by
    rintro ⟨_, m, hm, rfl⟩
    exact hl m hm
  choose H H1 H2 H3 H4 using hl'
  let c : Rows ms → Hull ℝ := fun r => { H r with points := r.1 }
  have hc : c ∈ {c : Rows ms → Hull ℝ | ∀ r, c r ∈ C r} := by
    intro r
    have hle : k0 r ≤ max 1 (max K0 K1) := (hK0 ⟨r, rfl⟩).trans ((le_max_left _ _).trans (le_max_right _ _))
    exact ⟨rfl, k0key r rnd δ hδ (hδK.trans (one_div_le_one_div_of_le (k0pos r) hle)) (fun a ha => hr a (ha.trans hle)) (H r) (H2 r) (H3 r), H4 r⟩
  have hle : k c ≤ max 1 (max K0 K1) := (hK1 ⟨_, hc, rfl⟩).trans ((le_max_right _ _).trans (le_max_right _ _))
  refine mono (mul_le_mul_of_nonneg_right hle hδ.le) (hkey c hc rnd δ hδ (hδK.trans (one_div_le_one_div_of_le (hk _ hc) hle)) (fun a ha => hr a (ha.trans hle)) lib (by
    intro m hm H' hH'
    rw [pick_eq c hm] at hH'
    cases hH'
    rw [H1 ⟨_, m, hm, rfl⟩]
    have e : ({ H ⟨_, m, hm, rfl⟩ with points := m.dataset.coords.rows.map (V3.rounded rnd) } : Hull ℝ) = H ⟨_, m, hm, rfl⟩ := by
      rw [← H2 ⟨_, m, hm, rfl⟩]
    exact congrArg Except.ok e.symm))

/-- the nine columns behind the coordinates of a station: the attraction of the bodies in mGal and its derivatives in Eötvös, for equal densities -/
def fieldColumns (ms : List (Mass ℝ)) (ρ Gc : ℝ) (p : V3 ℝ) : List ℝ :=
  [100000 * Gc * ρ * sumOver ms (fun B => (attraction B p).x), 100000 * Gc * ρ * sumOver ms (fun B => (attraction B p).y),
    100000 * Gc * ρ * sumOver ms (fun B => (attraction B p).z),
    1000000000 * Gc * ρ * sumOver ms (fun B => (tidal B p).r0.x), 1000000000 * Gc * ρ * sumOver ms (fun B => (tidal B p).r0.y),
    1000000000 * Gc * ρ * sumOver ms (fun B => (tidal B p).r0.z), 1000000000 * Gc * ρ * sumOver ms (fun B => (tidal B p).r1.y),
    1000000000 * Gc * ρ * sumOver ms (fun B => (tidal B p).r1.z), 1000000000 * Gc * ρ * sumOver ms (fun B => (tidal B p).r2.z)]

/-- **C101** with C69, the whole table: a plain configuration with bodies of equal density and observation points outside, off the lines of the edges and without ties.
With all numbers rounded on reading and after every operation, `geec run --gradient` returns a table whose line of the i-th point holds its rounded coordinates and, to
within `K δ`, the attraction of the bodies and the integrals of its derivatives at the point as written. -/
theorem C101_run_tidal (g : Geodesy ℝ) (o : Outside ℝ) (lib : HullLib ℝ) (hlib : lib.Honest) (cfg : View ℝ) (l : List (View ℝ)) (hcfg : PlainConfig cfg l)
    (hshow : configShow cfg = .ok ()) (ms : List (Mass ℝ)) (hms : getMasses g o cfg = .ok ms) (hne : ms ≠ []) (ob : Observer ℝ)
    (hob : getObserver g o cfg = .ok ob) (hne' : ob.dataset.coords.rows ≠ []) (hhull : ∀ m ∈ ms, ∃ h, lib.convexHull m.dataset.coords.rows = .ok h)
    (ρ Gc : ℝ) (hρ : ∀ m ∈ ms, m.density = ρ ∧ m.gravityConstant = Gc)
    (hd : ∀ p ∈ ob.dataset.coords.rows, DecidedPoint lib ms p ∧ OffLinesPoint lib ms p ∧ OutsidePoint lib ms p) :
    ∃ K, 0 < K ∧ ∀ (rnd : ℝ → ℝ) (δ : ℝ), 0 < δ → δ ≤ 1 / K → (∀ a, |a| ≤ K → |rnd a - a| ≤ δ * max 1 |a|) → ∀ lib' : HullLib ℝ,
      (∀ m ∈ ms, ∀ H, lib.convexHull m.dataset.coords.rows = .ok H →
        lib'.convexHull (m.dataset.coords.rows.map (V3.rounded rnd)) = .ok { H with points := H.points.map (V3.rounded rnd) }) →
      ∃ t, @runTable ℝ (roundArith rnd) g (o.mapNum rnd) lib' (cfg.mapNum rnd) true = .ok t ∧ t.rows.length = ob.dataset.coords.rows.length ∧
      ∀ (i : Nat) (p : V3 ℝ), ob.dataset.coords.rows[i]? = some p →
        ∃ row, t.rows[i]? = some row ∧ row.take 3 = [rnd p.x, rnd p.y, rnd p.z] ∧
          List.Forall₂ (fun a b => |a - b| ≤ K * δ) (row.drop 3) (fieldColumns ms ρ Gc p) := by
  have hp := plain_reading hcfg g o
  have hcm := (hp realArith).2.2.1 ms hms
  have hco := (hp realArith).2.2.2 ob hob
  obtain ⟨ps, hps⟩ := polys_exist hlib ms hhull
  have hr := of_plain hms hob hcm hco hps
  obtain ⟨t0, ht0⟩ := run_returns_of hr hshow hne hne' (gr := true) (by
    intro m hm H q hH hq p hp ρ Gc
    obtain ⟨G, T, hv⟩ := C19_newton_returned (hlib _ _ hH).2 hq ((hd p hp).2.2 m hm H hH).1 ρ Gc
    exact ⟨_, hv⟩)
  have hlen : t0.rows.length = ob.dataset.coords.rows.length := by
    obtain ⟨r', _, _, hr', _, _, _, hrows⟩ := runTable_ok ht0
    obtain rfl := hr'.unique hr
    exact hrows.length_eq.symm
  obtain ⟨K, hK, k⟩ := C101_run g o lib hlib cfg l hcfg true t0 ht0 ms hms ob hob (fun p hp => (hd p hp).1)
  refine ⟨K, hK, fun rnd δ hδ hδK hr' lib' hl => ?_⟩
  obtain ⟨t, h1, -, h3⟩ := k rnd δ hδ hδK hr' lib' hl
  refine ⟨t, h1, h3.length_eq.trans hlen, fun i p hi => ?_⟩
  have hout := hd p (List.mem_of_getElem? hi)
  obtain ⟨row0, e0, -, e1⟩ := @C69_newton g o lib hlib cfg true t0 _ ht0 hr ρ Gc hρ i p hi (fun m hm H hH => (hout.2.2 m hm H hH).1.regular)
  obtain ⟨row0', e0', e1'⟩ := @C69_tidal g o lib hlib cfg t0 _ ht0 hr ρ Gc hρ i p hi hout.2.2
  rw [e0] at e0'
  cases e0'
  obtain ⟨row, e2, -, -, e3, -, e4⟩ := forall₂_get h3.flip e0
  have e4 := e4 fun p hp => (hd p hp).2.1
  have hrow0 : row0 = [p.x, p.y, p.z] ++ fieldColumns ms ρ Gc p := by
    rw [← List.take_append_drop 6 row0, e1, e1']
    rfl
  refine ⟨row, e2, ?_, ?_⟩
  · rw [e3, hrow0]
    rfl
  · have := List.forall₂_drop 3 e4
    rw [hrow0] at this
    exact this

/-- **C103** `geec run --gradient` in floating point, with any hull library: the whole table.  As `C103_run`, with observation points outside the bodies, off the lines of
the edges and without ties, for all triangulations of the points. -/
theorem C103_run_tidal (g : Geodesy ℝ) (o : Outside ℝ) (cfg : View ℝ) (l : List (View ℝ)) (hcfg : PlainConfig cfg l)
    (hshow : configShow cfg = .ok ()) (ms : List (Mass ℝ)) (hms : getMasses g o cfg = .ok ms) (hne : ms ≠ []) (ob : Observer ℝ)
    (hob : getObserver g o cfg = .ok ob) (hne' : ob.dataset.coords.rows ≠ []) (ρ Gc : ℝ) (hρ : ∀ m ∈ ms, m.density = ρ ∧ m.gravityConstant = Gc)
    (hf : ∀ m ∈ ms, Firm m.dataset.coords.rows)
    (hd : ∀ m ∈ ms, ∀ h : Hull ℝ, h.points = m.dataset.coords.rows → h.IsHull → ∀ p ∈ ob.dataset.coords.rows,
      h.Decided p ∧ h.OffLines p ∧ h.TensorRegular p ∧ p.toP ∉ h.body) :
    ∃ K, 0 < K ∧ ∀ (rnd : ℝ → ℝ) (δ : ℝ), 0 < δ → δ ≤ 1 / K → (∀ a, |a| ≤ K → |rnd a - a| ≤ δ * max 1 |a|) → ∀ lib : HullLib ℝ,
      (∀ m ∈ ms, ∃ H, lib.convexHull (m.dataset.coords.rows.map (V3.rounded rnd)) = .ok H ∧ H.points = m.dataset.coords.rows.map (V3.rounded rnd) ∧
        H.IsHull ∧ H.Tidy) →
      ∃ t, @runTable ℝ (roundArith rnd) g (o.mapNum rnd) lib (cfg.mapNum rnd) true = .ok t ∧ t.rows.length = ob.dataset.coords.rows.length ∧
      ∀ (i : Nat) (p : V3 ℝ), ob.dataset.coords.rows[i]? = some p →
        ∃ row, t.rows[i]? = some row ∧ row.take 3 = [rnd p.x, rnd p.y, rnd p.z] ∧
          List.Forall₂ (fun a b => |a - b| ≤ K * δ) (row.drop 3) (fieldColumns ms ρ Gc p) := by
  refine any_triangulations hf (Q := fun rnd ε lib => ∃ t, @runTable ℝ (roundArith rnd) g (o.mapNum rnd) lib (cfg.mapNum rnd) true = .ok t ∧
      t.rows.length = ob.dataset.coords.rows.length ∧ ∀ (i : Nat) (p : V3 ℝ), ob.dataset.coords.rows[i]? = some p →
        ∃ row, t.rows[i]? = some row ∧ row.take 3 = [rnd p.x, rnd p.y, rnd p.z] ∧
          List.Forall₂ (fun a b => |a - b| ≤ ε) (row.drop 3) (fieldColumns ms ρ Gc p)) ?_ ?_
  · rintro rnd a b lib hab ⟨t, h1, h2, h3⟩
    refine ⟨t, h1, h2, fun i p hi => ?_⟩
    obtain ⟨row, e1, e2, e3⟩ := h3 i p hi
    exact ⟨row, e1, e2, e3.imp fun _ _ h => h.trans hab⟩
  · intro lib hlib hhull
    refine C101_run_tidal g o lib hlib cfg l hcfg hshow ms hms hne ob hob hne' hhull ρ Gc hρ fun p hp => ⟨fun m hm H hH => ?_, fun m hm H hH => ?_, fun m hm H hH => ?_⟩ <;>
    have hdr := hd m hm H (hlib _ _ hH).1 (hlib _ _ hH).2 p hp
    · exact hdr.1
    · exact hdr.2.1
    · exact hdr.2.2

/-- for points in general position, one triangulation is enough -/
theorem outside_any {h h' : Hull ℝ} (hh : h.IsHull) (hh' : h'.IsHull) (e : h'.points = h.points) (hg : General h.points) {s : V3 ℝ}
    (hs : h.Decided s ∧ h.OffLines s ∧ h.TensorRegular s ∧ s.toP ∉ h.body) : h'.Decided s ∧ h'.OffLines s ∧ h'.TensorRegular s ∧ s.toP ∉ h'.body := by
  obtain ⟨h1, h2, h3, h4⟩ := hs
  have ep : ∀ i, h'.pt i = h.pt i := fun i => by unfold Hull.pt; rw [e]
  have eb : h'.body = h.body := by unfold Hull.body; rw [e]
  refine ⟨decided_any hh hh' e hg h1, fun t' ht i j hi hj hij => ?_, ⟨regular_any hh hh' e hg h3.regular, fun t' ht i j hi hj hij => ?_, by rw [eb]; exact h3.off⟩,
    by rw [eb]; exact h4⟩ <;> obtain ⟨t, ht', hc⟩ := same_simplices hh hh' e hg ht <;> rw [ep, ep]
  · exact h2 t ht' i j ((hc i).mp hi) ((hc j).mp hj) hij
  · exact h3.clear t ht' i j ((hc i).mp hi) ((hc j).mp hj) hij

/-- C103: the gradient of a cube of density 2670 seen from (2,3,5), in floating point, with any hull library -/
example : ∃ (D : M3 ℝ) (K : ℝ), (∀ d, HasDerivAt (fun x => 1000000000 * 1 * 2670 *
      (attraction (convexHull ℝ {q | ∃ p ∈ cubePoints, q = p.toP}) (V3.add ⟨2, 3, 5⟩ (V3.smul x d))).z) (rdot D.r2 d) 0) ∧ 0 < K ∧
    ∀ (rnd : ℝ → ℝ) (δ : ℝ), 0 < δ → δ ≤ 1 / K → (∀ a, |a| ≤ K → |rnd a - a| ≤ δ * max 1 |a|) → ∀ (h' : Hull ℝ) (inHull' : V3 ℝ → Bool),
    h'.points = cubePoints.map (V3.rounded rnd) → h'.IsHull → h'.Tidy → ∃ p' G' T', @mkPoly ℝ (roundArith rnd) h' inHull' = .ok p' ∧
    @Call.onNew ℝ (roundArith rnd) p' ⟨V3.rounded rnd ⟨2, 3, 5⟩, rnd 2670, rnd 1, true⟩ = .ok (G', T') ∧ |T'.r2.z - D.r2.z| ≤ K * δ := by
  obtain ⟨h, e, hh, -⟩ := (C104_exists cubePoints).mpr cube_firm.solid
  obtain ⟨p, hp⟩ := hull_mkPoly_ok hh (fun _ => true)
  obtain ⟨G, T, hv⟩ := C19_newton_returned hh hp (cube_outside e hh).2.1 2670 1
  have hT := C19_newton hh hp (cube_outside e hh).2.1 hv
  have eb : h.body = convexHull ℝ {q | ∃ p ∈ cubePoints, q = p.toP} := by unfold Hull.body; rw [e]
  rw [eb] at hT
  obtain ⟨K, hK, k⟩ := C103_tensor cube_firm (s := ⟨2, 3, 5⟩) (fun h e hh => ⟨(cube_outside e hh).1, cube_offLines e hh, (cube_outside e hh).2.1⟩) 2670 1 hT
  refine ⟨T, K, fun d => (hT d).2.2, hK, fun rnd δ h1 h2 h3 h' inHull' e hh ht => ?_⟩
  obtain ⟨p', G', T', k1, k2, k3⟩ := k rnd δ h1 h2 h3 h' inHull' e hh ht
  exact ⟨p', G', T', k1, k2, k3.2.2.2.2⟩

/-- C103: the run with `--gradient` of two bodies that tile a tetrahedron, with any hull library that returns triangulated hulls of the rounded points -/
example : ∃ K, 0 < K ∧ ∀ (rnd : ℝ → ℝ) (δ : ℝ), 0 < δ → δ ≤ 1 / K → (∀ a, |a| ≤ K → |rnd a - a| ≤ δ * max 1 |a|) → ∀ lib : HullLib ℝ,
    (∀ m ∈ halvesMasses .CART 2 2, ∃ H, lib.convexHull (m.dataset.coords.rows.map (V3.rounded rnd)) = .ok H ∧
      H.points = m.dataset.coords.rows.map (V3.rounded rnd) ∧ H.IsHull ∧ H.Tidy) →
    ∃ t row, @runTable ℝ (roundArith rnd) toyGeo (noFiles.mapNum rnd) lib ((halves "cart" "cart" "ellps" 2 2).mapNum rnd) true = .ok t ∧
    t.rows[0]? = some row ∧ List.Forall₂ (fun a b => |a - b| ≤ K * δ) (row.drop 3) (fieldColumns (halvesMasses .CART 2 2) 2 1 ⟨2, 3, 5⟩) := by
  obtain ⟨K, hK, k⟩ := C103_run_tidal toyGeo noFiles _ _ (halves_plain 2 2) (halves_show _ _ _ _ _) _
    (halves_masses findMember_cart (.inl rfl) _ _ _ _) (by simp [halvesMasses]) _ (halves_observer (getCrs_plain findMember_cart (.inl rfl) "ellps") _ _ _)
    (List.cons_ne_nil _ _) 2 1 (by
      intro m hm
      simp only [halvesMasses, List.mem_cons, List.not_mem_nil, or_false] at hm
      rcases hm with rfl | rfl <;> exact ⟨rfl, rfl⟩) (fun m hm => (halves_general 2 2 m hm).firm) (by
      intro m hm H e hH p hp
      have hg := halves_general 2 2 m hm
      obtain rfl : p = ⟨2, 3, 5⟩ := List.mem_singleton.mp hp
      simp only [halvesMasses, List.mem_cons, List.not_mem_nil, or_false] at hm
      rcases hm with rfl | rfl
      · refine outside_any halfA_isHull hH (e.trans halfA_points.symm) (by rw [halfA_points]; exact hg) ⟨halfA_decided, halfA_offLines, halfA_tensorRegular, ?_⟩
        rw [halfA_body]; rintro ⟨h1, h2, h3, h4⟩; simp only [V3.toP] at h4; norm_num at h4
      · refine outside_any halfB_isHull hH (e.trans halfB_points.symm) (by rw [halfB_points]; exact hg) ⟨halfB_decided, halfB_offLines, halfB_tensorRegular, ?_⟩
        rw [halfB_body]; rintro ⟨h1, h2, h3, h4⟩; simp only [V3.toP] at h4; norm_num at h4)
  refine ⟨K, hK, fun rnd δ h1 h2 h3 lib hl => ?_⟩
  obtain ⟨t, k1, -, k2⟩ := k rnd δ h1 h2 h3 lib hl
  obtain ⟨row, e1, -, e2⟩ := k2 0 ⟨2, 3, 5⟩ rfl
  exact ⟨t, row, k1, e1, e2⟩

end
end Geec
