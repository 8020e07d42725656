import Verif.Props.Cli
import Verif.Props.ThinTube
/-
C69: Newton's law for the table of `geec run` (exact arithmetic).
-/
namespace Geec
open Arith MeasureTheory
noncomputable section

/-- What is assumed of `ConvexHull`: when it returns, it returns a triangulated hull of the given points. -/
def HullLib.Honest (lib : HullLib ℝ) : Prop := ∀ pts h, lib.convexHull pts = .ok h → h.points = pts ∧ h.IsHull

/-- the solid spanned by a list of points -/
def solidOf (pts : List (V3 ℝ)) : Set P3 := convexHull ℝ {q | ∃ p ∈ pts, q = p.toP}

/-- sum of one number per body -/
def sumOver (ms : List (Mass ℝ)) (f : Set P3 → ℝ) : ℝ := (ms.map fun m => f (solidOf m.dataset.coords.rows)).sum

/-- The point is in a regular position with respect to every body, for the triangulation that the hull library finds. -/
def RegularPoint (lib : HullLib ℝ) (ms : List (Mass ℝ)) (p : V3 ℝ) : Prop :=
  ∀ m ∈ ms, ∀ h, lib.convexHull m.dataset.coords.rows = .ok h → h.Regular p

/-- the same for the gradient: tensor-regular and outside -/
def OutsidePoint (lib : HullLib ℝ) (ms : List (Mass ℝ)) (p : V3 ℝ) : Prop :=
  ∀ m ∈ ms, ∀ h, lib.convexHull m.dataset.coords.rows = .ok h → h.TensorRegular p ∧ p.toP ∉ h.body

theorem answers_of {lib : HullLib ℝ} {Q : Hull ℝ → V3 ℝ × M3 ℝ → Prop} {c : Call ℝ} {ms : List (Mass ℝ)} {ps : List (Poly ℝ)}
    (hps : List.Forall₂ (fun m p => polyhedronOf lib m.dataset.coords.rows = .ok p) ms ps)
    (hQ : ∀ m ∈ ms, ∀ h p a, lib.convexHull m.dataset.coords.rows = .ok h → mkPoly h (lib.inHull m.dataset.coords.rows) = .ok p →
      c.onNew p = .ok a → Q h a) {as : List (V3 ℝ × M3 ℝ)} (has : ps.map c.onNew = as.map .ok) :
    List.Forall₂ (fun (m : Mass ℝ) a => ∃ h, lib.convexHull m.dataset.coords.rows = .ok h ∧ Q h a) ms as := by
  induction hps generalizing as with
  | nil => cases as with
    | nil => exact .nil
    | cons a as => cases has
  | cons h1 _ ih =>
    cases as with
    | nil => cases has
    | cons a as =>
      simp only [List.map_cons, List.cons.injEq] at has
      obtain ⟨h, hh, hp⟩ := except_bind_ok h1
      exact .cons ⟨h, hh, hQ _ (by simp) h _ a hh hp has.1⟩ (ih (fun m hm => hQ m (by simp [hm])) has.2)

theorem sum_of_answers {lib : HullLib ℝ} (hlib : lib.Honest) {k : ℝ} {f : Set P3 → ℝ} {v : V3 ℝ × M3 ℝ → ℝ} {ms : List (Mass ℝ)}
    {as : List (V3 ℝ × M3 ℝ)}
    (h : List.Forall₂ (fun (m : Mass ℝ) a => ∃ h, lib.convexHull m.dataset.coords.rows = .ok h ∧ v a = k * f h.body) ms as) :
    (as.map v).sum = k * sumOver ms f := by
  induction h with
  | nil => simp [sumOver]
  | cons h _ ih =>
    obtain ⟨H, hH, hv⟩ := h
    rw [List.map_cons, List.sum_cons, ih, hv]
    simp only [sumOver, List.map_cons, List.sum_cons]
    rw [show H.body = solidOf _ from congrArg solidOf (hlib _ _ hH).1]
    ring

/-- **C69** Newton's law, end to end.  On the line of the i-th observation point `p` of a returning run whose bodies have equal
densities and constants, the coordinates are those of `p` and the columns Gx, Gy, Gz are `1e5 Gc ρ` times the attraction at `p` of
the solids spanned by the points of the bodies.  (Bodies and points as transformed by the run, see C36; densities: see C37.) -/
theorem C69_newton (g : Geodesy ℝ) (o : Outside ℝ) (lib : HullLib ℝ) (hlib : lib.Honest) (cfg : View ℝ) (gr : Bool) (t : Table ℝ)
    (r : RunData ℝ) (h : runTable g o lib cfg gr = .ok t) (hr : r.Of g o lib cfg) (ρ Gc : ℝ)
    (hd : ∀ m ∈ r.configured, m.density = ρ ∧ m.gravityConstant = Gc) (i : Nat) (p : V3 ℝ)
    (hp : r.stations.coords.rows[i]? = some p) (hreg : RegularPoint lib r.masses p) :
    ∃ row, t.rows[i]? = some row ∧ row.length = 12 ∧ row.take 6 = [p.x, p.y, p.z,
      100000 * Gc * ρ * sumOver r.masses (fun B => (attraction B p).x),
      100000 * Gc * ρ * sumOver r.masses (fun B => (attraction B p).y),
      100000 * Gc * ρ * sumOver r.masses (fun B => (attraction B p).z)] := by
  obtain ⟨first, rest, hfirst, hrows⟩ := C37_first_density g o lib cfg gr t r h hr
  obtain ⟨as, has, hrow⟩ := hrows i p hp
  have hfd : first.density = ρ ∧ first.gravityConstant = Gc := by
    have hm := hr.masses
    rw [hfirst] at hm
    generalize hc : r.configured = conf at hm hd
    cases hm with
    | cons h1 _ => have := hd _ List.mem_cons_self; exact ⟨h1.1.trans this.1, h1.2.1.trans this.2⟩
  rw [hfd.1, hfd.2] at has
  have ans := answers_of (Q := fun H a => a.1 = V3.smul (100000 * Gc * ρ) (attraction H.body p)) hr.polys (by
    intro m hm H q a hH hq ha
    obtain ⟨G, T⟩ := a
    exact (C16_newton (hlib _ _ hH).2 hq (hreg m hm H hH) ha).1) has
  have hcoord : ∀ (as : List (V3 ℝ × M3 ℝ)) (s : Station ℝ), (accumulate s as).coord = s.coord := by
    intro as
    induction as with
    | nil => intro s; rfl
    | cons a as ih => intro s; exact ih _
  have key : ∀ e : V3 ℝ, rdot (accumulate (Station.new p) as).G e = 100000 * Gc * ρ * sumOver r.masses (fun B => rdot (attraction B p) e) := by
    intro e
    rw [accumulate_G, sum_of_answers hlib (k := 100000 * Gc * ρ) (f := fun B => rdot (attraction B p) e) (ans.imp ?_)]
    · simp [Station.new, V3.zeros, rdot]
    · rintro m a ⟨H, hH, ha⟩
      refine ⟨H, hH, ?_⟩
      rw [ha]; simp only [rdot, smul_x, smul_y, smul_z]; ring
  have kx := key ⟨1, 0, 0⟩
  have ky := key ⟨0, 1, 0⟩
  have kz := key ⟨0, 0, 1⟩
  simp only [rdot, mul_one, mul_zero, add_zero, zero_add] at kx ky kz
  refine ⟨_, hrow, rfl, ?_⟩
  simp only [lineOf, List.take, hcoord, kx, ky, kz]
  rfl

/-- **C69**, gradient: with `--gradient`, at a point outside the bodies the columns txx … tzz are `1e9 Gc ρ` times the tidal
integrals of the solids. -/
theorem C69_tidal (g : Geodesy ℝ) (o : Outside ℝ) (lib : HullLib ℝ) (hlib : lib.Honest) (cfg : View ℝ) (t : Table ℝ)
    (r : RunData ℝ) (h : runTable g o lib cfg true = .ok t) (hr : r.Of g o lib cfg) (ρ Gc : ℝ)
    (hd : ∀ m ∈ r.configured, m.density = ρ ∧ m.gravityConstant = Gc) (i : Nat) (p : V3 ℝ)
    (hp : r.stations.coords.rows[i]? = some p) (hout : OutsidePoint lib r.masses p) :
    ∃ row, t.rows[i]? = some row ∧ row.drop 6 = [
      1000000000 * Gc * ρ * sumOver r.masses (fun B => (tidal B p).r0.x),
      1000000000 * Gc * ρ * sumOver r.masses (fun B => (tidal B p).r0.y),
      1000000000 * Gc * ρ * sumOver r.masses (fun B => (tidal B p).r0.z),
      1000000000 * Gc * ρ * sumOver r.masses (fun B => (tidal B p).r1.y),
      1000000000 * Gc * ρ * sumOver r.masses (fun B => (tidal B p).r1.z),
      1000000000 * Gc * ρ * sumOver r.masses (fun B => (tidal B p).r2.z)] := by
  obtain ⟨first, rest, hfirst, hrows⟩ := C37_first_density g o lib cfg true t r h hr
  obtain ⟨as, has, hrow⟩ := hrows i p hp
  have hfd : first.density = ρ ∧ first.gravityConstant = Gc := by
    have hm := hr.masses
    rw [hfirst] at hm
    generalize hc : r.configured = conf at hm hd
    cases hm with
    | cons h1 _ => have := hd _ List.mem_cons_self; exact ⟨h1.1.trans this.1, h1.2.1.trans this.2⟩
  rw [hfd.1, hfd.2] at has
  have ans := answers_of (Q := fun H a => a.2.r0 = V3.smul (1000000000 * Gc * ρ) (tidal H.body p).r0 ∧
      a.2.r1 = V3.smul (1000000000 * Gc * ρ) (tidal H.body p).r1 ∧ a.2.r2 = V3.smul (1000000000 * Gc * ρ) (tidal H.body p).r2) hr.polys (by
    intro m hm H q a hH hq ha
    obtain ⟨G, T⟩ := a
    obtain ⟨h1, h2⟩ := hout m hm H hH
    exact C62_tidal_integrals (hlib _ _ hH).2 hq h1 h2 ha) has
  have key : ∀ d e : V3 ℝ, rdot ((accumulate (Station.new p) as).T.apply d) e =
      1000000000 * Gc * ρ * sumOver r.masses (fun B => rdot ((tidal B p).apply d) e) := by
    intro d e
    rw [accumulate_T, sum_of_answers hlib (k := 1000000000 * Gc * ρ) (v := fun a => rdot (a.2.apply d) e)
      (f := fun B => rdot ((tidal B p).apply d) e) (ans.imp ?_)]
    · simp [Station.new, M3.zeros, V3.zeros, rdot, M3.apply]
    · rintro m a ⟨H, hH, h0, h1, h2⟩
      refine ⟨H, hH, ?_⟩
      simp only [M3.apply, rdot, h0, h1, h2, smul_x, smul_y, smul_z]; ring
  have k00 := key ⟨1, 0, 0⟩ ⟨1, 0, 0⟩
  have k01 := key ⟨0, 1, 0⟩ ⟨1, 0, 0⟩
  have k02 := key ⟨0, 0, 1⟩ ⟨1, 0, 0⟩
  have k11 := key ⟨0, 1, 0⟩ ⟨0, 1, 0⟩
  have k12 := key ⟨0, 0, 1⟩ ⟨0, 1, 0⟩
  have k22 := key ⟨0, 0, 1⟩ ⟨0, 0, 1⟩
  simp only [M3.apply, rdot, mul_one, mul_zero, add_zero, zero_add] at k00 k01 k02 k11 k12 k22
  refine ⟨_, hrow, ?_⟩
  simp only [lineOf, List.drop, k00, k01, k02, k11, k12, k22]

/-- **C69**, Cartesian configurations: with Cartesian bodies and observers the solids are spanned by the configured points and the
observation points are the configured ones. -/
theorem C69_cartesian (g : Geodesy ℝ) (o : Outside ℝ) (lib : HullLib ℝ) (hlib : lib.Honest) (cfg : View ℝ) (gr : Bool) (t : Table ℝ)
    (ms : List (Mass ℝ)) (ob : Observer ℝ) (h : runTable g o lib cfg gr = .ok t) (hms : getMasses g o cfg = .ok ms)
    (hob : getObserver g o cfg = .ok ob) (hcm : ∀ m ∈ ms, m.dataset.crs.name = .CART) (hco : ob.dataset.crs.name = .CART) (ρ Gc : ℝ)
    (hd : ∀ m ∈ ms, m.density = ρ ∧ m.gravityConstant = Gc) (i : Nat) (p : V3 ℝ)
    (hp : ob.dataset.coords.rows[i]? = some p) (hreg : RegularPoint lib ms p) :
    ∃ row, t.rows[i]? = some row ∧ row.length = 12 ∧ row.take 6 = [p.x, p.y, p.z,
      100000 * Gc * ρ * sumOver ms (fun B => (attraction B p).x),
      100000 * Gc * ρ * sumOver ms (fun B => (attraction B p).y),
      100000 * Gc * ρ * sumOver ms (fun B => (attraction B p).z)] := by
  obtain ⟨r, _, _, hr, _⟩ := runTable_ok h
  obtain rfl : ms = r.configured := by have := hr.configured; rw [hms] at this; exact Except.ok.inj this
  obtain rfl : ob = r.observer := by have := hr.observer; rw [hob] at this; exact Except.ok.inj this
  obtain ⟨h1, h2, -⟩ := C36_partial g o lib cfg r hr hcm hco
  have := C69_newton g o lib hlib cfg gr t r h hr ρ Gc hd i p (by rw [h2]; exact hp) (by rw [h1]; exact hreg)
  rw [h1] at this
  exact this

/-! ### A complete Cartesian configuration gives a table -/

theorem applyRows_returns {S : Type} [Arith S] (ids : List Nat) (density Gc : S) (gr : Bool) (pts : List (V3 S)) :
    ∀ (w : World S), w.Sound → (∀ p ∈ pts, ∀ k ∈ ids, ∃ a, (Call.mk p density Gc gr).onNew (w.poly k) = .ok a) →
    ∃ rs, (applyRows ids density Gc gr pts w).1 = .ok rs := by
  induction pts with
  | nil => intro w _ _; exact ⟨[], rfl⟩
  | cons p pts ih =>
    intro w hw hr
    have h1 : ∃ as : List (V3 S × M3 S), ids.map (fun k => (Call.mk p density Gc gr).onNew (w.poly k)) = as.map .ok := by
      have := hr p (by simp)
      clear hr ih
      induction ids with
      | nil => exact ⟨[], rfl⟩
      | cons k ids ih =>
        obtain ⟨a, ha⟩ := this k (by simp)
        obtain ⟨as, has⟩ := ih fun k hk => this k (by simp [hk])
        exact ⟨a :: as, by rw [List.map_cons, List.map_cons, ha, has]⟩
    obtain ⟨as, has⟩ := h1
    obtain ⟨w2, h2, h3, h4⟩ := stationLoop_ok density Gc gr ids (Station.new p) w hw as has
    obtain ⟨rs, hrs⟩ := ih w2 h3 (by rw [h4]; exact fun q hq => hr q (by simp [hq]))
    simp only [applyRows, addGravity, computeGravity, polyIds_map, h2]
    rcases ha : applyRows ids density Gc gr pts w2 with ⟨e | rs', w4⟩
    · rw [ha] at hrs; cases hrs
    · exact ⟨_, rfl⟩

/-- the run of a readable configuration returns when every body answers at every station -/
theorem run_returns_polys {S : Type} [Arith S] {g : Geodesy S} {o : Outside S} {lib : HullLib S} {cfg : View S} {r : RunData S} {gr : Bool}
    (hr : r.Of g o lib cfg) (hshow : configShow cfg = .ok ()) (hne : r.configured ≠ []) (hne' : r.stations.coords.rows ≠ [])
    (hans : ∀ first, r.masses.head? = some first → ∀ q ∈ r.polys, ∀ p ∈ r.stations.coords.rows,
      ∃ a, (Call.mk p first.density first.gravityConstant gr).onNew q = .ok a) :
    ∃ t, runTable g o lib cfg gr = .ok t := by
  obtain ⟨ms1, ms2, h1, h2, h3⟩ := prepare_masses hr
  obtain ⟨first, rest, hfirst⟩ : ∃ first rest, r.masses = first :: rest := by
    cases hm' : r.masses with
    | nil =>
      have := hr.masses.length_eq
      rw [hm'] at this
      exact absurd (List.length_eq_zero_iff.mp this) hne
    | cons m ms => exact ⟨m, ms, rfl⟩
  have hans := hans first (by rw [hfirst]; rfl)
  obtain ⟨rs, hrs⟩ := applyRows_returns (List.range r.polys.length) first.density first.gravityConstant gr
    r.stations.coords.rows r.world (r.world_sound (runData_inside hr)) (by
    intro p hp k hk
    rw [List.mem_range] at hk
    refine hans _ ?_ p hp
    simp only [RunData.world, List.getD]
    rw [List.getElem?_eq_getElem hk]
    exact List.getElem_mem hk)
  have h6 : r.masses.mapM (fun m => polyhedronOf lib m.dataset.coords.rows) = .ok r.polys := mapM_ok.mpr hr.polys
  rw [hfirst] at h3 h6
  simp only [runTable, hshow, hr.configured, h1, h2, h3, h6, firstMass, hr.observer, outcome, hr.stations, bind, Except.bind]
  rw [if_neg (by simpa using hne'), show (applyRows (List.range r.polys.length) first.density first.gravityConstant gr
    r.stations.coords.rows ⟨fun k => r.polys.getD k ⟨[], []⟩, fun _ => Mem.fresh⟩).1 = .ok rs from hrs]
  exact ⟨_, rfl⟩

theorem run_returns_of {g : Geodesy ℝ} {o : Outside ℝ} {lib : HullLib ℝ} {cfg : View ℝ} {r : RunData ℝ} {gr : Bool}
    (hr : r.Of g o lib cfg) (hshow : configShow cfg = .ok ()) (hne : r.configured ≠ []) (hne' : r.stations.coords.rows ≠ [])
    (hansw : ∀ m ∈ r.masses, ∀ H q, lib.convexHull m.dataset.coords.rows = .ok H →
      mkPoly H (lib.inHull m.dataset.coords.rows) = .ok q → ∀ p ∈ r.stations.coords.rows, ∀ ρ Gc, ∃ a, (Call.mk p ρ Gc gr).onNew q = .ok a) :
    ∃ t, runTable g o lib cfg gr = .ok t := by
  refine run_returns_polys hr hshow hne hne' fun first _ q hq p hp => ?_
  obtain ⟨k, hk⟩ := List.getElem?_of_mem hq
  obtain ⟨m, hm, hmq⟩ := forall₂_get hr.polys.flip hk
  obtain ⟨H, hH, hq'⟩ := except_bind_ok hmq
  exact hansw m (List.mem_of_getElem? hm) H q hH hq' p hp _ _

theorem corner_mem {h : Hull ℝ} (hh : h.IsHull) {t : Nat × Nat × Nat} (ht : t ∈ h.simplices) {i : Nat} (hi : Corner t i) :
    h.pt i ∈ h.points := by
  have := hh.cornerIndex t ht i hi
  simp only [Hull.pt, at3, List.getD]
  rw [List.getElem?_eq_getElem this]
  exact List.getElem_mem this

/-- the run of a readable configuration returns when no station is at a corner -/
theorem run_returns {g : Geodesy ℝ} {o : Outside ℝ} {lib : HullLib ℝ} (hlib : lib.Honest) {cfg : View ℝ} {r : RunData ℝ}
    (hr : r.Of g o lib cfg) (hshow : configShow cfg = .ok ()) (hne : r.configured ≠ []) (hne' : r.stations.coords.rows ≠ [])
    (hcorner : ∀ p ∈ r.stations.coords.rows, ∀ m ∈ r.masses, p ∉ m.dataset.coords.rows) :
    ∃ t, runTable g o lib cfg false = .ok t := by
  refine run_returns_of hr hshow hne hne' fun m hm H q hH hq p hp ρ Gc => ?_
  obtain ⟨e1, hh⟩ := hlib _ _ hH
  obtain ⟨G, T, hv⟩ := C22_total hh hq (obs := p) (fun t ht i hi heq => hcorner p hp m hm (by rw [← e1, ← heq]; exact corner_mem hh ht hi)) ρ Gc
  exact ⟨_, hv⟩

/-- the same with gradient, when moreover no side has the length of the distance of a station from one of its ends -/
theorem run_returns_gradient {g : Geodesy ℝ} {o : Outside ℝ} {lib : HullLib ℝ} (hlib : lib.Honest) {cfg : View ℝ} {r : RunData ℝ}
    (hr : r.Of g o lib cfg) (hshow : configShow cfg = .ok ()) (hne : r.configured ≠ []) (hne' : r.stations.coords.rows ≠ [])
    (hcorner : ∀ p ∈ r.stations.coords.rows, ∀ m ∈ r.masses, p ∉ m.dataset.coords.rows)
    (hside : ∀ p ∈ r.stations.coords.rows, ∀ m ∈ r.masses, ∀ a ∈ m.dataset.coords.rows, ∀ b ∈ m.dataset.coords.rows,
      vlen (b.sub a) ≠ vlen (a.sub p)) (gr : Bool) : ∃ t, runTable g o lib cfg gr = .ok t := by
  refine run_returns_of hr hshow hne hne' fun m hm H q hH hq p hp ρ Gc => ?_
  obtain ⟨e1, hh⟩ := hlib _ _ hH
  obtain ⟨G, T, hv⟩ := C22_gradient hh hq (obs := p)
    (fun t ht i hi heq => hcorner p hp m hm (by rw [← e1, ← heq]; exact corner_mem hh ht hi))
    (fun t ht i j hi hj _ => hside p hp m hm _ (by rw [← e1]; exact corner_mem hh ht hi) _ (by rw [← e1]; exact corner_mem hh ht hj)) ρ Gc gr
  exact ⟨_, hv⟩

theorem polys_exist {lib : HullLib ℝ} (hlib : lib.Honest) (ms : List (Mass ℝ))
    (hhull : ∀ m ∈ ms, ∃ h, lib.convexHull m.dataset.coords.rows = .ok h) :
    ∃ ps, List.Forall₂ (fun (m : Mass ℝ) p => polyhedronOf lib m.dataset.coords.rows = .ok p) ms ps := by
  induction ms with
  | nil => exact ⟨[], .nil⟩
  | cons m ms ih =>
    obtain ⟨H, hH⟩ := hhull m (by simp)
    obtain ⟨q, hq, -⟩ := C26_search_not_entered (hlib _ _ hH).2 (lib.inHull m.dataset.coords.rows) (lib.inHull m.dataset.coords.rows)
    obtain ⟨ps, hps⟩ := ih fun m hm => hhull m (by simp [hm])
    exact ⟨q :: ps, .cons (by simp only [polyhedronOf, hH]; exact hq) hps⟩

/-- **C69**, existence: a configuration in which every parameter is present, with Cartesian bodies of full dimension and at least one
Cartesian observation point, none of them at a corner of a body, gives a table when run without gradient; and when run with gradient, if
the distance of an observation point from a point of a body is never equal to the distance of this point from another one. -/
theorem C69_returns (g : Geodesy ℝ) (o : Outside ℝ) (lib : HullLib ℝ) (hlib : lib.Honest) (cfg : View ℝ)
    (hshow : configShow cfg = .ok ()) (ms : List (Mass ℝ)) (hms : getMasses g o cfg = .ok ms) (hne : ms ≠ [])
    (hcm : ∀ m ∈ ms, m.dataset.crs.name = .CART) (hhull : ∀ m ∈ ms, ∃ h, lib.convexHull m.dataset.coords.rows = .ok h)
    (ob : Observer ℝ) (hob : getObserver g o cfg = .ok ob) (hco : ob.dataset.crs.name = .CART) (hne' : ob.dataset.coords.rows ≠ [])
    (hcorner : ∀ p ∈ ob.dataset.coords.rows, ∀ m ∈ ms, p ∉ m.dataset.coords.rows) :
    (∃ t, runTable g o lib cfg false = .ok t) ∧
    ((∀ p ∈ ob.dataset.coords.rows, ∀ m ∈ ms, ∀ a ∈ m.dataset.coords.rows, ∀ b ∈ m.dataset.coords.rows,
      vlen (b.sub a) ≠ vlen (a.sub p)) → ∃ t, runTable g o lib cfg true = .ok t) := by
  obtain ⟨ps, hps⟩ := polys_exist hlib ms hhull
  have hr : (RunData.mk ms ms ps ob ob.dataset).Of g o lib cfg := by
    refine ⟨hms, ?_, hps, hob, ?_⟩
    · refine List.forall₂_same.mpr fun m hm => ⟨rfl, rfl, ?_⟩
      have hn := hcm m hm
      simp only [runOps, Op.run, Dataset.toLon180, hn, Dataset.toEllipsoidHeight, Dataset.apply, crsId, Dataset.toEcef]
    · simp only [Dataset.toWgs84, hco, Dataset.apply, crsId]
  exact ⟨run_returns hlib hr hshow hne hne' hcorner, fun hside => run_returns_gradient hlib hr hshow hne hne' hcorner hside true⟩

/-! ### A concrete run in exact arithmetic -/

/-- a hull library for bodies with four points -/
def fourPoints : HullLib ℝ where
  convexHull := fun pts => open Classical in
    if ({ tetra with points := pts } : Hull ℝ).IsHull then .ok { tetra with points := pts } else .error .valueError
  inHull := fun _ _ => true

theorem fourPoints_honest : fourPoints.Honest := by
  intro pts h hh
  simp only [fourPoints] at hh
  split at hh
  · rename_i hI; cases hh; exact ⟨rfl, hI⟩
  · cases hh

/-- no files -/
def noFiles : Outside ℝ := ⟨fun _ => false, fun _ => .error .fileNotFoundError, Int.ceil⟩

def pointVal (p : V3 ℝ) : Val ℝ := .list [.num false p.x, .num false p.y, .num false p.z]

def crsVal (ref vdatum : String) : Val ℝ := .dict [("ref", .str ref), ("name", .null), ("semimajor_axis", .null),
  ("semiminor_axis", .null), ("longitude_origin", .null), ("latitude_origin", .null), ("altitude_origin", .null),
  ("vdatum", .str vdatum)]

def massVal (ref : String) (ρ : ℝ) (a b c d : V3 ℝ) : Val ℝ := .dict [("density", .num false ρ), ("gravity_constant", .num false 1),
  ("points", .list [pointVal a, pointVal b, pointVal c, pointVal d]), ("file_path", .null), ("crs", crsVal ref "ellps")]

def observersVal (ref vdatum : String) (p : V3 ℝ) : Val ℝ := .dict [("points", .list [pointVal p]),
  ("file_path", .null),
  ("grid", .dict [("xstart_xend_xstep", .null), ("ystart_yend_ystep", .null), ("zstart_zend_zstep", .null)]),
  ("crs", crsVal ref vdatum)]

/-- the tetrahedron cut along the plane `x = y`: two bodies of densities `ρ`, `ρ'`, one observation point -/
def halves (massRef obsRef vdatum : String) (ρ ρ' : ℝ) : View ℝ := View.root [.dict [
  ("masses", .list [massVal massRef ρ ⟨0, 0, 0⟩ ⟨1, 0, 0⟩ ⟨1 / 2, 1 / 2, 0⟩ ⟨0, 0, 1⟩,
    massVal massRef ρ' ⟨0, 0, 0⟩ ⟨1 / 2, 1 / 2, 0⟩ ⟨0, 1, 0⟩ ⟨0, 0, 1⟩]),
  ("observers", observersVal obsRef vdatum ⟨2, 3, 5⟩)]]

theorem halves_show (massRef obsRef vdatum : String) (ρ ρ' : ℝ) : configShow (halves massRef obsRef vdatum ρ ρ') = .ok () := rfl

theorem findMember_cart : findMember "cart".toUpper crsMembers = some .CART := by decide +kernel
theorem findMember_ecef : findMember "ecef".toUpper crsMembers = some .ECEF := by decide +kernel
theorem findMember_ellps : findMember "ellps".toUpper crsMembers = some .ELLPS := by decide +kernel
theorem findMember_vellps : findMember "ellps".toUpper vdatumMembers = some .ELLPS := by decide +kernel
theorem findMember_egm96 : findMember "egm96".toUpper vdatumMembers = some .EGM96 := by decide +kernel

theorem getCrs_plain {ref : String} {n : CRSName} (h : findMember ref.toUpper crsMembers = some n) (hn : n = .CART ∨ n = .ECEF)
    (vdatum : String) {g : Geodesy ℝ} : getCrs g ⟨[.ok (crsVal ref vdatum)]⟩ = .ok ⟨n, none, none, .ELLPS⟩ := by
  have h2 : ((⟨[.ok (crsVal ref vdatum)]⟩ : View ℝ).at "ref").getOptStr "ellps" = .ok ref := rfl
  have hr : readRef (⟨[.ok (crsVal ref vdatum)]⟩ : View ℝ) = .ok n := by
    simp only [readRef, h2, bind, Except.bind, h]; rfl
  simp only [getCrs, hr, bind, Except.bind]
  rcases hn with rfl | rfl <;> simp [mkCrs]

theorem getCrs_geographic {vdatum : String} {v : VDatum} (h : findMember vdatum.toUpper vdatumMembers = some v) :
    getCrs toyGeo ⟨[.ok (crsVal "ellps" vdatum)]⟩ = .ok ⟨.ELLPS, some ⟨"wgs84", "WGS-84", 7, 6⟩, none, v⟩ := by
  have h2 : ((⟨[.ok (crsVal "ellps" vdatum)]⟩ : View ℝ).at "ref").getOptStr "ellps" = .ok "ellps" := rfl
  have hr : readRef (⟨[.ok (crsVal "ellps" vdatum)]⟩ : View ℝ) = .ok .ELLPS := by
    simp only [readRef, h2, bind, Except.bind, findMember_ellps]; rfl
  have h3 : ((⟨[.ok (crsVal "ellps" vdatum)]⟩ : View ℝ).at "vdatum").getOptStr "ellps" = .ok vdatum := rfl
  have hv : readVdatum (⟨[.ok (crsVal "ellps" vdatum)]⟩ : View ℝ) = .ok v := by
    simp only [readVdatum, h3, bind, Except.bind, h]; rfl
  have hn : readEllipsoidParameters toyGeo (⟨[.ok (crsVal "ellps" vdatum)]⟩ : View ℝ) = .ok (none, .null, .null) := rfl
  simp only [getCrs, hr, createEllipsoidCrs, hn, hv, bind, Except.bind]
  have hm : findModel "wgs84" toyGeo.models = some ("WGS-84", 7, 6) := rfl
  have he : toyGeo.ellipsoidErr 7 6 = none := rfl
  simp [mkEllipsoid, Val.truthy, hm, pmEllipsoid, he, mkCrs]

/-- the two bodies as read -/
def halvesMasses (n : CRSName) (ρ ρ' : ℝ) : List (Mass ℝ) :=
  [⟨ρ, 1, ⟨⟨[⟨0, 0, 0⟩, ⟨1, 0, 0⟩, ⟨1 / 2, 1 / 2, 0⟩, ⟨0, 0, 1⟩], false⟩, ⟨n, none, none, .ELLPS⟩⟩⟩,
   ⟨ρ', 1, ⟨⟨[⟨0, 0, 0⟩, ⟨1 / 2, 1 / 2, 0⟩, ⟨0, 1, 0⟩, ⟨0, 0, 1⟩], false⟩, ⟨n, none, none, .ELLPS⟩⟩⟩]

theorem halves_masses {ref : String} {n : CRSName} (h : findMember ref.toUpper crsMembers = some n) (hn : n = .CART ∨ n = .ECEF)
    (obsRef vdatum : String) (ρ ρ' : ℝ) :
    getMasses toyGeo noFiles (halves ref obsRef vdatum ρ ρ') = .ok (halvesMasses n ρ ρ') := by
  have one : ∀ (ρ : ℝ) (a b c d : V3 ℝ), getMass toyGeo noFiles ⟨[.ok (massVal ref ρ a b c d)]⟩ =
      .ok ⟨ρ, 1, ⟨⟨[a, b, c, d], false⟩, ⟨n, none, none, .ELLPS⟩⟩⟩ := by
    intro ρ a b c d
    have h4 : readCoords noFiles ⟨[.ok (massVal ref ρ a b c d)]⟩ = .ok ⟨[a, b, c, d], false⟩ := rfl
    have h5 : (⟨[.ok (massVal ref ρ a b c d)]⟩ : View ℝ).at "crs" = ⟨[.ok (crsVal ref "ellps")]⟩ := rfl
    simp only [getMass, getDataset, h4, h5, getCrs_plain h hn, bind, Except.bind]
    rfl
  have h2 : ((halves ref obsRef vdatum ρ ρ').at "masses").iter = .ok [
    ⟨[.ok (massVal ref ρ ⟨0, 0, 0⟩ ⟨1, 0, 0⟩ ⟨1 / 2, 1 / 2, 0⟩ ⟨0, 0, 1⟩)]⟩,
    ⟨[.ok (massVal ref ρ' ⟨0, 0, 0⟩ ⟨1 / 2, 1 / 2, 0⟩ ⟨0, 1, 0⟩ ⟨0, 0, 1⟩)]⟩] := rfl
  simp only [getMasses, h2, bind, Except.bind, List.mapM_cons, List.mapM_nil, one]
  rfl

theorem halves_observer {obsRef vdatum : String} {c : Crs ℝ} (h : getCrs toyGeo ⟨[.ok (crsVal obsRef vdatum)]⟩ = .ok c)
    (massRef : String) (ρ ρ' : ℝ) : getObserver toyGeo noFiles (halves massRef obsRef vdatum ρ ρ') =
      .ok (mkObserver ⟨⟨[⟨2, 3, 5⟩], false⟩, c⟩) := by
  have h4 : readCoords noFiles ((halves massRef obsRef vdatum ρ ρ').at "observers") = .ok ⟨[⟨2, 3, 5⟩], false⟩ := rfl
  have h5 : ((halves massRef obsRef vdatum ρ ρ').at "observers").at "crs" = ⟨[.ok (crsVal obsRef vdatum)]⟩ := rfl
  simp only [getObserver, getDataset, h4, h5, h, bind, Except.bind]
  rfl

theorem halfA_points : halfA.points = [⟨0, 0, 0⟩, ⟨1, 0, 0⟩, ⟨1 / 2, 1 / 2, 0⟩, ⟨0, 0, 1⟩] := by
  have h : ∀ i < 4, halfA.points.getD i V3.zeros = halfA.pt i := fun _ _ => rfl
  have h0 := halfA_pt (i := 0) (by norm_num)
  have h1 := halfA_pt (i := 1) (by norm_num)
  have h2 := halfA_pt (i := 2) (by norm_num)
  have h3 := halfA_pt (i := 3) (by norm_num)
  simp only [tetra_pt0, tetra_pt1, tetra_pt2, tetra_pt3] at h0 h1 h2 h3
  have e : halfA.points = [halfA.pt 0, halfA.pt 1, halfA.pt 2, halfA.pt 3] := rfl
  rw [e, h0, h1, h2, h3]; norm_num

theorem halfB_points : halfB.points = [⟨0, 0, 0⟩, ⟨1 / 2, 1 / 2, 0⟩, ⟨0, 1, 0⟩, ⟨0, 0, 1⟩] := by
  have h0 := halfB_pt (i := 0) (by norm_num)
  have h1 := halfB_pt (i := 1) (by norm_num)
  have h2 := halfB_pt (i := 2) (by norm_num)
  have h3 := halfB_pt (i := 3) (by norm_num)
  simp only [tetra_pt0, tetra_pt1, tetra_pt2, tetra_pt3] at h0 h1 h2 h3
  have e : halfB.points = [halfB.pt 0, halfB.pt 1, halfB.pt 2, halfB.pt 3] := rfl
  rw [e, h0, h1, h2, h3]; norm_num

theorem fourPoints_A : fourPoints.convexHull [⟨0, 0, 0⟩, ⟨1, 0, 0⟩, ⟨1 / 2, 1 / 2, 0⟩, ⟨0, 0, 1⟩] = .ok halfA := by
  rw [← halfA_points]
  exact if_pos halfA_isHull

theorem fourPoints_B : fourPoints.convexHull [⟨0, 0, 0⟩, ⟨1 / 2, 1 / 2, 0⟩, ⟨0, 1, 0⟩, ⟨0, 0, 1⟩] = .ok halfB := by
  rw [← halfB_points]
  exact if_pos halfB_isHull

/-- the run of the two halves -/
theorem halves_run {massRef obsRef vdatum : String} {n : CRSName} (h : findMember massRef.toUpper crsMembers = some n)
    (hn : n = .CART ∨ n = .ECEF) {c : Crs ℝ} (hc : getCrs toyGeo ⟨[.ok (crsVal obsRef vdatum)]⟩ = .ok c)
    (hid : Dataset.toWgs84 toyGeo ⟨⟨[⟨2, 3, 5⟩], false⟩, c⟩ = (.ok (), ⟨⟨[⟨2, 3, 5⟩], false⟩, c⟩)) (ρ ρ' : ℝ) (gr : Bool) :
    ∃ (p q : Poly ℝ) (t : Table ℝ), mkPoly halfA (fun _ => true) = .ok p ∧ mkPoly halfB (fun _ => true) = .ok q ∧
      (RunData.mk (halvesMasses n ρ ρ') (halvesMasses n ρ ρ') [p, q] (mkObserver ⟨⟨[⟨2, 3, 5⟩], false⟩, c⟩)
        ⟨⟨[⟨2, 3, 5⟩], false⟩, c⟩).Of toyGeo noFiles fourPoints (halves massRef obsRef vdatum ρ ρ') ∧
      runTable toyGeo noFiles fourPoints (halves massRef obsRef vdatum ρ ρ') gr = .ok t := by
  obtain ⟨p, hp, -⟩ := C26_search_not_entered halfA_isHull (fun _ => true) (fun _ => true)
  obtain ⟨q, hq, -⟩ := C26_search_not_entered halfB_isHull (fun _ => true) (fun _ => true)
  have hds : ∀ d : Dataset ℝ, (mkObserver d).dataset = d := by
    intro d; simp only [mkObserver]; cases d.crs.name <;> rfl
  have hr : (RunData.mk (halvesMasses n ρ ρ') (halvesMasses n ρ ρ') [p, q] (mkObserver ⟨⟨[⟨2, 3, 5⟩], false⟩, c⟩)
        ⟨⟨[⟨2, 3, 5⟩], false⟩, c⟩).Of toyGeo noFiles fourPoints (halves massRef obsRef vdatum ρ ρ') := by
    refine ⟨halves_masses h hn _ _ _ _, ?_, ?_, halves_observer hc _ _ _, ?_⟩
    · refine List.forall₂_same.mpr fun m hm => ⟨rfl, rfl, ?_⟩
      have : m.dataset.crs.name = n := by
        simp only [halvesMasses, List.mem_cons, List.not_mem_nil, or_false] at hm
        rcases hm with rfl | rfl <;> rfl
      rcases hn with rfl | rfl <;>
        simp only [runOps, Op.run, Dataset.toLon180, this, Dataset.toEllipsoidHeight, Dataset.apply, crsId, Dataset.toEcef]
    · refine .cons ?_ (.cons ?_ .nil)
      · simp only [polyhedronOf, fourPoints_A]; exact hp
      · simp only [polyhedronOf, fourPoints_B]; exact hq
    · simp only [hds]; exact hid
  obtain ⟨t, ht⟩ := run_returns_gradient fourPoints_honest hr (halves_show _ _ _ _ _) (by simp [halvesMasses]) (by simp) (by
    intro p hp m hm
    simp only [List.mem_cons, List.not_mem_nil, or_false] at hp
    subst hp
    simp only [halvesMasses, List.mem_cons, List.not_mem_nil, or_false] at hm
    rcases hm with rfl | rfl <;> simp) (by
    intro p hp m hm a ha b hb heq
    simp only [List.mem_cons, List.not_mem_nil, or_false] at hp
    subst hp
    have h2 := congrArg (· ^ 2) heq
    simp only [vlen, Real.sq_sqrt (rdot_self_nonneg _)] at h2
    simp only [halvesMasses, List.mem_cons, List.not_mem_nil, or_false] at hm
    rcases hm with rfl | rfl <;> simp only [List.mem_cons, List.not_mem_nil, or_false] at ha hb <;>
      rcases ha with rfl | rfl | rfl | rfl <;> rcases hb with rfl | rfl | rfl | rfl <;>
      simp only [rdot, sub_x, sub_y, sub_z] at h2 <;> norm_num at h2) gr
  exact ⟨p, q, t, hp, hq, hr, ht⟩

theorem wgs84_cart : Dataset.toWgs84 toyGeo ⟨⟨[⟨2, 3, 5⟩], false⟩, ⟨.CART, none, none, .ELLPS⟩⟩ =
    (.ok (), ⟨⟨[⟨2, 3, 5⟩], false⟩, ⟨.CART, none, none, .ELLPS⟩⟩) := rfl

theorem wgs84_geographic (v : VDatum) : Dataset.toWgs84 toyGeo ⟨⟨[⟨2, 3, 5⟩], false⟩, ⟨.ELLPS, some ⟨"wgs84", "WGS-84", 7, 6⟩, none, v⟩⟩ =
    (.ok (), ⟨⟨[⟨2, 3, 5⟩], false⟩, ⟨.ELLPS, some ⟨"wgs84", "WGS-84", 7, 6⟩, none, v⟩⟩) := by
  have : isWgs84 toyGeo (some ⟨"wgs84", "WGS-84", 7, 6⟩) = true := by
    simp only [isWgs84, toyGeo_wgs84]; exact toyGeo_lawful.eq_refl _
  simp only [Dataset.toWgs84, Dataset.apply, ellpsToWgs84, this, Option.isNone_none, Bool.and_self, if_true]

/-- C69: a Cartesian run of two bodies of density 2 that tile a tetrahedron, all hypotheses hold: its table has the field of the
whole tetrahedron -/
example : ∃ t, runTable toyGeo noFiles fourPoints (halves "cart" "cart" "ellps" 2 2) false = .ok t ∧
    ∃ row, t.rows[0]? = some row ∧ row.take 6 = [2, 3, 5,
      100000 * 1 * 2 * ((attraction halfA.body ⟨2, 3, 5⟩).x + (attraction halfB.body ⟨2, 3, 5⟩).x),
      100000 * 1 * 2 * ((attraction halfA.body ⟨2, 3, 5⟩).y + (attraction halfB.body ⟨2, 3, 5⟩).y),
      100000 * 1 * 2 * ((attraction halfA.body ⟨2, 3, 5⟩).z + (attraction halfB.body ⟨2, 3, 5⟩).z)] := by
  obtain ⟨p, q, t, hp, hq, hr, ht⟩ := halves_run findMember_cart (.inl rfl) (getCrs_plain findMember_cart (.inl rfl) "ellps")
    wgs84_cart 2 2 false
  refine ⟨t, ht, ?_⟩
  have hc : (mkObserver ⟨⟨[⟨2, 3, 5⟩], false⟩, ⟨.CART, none, none, .ELLPS⟩⟩ : Observer ℝ).dataset.crs.name = .CART := rfl
  obtain ⟨row, h1, -, h2⟩ := C69_cartesian _ _ _ fourPoints_honest _ _ t _ _ ht hr.configured hr.observer (by
    intro m hm
    simp only [halvesMasses, List.mem_cons, List.not_mem_nil, or_false] at hm
    rcases hm with rfl | rfl <;> rfl) hc 2 1 (by
    intro m hm
    simp only [halvesMasses, List.mem_cons, List.not_mem_nil, or_false] at hm
    rcases hm with rfl | rfl <;> exact ⟨rfl, rfl⟩) 0 ⟨2, 3, 5⟩ rfl (by
    intro m hm H hH
    simp only [halvesMasses, List.mem_cons, List.not_mem_nil, or_false] at hm
    rcases hm with rfl | rfl
    · rw [fourPoints_A] at hH; cases hH; exact halfA_regular
    · rw [fourPoints_B] at hH; cases hH; exact halfB_regular)
  refine ⟨row, h1, h2.trans ?_⟩
  have hA : solidOf [⟨0, 0, 0⟩, ⟨1, 0, 0⟩, ⟨1 / 2, 1 / 2, 0⟩, ⟨0, 0, 1⟩] = halfA.body := by rw [← halfA_points]; rfl
  have hB : solidOf [⟨0, 0, 0⟩, ⟨1 / 2, 1 / 2, 0⟩, ⟨0, 1, 0⟩, ⟨0, 0, 1⟩] = halfB.body := by rw [← halfB_points]; rfl
  simp only [sumOver, halvesMasses, List.map_cons, List.map_nil, List.sum_cons, List.sum_nil, add_zero, hA, hB]

/-- C69: the same run with gradient -/
example : ∃ t, runTable toyGeo noFiles fourPoints (halves "cart" "cart" "ellps" 2 2) true = .ok t ∧
    ∃ row, t.rows[0]? = some row ∧ row[6]? =
      some (1000000000 * 1 * 2 * ((tidal halfA.body ⟨2, 3, 5⟩).r0.x + (tidal halfB.body ⟨2, 3, 5⟩).r0.x)) := by
  obtain ⟨p, q, t, hp, hq, hr, ht⟩ := halves_run findMember_cart (.inl rfl) (getCrs_plain findMember_cart (.inl rfl) "ellps")
    wgs84_cart 2 2 true
  refine ⟨t, ht, ?_⟩
  obtain ⟨row, h1, h2⟩ := C69_tidal _ _ _ fourPoints_honest _ t _ ht hr 2 1 (by
    intro m hm
    simp only [halvesMasses, List.mem_cons, List.not_mem_nil, or_false] at hm
    rcases hm with rfl | rfl <;> exact ⟨rfl, rfl⟩) 0 ⟨2, 3, 5⟩ rfl (by
    intro m hm H hH
    simp only [halvesMasses, List.mem_cons, List.not_mem_nil, or_false] at hm
    rcases hm with rfl | rfl
    · rw [fourPoints_A] at hH; cases hH
      refine ⟨halfA_tensorRegular, ?_⟩
      rw [halfA_body]; rintro ⟨h1, h2, h3, h4⟩; simp only [V3.toP] at h4; norm_num at h4
    · rw [fourPoints_B] at hH; cases hH
      refine ⟨halfB_tensorRegular, ?_⟩
      rw [halfB_body]; rintro ⟨h1, h2, h3, h4⟩; simp only [V3.toP] at h4; norm_num at h4)
  have hA : solidOf [⟨0, 0, 0⟩, ⟨1, 0, 0⟩, ⟨1 / 2, 1 / 2, 0⟩, ⟨0, 0, 1⟩] = halfA.body := by rw [← halfA_points]; rfl
  have hB : solidOf [⟨0, 0, 0⟩, ⟨1 / 2, 1 / 2, 0⟩, ⟨0, 1, 0⟩, ⟨0, 0, 1⟩] = halfB.body := by rw [← halfB_points]; rfl
  refine ⟨row, h1, ?_⟩
  have : row[6]? = (row.drop 6)[0]? := by simp
  rw [this, h2]
  simp only [sumOver, halvesMasses, List.map_cons, List.map_nil, List.sum_cons, List.sum_nil, add_zero, hA, hB, List.getElem?_cons_zero]

/-! ### The refutations of C36, C37, C53 and C54 in exact arithmetic -/

/-- **C36 is false** in exact arithmetic: bodies in ECEF, observers in longitude, latitude and altitude. -/
theorem C36_false_real : ¬ C36_statement ℝ := by
  intro h
  obtain ⟨p, q, t, hp, hq, hr, ht⟩ := halves_run findMember_ecef (.inr rfl) (getCrs_geographic findMember_vellps)
    (wgs84_geographic _) 2 5 false
  have := h _ _ _ _ _ t _ ht hr (by
    intro m hm
    simp only [halvesMasses, List.mem_cons, List.not_mem_nil, or_false] at hm
    have h0 : (mkObserver ⟨⟨[⟨2, 3, 5⟩], false⟩, ⟨.ELLPS, some ⟨"wgs84", "WGS-84", 7, 6⟩, none, .ELLPS⟩⟩ : Observer ℝ).dataset.crs.name =
      .ELLPS := rfl
    rw [h0]
    rcases hm with rfl | rfl <;> simp) _ (List.mem_cons_self)
  cases this

/-- **C53 is false** in exact arithmetic: observers referred to the geoid keep their heights. -/
theorem C53_false_real : ¬ C53_statement ℝ := by
  intro h
  obtain ⟨p, q, t, hp, hq, hr, ht⟩ := halves_run findMember_ecef (.inr rfl) (getCrs_geographic findMember_egm96)
    (wgs84_geographic _) 2 5 false
  have := h _ _ _ _ _ t _ ht hr
  cases this

theorem two_answers {x y : Except PyErr (V3 ℝ × M3 ℝ)} {as : List (V3 ℝ × M3 ℝ)} (h : [x, y] = as.map .ok) :
    ∃ a b, as = [a, b] ∧ x = .ok a ∧ y = .ok b := by
  rcases as with _ | ⟨a, _ | ⟨b, _ | ⟨c, as⟩⟩⟩
  · simp at h
  · simp at h
  · simp only [List.map_cons, List.map_nil, List.cons.injEq, and_true] at h
    exact ⟨a, b, rfl, h⟩
  · simp at h

/-- **C37 is false** in exact arithmetic: Cartesian bodies of densities 2 and 5; the second one contributes as if its density
were 2. -/
theorem C37_false_real : ¬ C37_statement ℝ := by
  intro h
  obtain ⟨p, q, t, hp, hq, hr, ht⟩ := halves_run findMember_cart (.inl rfl) (getCrs_plain findMember_cart (.inl rfl) "ellps")
    wgs84_cart 2 5 false
  obtain ⟨as, has, hrow⟩ := h _ _ _ _ _ t _ ht hr 0 ⟨2, 3, 5⟩ rfl
  obtain ⟨first, rest, hfirst, hrows⟩ := C37_first_density _ _ _ _ _ t _ ht hr
  simp only [halvesMasses, List.cons.injEq] at hfirst
  obtain ⟨rfl, -⟩ := hfirst
  obtain ⟨as', has', hrow'⟩ := hrows 0 ⟨2, 3, 5⟩ rfl
  rw [hrow] at hrow'
  simp only [Option.some.injEq] at hrow'
  obtain ⟨a, ⟨G, T⟩, rfl, ha, hb⟩ := two_answers has
  obtain ⟨a', ⟨G', T'⟩, rfl, ha', hb'⟩ := two_answers has'
  have haa : a' = a := Except.ok.inj (ha'.symm.trans ha)
  have hG := (C16_newton halfB_isHull hq halfB_regular hb).1
  have hG' := (C16_newton halfB_isHull hq halfB_regular hb').1
  have hx : (accumulate (Station.new ⟨2, 3, 5⟩) [a, (G, T)]).G.x = (accumulate (Station.new ⟨2, 3, 5⟩) [a', (G', T')]).G.x := by
    simp only [lineOf, List.cons.injEq] at hrow'; exact hrow'.2.2.2.1
  have hpos : 0 < rdot (⟨-1, 0, 0⟩ : V3 ℝ) G := by
    refine C17_towards halfB_isHull hq halfB_regular (by norm_num : (0 : ℝ) < 5) one_pos hb ?_ ?_
    · intro h0; have := congrArg V3.x h0; simp [V3.zeros] at this
    · intro u hu
      rw [halfB_body] at hu
      obtain ⟨u1, u2, u3, u4⟩ := hu
      simp only [rdot, P3.toV]; linarith
  subst haa
  simp only [accumulate, Station.new, add_x] at hx
  have e1 : G.x = G'.x := by linarith
  rw [hG, hG'] at e1
  simp only [smul_x] at e1
  have e2 : (attraction halfB.body ⟨2, 3, 5⟩).x = 0 := by linarith
  rw [hG] at hpos
  simp only [rdot, smul_x, smul_y, smul_z, e2] at hpos
  simp at hpos

/-- **C54 is false** in exact arithmetic: a second body without the key `vdatum`. -/
theorem C54_false_real : ¬ C54_statement ℝ := by
  intro h
  let body : Val ℝ := .dict [("density", .num false 2), ("gravity_constant", .num false 1), ("points", .null), ("file_path", .null),
      ("crs", .dict [("ref", .str "ecef"), ("name", .null), ("semimajor_axis", .null), ("semiminor_axis", .null),
        ("longitude_origin", .null), ("latitude_origin", .null), ("altitude_origin", .null)])]
  let cfg : View ℝ := View.root [.dict [("masses", .list [body]), ("observers", observersVal "cart" "ellps" ⟨2, 3, 5⟩)]]
  have hit : (cfg.at "masses").iter = .ok [⟨[.ok body]⟩] := rfl
  have h2 := h cfg _ hit (by
      intro w hw p hp hne
      simp only [List.mem_cons, List.not_mem_nil, or_false] at hw
      subst hw
      simp only [bodyParameters, List.mem_cons, List.not_mem_nil, or_false] at hp
      rcases hp with rfl | rfl | rfl | rfl | rfl | rfl | rfl | rfl | rfl | rfl | rfl | rfl
      all_goals first | exact ⟨_, rfl⟩ | exact absurd rfl hne) (by
      intro w hw
      simp only [List.mem_cons, List.not_mem_nil, or_false] at hw
      subst hw
      left; rfl) (by
      intro p hp
      simp only [observerParameters, List.mem_cons, List.not_mem_nil, or_false] at hp
      rcases hp with rfl | rfl | rfl | rfl | rfl | rfl | rfl | rfl | rfl | rfl | rfl | rfl
      all_goals exact ⟨_, rfl⟩)
  have h3 : configShow cfg = .error .configNotFoundError := rfl
  rw [h2] at h3
  cases h3

end
end Geec
