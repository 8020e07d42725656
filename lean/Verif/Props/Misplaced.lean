import Verif.Props.Earth
import Verif.Props.Accuracy
/-
C89: where `geec run` evaluates the field of geographic observation points (exact arithmetic, closed formulas of the geodesy library).
-/
namespace Geec
open Arith MeasureTheory
noncomputable section

variable (more : List (String × String × ℝ × ℝ)) (latLonErr : ℝ → ℝ → Option PyErr) (geoid : VDatum → ℝ → ℝ → ℝ)

/-- The full statement of C89: the field on the line of a geographic observation point is the field that a station at the geocentric position of
the point gets. -/
def C89_statement : Prop :=
  ∀ (more : List (String × String × ℝ × ℝ)) (latLonErr : ℝ → ℝ → Option PyErr) (geoid : VDatum → ℝ → ℝ → ℝ) (o : Outside ℝ) (lib : HullLib ℝ)
    (cfg : View ℝ) (gr : Bool) (t : Table ℝ) (r : RunData ℝ) (ρ Gc : ℝ), lib.Honest → runTable (earth more latLonErr geoid) o lib cfg gr = .ok t →
    r.Of (earth more latLonErr geoid) o lib cfg → (∀ m ∈ r.configured, m.dataset.crs.name = .ECEF ∧ m.density = ρ ∧ m.gravityConstant = Gc) →
    ∀ (i : Nat) (p x : V3 ℝ), r.stations.coords.rows[i]? = some p → position (earth more latLonErr geoid) r.stations.crs p = some (.ok x) →
    RegularPoint lib r.masses p → RegularPoint lib r.masses x →
    (t.rows[i]?).map (fun row => (row.drop 3).take 3) = some [
      100000 * Gc * ρ * sumOver r.masses (fun B => (attraction B x).x),
      100000 * Gc * ρ * sumOver r.masses (fun B => (attraction B x).y),
      100000 * Gc * ρ * sumOver r.masses (fun B => (attraction B x).z)]

/-! ### how far the true position is -/

theorem primeRadius_surface {a b : ℝ} (hb : 0 < b) (hab : b ≤ a) (φ : ℝ) :
    b ^ 2 ≤ (primeRadius a b φ * Real.cos φ) ^ 2 + (primeRadius a b φ * (b / a) ^ 2 * Real.sin φ) ^ 2 := by
  have ha : 0 < a := hb.trans_le hab
  have hW := meridian_pos ha hb φ
  have hs := Real.sin_sq_add_cos_sq φ
  set W := (a * Real.cos φ) ^ 2 + (b * Real.sin φ) ^ 2 with hWd
  have e : (primeRadius a b φ * Real.cos φ) ^ 2 + (primeRadius a b φ * (b / a) ^ 2 * Real.sin φ) ^ 2 =
      (a ^ 4 * Real.cos φ ^ 2 + b ^ 4 * Real.sin φ ^ 2) / W := by
    unfold primeRadius
    rw [← hWd]
    have h2 : Real.sqrt W ^ 2 = W := Real.sq_sqrt hW.le
    have h3 : Real.sqrt W ≠ 0 := (Real.sqrt_pos.mpr hW).ne'
    rw [mul_pow, mul_pow, mul_pow, div_pow, h2]
    field_simp
  rw [e, le_div_iff₀ hW, hWd]
  have h1 : b ^ 2 ≤ a ^ 2 := by gcongr
  nlinarith [mul_nonneg (mul_nonneg (sq_nonneg a) (sq_nonneg (Real.cos φ))) (sub_nonneg.mpr h1)]

theorem geodeticPoint_split (a b φ l h : ℝ) : geodeticPoint a b φ l h = (geodeticPoint a b φ l 0).add
    (V3.smul h ⟨Real.cos φ * Real.cos l, Real.cos φ * Real.sin l, Real.sin φ⟩) := by
  refine V3.ext' ?_ ?_ ?_ <;> simp [geodeticPoint] <;> ring

theorem up_unit (φ l : ℝ) : vlen ⟨Real.cos φ * Real.cos l, Real.cos φ * Real.sin l, Real.sin φ⟩ = 1 := by
  have h1 := Real.sin_sq_add_cos_sq φ
  have h2 := Real.sin_sq_add_cos_sq l
  unfold vlen rdot
  rw [Real.sqrt_eq_one]
  linear_combination Real.cos φ ^ 2 * h2 + h1

/-- a point of height `h` is at least `b - |h|` from the centre of the Earth -/
theorem geodeticPoint_far {a b : ℝ} (hb : 0 < b) (hab : b ≤ a) (φ l h : ℝ) : b - |h| ≤ vlen (geodeticPoint a b φ l h) := by
  have h0 : b ≤ vlen (geodeticPoint a b φ l 0) := by
    unfold vlen
    apply Real.le_sqrt_of_sq_le
    refine (primeRadius_surface hb hab φ).trans (le_of_eq ?_)
    have h2 := Real.sin_sq_add_cos_sq l
    simp only [geodeticPoint, rdot, add_zero]
    linear_combination -(primeRadius a b φ * Real.cos φ) ^ 2 * h2
  have e : geodeticPoint a b φ l 0 = (geodeticPoint a b φ l h).add (V3.smul (-h) ⟨Real.cos φ * Real.cos l, Real.cos φ * Real.sin l, Real.sin φ⟩) := by
    rw [geodeticPoint_split a b φ l h]
    refine V3.ext' ?_ ?_ ?_ <;> simp
  have h1 := vlen_add_le (geodeticPoint a b φ l h) (V3.smul (-h) ⟨Real.cos φ * Real.cos l, Real.cos φ * Real.sin l, Real.sin φ⟩)
  rw [← e, vlen_smul, up_unit, mul_one, abs_neg] at h1
  linarith

theorem vlen_le_abs (p : V3 ℝ) : vlen p ≤ |p.x| + |p.y| + |p.z| := by
  unfold vlen rdot
  rw [Real.sqrt_le_left (by positivity)]
  have e1 := sq_abs p.x
  have e2 := sq_abs p.y
  have e3 := sq_abs p.z
  nlinarith [mul_nonneg (abs_nonneg p.x) (abs_nonneg p.y), mul_nonneg (abs_nonneg p.x) (abs_nonneg p.z), mul_nonneg (abs_nonneg p.y) (abs_nonneg p.z)]

/-- **C89**, what happens: the coordinates of a station of a run that is not Cartesian are a longitude, a latitude and a height, taken as metres.
The position that they denote on the WGS84 ellipsoid is at least `6356752 - |lon| - |lat| - 2 |height|` metres from the place where the field is
evaluated: more than 6000 km for longitudes up to 360 degrees and heights up to 150 km. -/
theorem C89_displaced_partial (o : Outside ℝ) (lib : HullLib ℝ) (cfg : View ℝ) (r : RunData ℝ) (hr : r.Of (earth more latLonErr geoid) o lib cfg)
    (hcons : r.observer.dataset.crs.Consistent (earth more latLonErr geoid)) (hc : r.observer.dataset.crs.name ≠ .CART)
    (i : Nat) (p x : V3 ℝ) (hp : r.stations.coords.rows[i]? = some p)
    (hx : position (earth more latLonErr geoid) r.stations.crs p = some (.ok x)) :
    (r.observer.dataset.positions (earth more latLonErr geoid))[i]? = some (some (.ok x)) ∧
    6356752 - |p.x| - |p.y| - 2 * |p.z| ≤ vlen (x.sub p) ∧ (|p.x| ≤ 360 → |p.z| ≤ 150000 → 6000000 ≤ vlen (x.sub p)) := by
  have hg := earth_lawful more latLonErr geoid
  obtain ⟨h1, -, ⟨e, h2, h3⟩, -, -, h4, -⟩ := C32_to_wgs84 _ hg _ _ hcons hc hr.stations
  refine ⟨?_, ?_⟩
  · rw [← h4]
    simp only [Dataset.positions, List.getElem?_map, hp, Option.map_some, hx]
  simp only [position, h1, h2, Option.some.injEq] at hx
  rw [hg.eq_ecef _ _ h3, earth_wgs84] at hx
  obtain ⟨hlat, hx⟩ := geodetic2ecefOn_iff.mp hx
  have hf := geodeticPoint_far wgsB_pos wgsB_le_wgsA (radians p.y) (radians p.x) p.z
  rw [← hx] at hf
  have ht : vlen x ≤ vlen (x.sub p) + vlen p := by
    have := vlen_add_le (x.sub p) p
    rwa [show (x.sub p).add p = x by refine V3.ext' ?_ ?_ ?_ <;> simp] at this
  have hv := vlen_le_abs p
  have hB : (6356752 : ℝ) ≤ wgsB := by norm_num [wgsB]
  exact ⟨by linarith, fun _ _ => by linarith⟩

/-! ### what is written -/

theorem sum_le_sum_of_forall₂ {α β : Type} {f : α → ℝ} {g : β → ℝ} {l : List α} {m : List β} (h : List.Forall₂ (fun a b => g b ≤ f a) l m) :
    (m.map g).sum ≤ (l.map f).sum := by
  induction h with
  | nil => simp
  | cons h _ ih => simp only [List.map_cons, List.sum_cons]; linarith

theorem dist3_origin (q : P3) (p : V3 ℝ) : vlen (P3.toV q) - vlen p ≤ dist3 q p := by
  have e : dist3 q p = vlen ((P3.toV q).sub p) := by
    unfold dist3 vlen
    simp only [rdot, P3.toV, sub_x, sub_y, sub_z, ← pow_two]
  have := vlen_add_le ((P3.toV q).sub p) p
  rw [show ((P3.toV q).sub p).add p = P3.toV q by refine V3.ext' ?_ ?_ ?_ <;> simp] at this
  rw [e]; linarith

/-- **C89**, what is written: the field of a geographic observation point of longitude up to 360 degrees, near any bodies that stay at distance `D`
from the centre of the Earth, is no more than that of their mass at distance `D - 450 - |height|`, however close the observation point really is. -/
theorem C89_field_partial (g : Geodesy ℝ) (o : Outside ℝ) (lib : HullLib ℝ) (hlib : lib.Honest) (cfg : View ℝ) (gr : Bool) (t : Table ℝ) (r : RunData ℝ)
    (h : runTable g o lib cfg gr = .ok t) (hr : r.Of g o lib cfg) (ρ Gc : ℝ) (hρ : 0 ≤ ρ) (hG : 0 ≤ Gc)
    (hd : ∀ m ∈ r.configured, m.density = ρ ∧ m.gravityConstant = Gc) (i : Nat) (p : V3 ℝ) (hp : r.stations.coords.rows[i]? = some p)
    (hreg : RegularPoint lib r.masses p) (hlon : |p.x| ≤ 360) (hlat : |p.y| ≤ 90) (D : ℝ) (hD : 450 + |p.z| < D)
    (hfar : ∀ m ∈ r.masses, ∀ q ∈ solidOf m.dataset.coords.rows, D ≤ vlen (P3.toV q)) :
    ∃ G : V3 ℝ, (t.rows[i]?).map (List.take 6) = some [p.x, p.y, p.z, G.x, G.y, G.z] ∧
      vlen G ≤ 100000 * Gc * ρ * sumOver r.masses (fun B => (volume B).toReal) / (D - 450 - |p.z|) ^ 2 := by
  obtain ⟨first, rest, hfirst, hrows⟩ := C37_first_density g o lib cfg gr t r h hr
  obtain ⟨as, has, hrow⟩ := hrows i p hp
  have hfd : first.density = ρ ∧ first.gravityConstant = Gc := by
    have hm := hr.masses
    rw [hfirst] at hm
    generalize hc : r.configured = conf at hm hd
    cases hm with
    | cons h1 _ => have := hd _ List.mem_cons_self; exact ⟨h1.1.trans this.1, h1.2.1.trans this.2⟩
  rw [hfd.1, hfd.2] at has
  set d := D - 450 - |p.z| with hdd
  have hd0 : 0 < d := by rw [hdd]; linarith
  have hv := vlen_le_abs p
  have ans := answers_of (Q := fun H a => H.body = solidOf H.points ∧ ((∀ q ∈ H.body, d ≤ dist3 q p) →
      vlen a.1 ≤ 100000 * Gc * ρ * (volume H.body).toReal / d ^ 2)) hr.polys (by
    intro m hm H q a hH hq ha
    obtain ⟨G, T⟩ := a
    exact ⟨rfl, fun hq' => C51_bound (hlib _ _ hH).2 hq (hreg m hm H hH) hρ hG ha hd0 hq'⟩) has
  have ans' : List.Forall₂ (fun (m : Mass ℝ) (a : V3 ℝ × M3 ℝ) =>
      vlen a.1 ≤ 100000 * Gc * ρ * (volume (solidOf m.dataset.coords.rows)).toReal / d ^ 2) r.masses as := by
    have hall : ∀ m ∈ r.masses, ∀ q ∈ solidOf m.dataset.coords.rows, D ≤ vlen (P3.toV q) := hfar
    revert hall
    generalize r.masses = ms at ans
    intro hall
    clear hrow has
    induction ans with
    | nil => exact .nil
    | cons h1 _ ih =>
      refine .cons ?_ (ih fun m hm => hall m (by simp [hm]))
      obtain ⟨H, hH, hb, hq⟩ := h1
      rw [(hlib _ _ hH).1] at hb
      rw [← hb]
      refine hq fun q hqm => ?_
      rw [hb] at hqm
      have e1 := hall _ (by simp) q hqm
      have e2 := dist3_origin q p
      rw [hdd]; linarith
  have hcoord : ∀ (as : List (V3 ℝ × M3 ℝ)) (s : Station ℝ), (accumulate s as).coord = s.coord := by
    intro as
    induction as with
    | nil => intro s; rfl
    | cons a as ih => intro s; exact ih _
  set G := (accumulate (Station.new p) as).G with hGd
  refine ⟨G, ?_, ?_⟩
  · rw [hrow]
    simp only [Option.map_some, lineOf, List.take, hcoord]
    rfl
  · have hsum : (as.map fun a => vlen a.1).sum ≤ 100000 * Gc * ρ * sumOver r.masses (fun B => (volume B).toReal) / d ^ 2 := by
      refine (sum_le_sum_of_forall₂ ans').trans (le_of_eq ?_)
      unfold sumOver
      generalize r.masses = ms
      induction ms with
      | nil => simp
      | cons m ms ih => simp only [List.map_cons, List.sum_cons, ih]; ring
    refine le_trans ?_ hsum
    have hself := accumulate_G as (Station.new p) G
    rw [← hGd] at hself
    have h0 : rdot (Station.new p).G G = 0 := by simp [Station.new, V3.zeros, rdot]
    rw [h0, zero_add] at hself
    have hle : (as.map fun a => rdot a.1 G).sum ≤ (as.map fun a => vlen a.1).sum * vlen G := by
      clear_value G
      clear hrow has ans ans' hGd hself hsum h0
      induction as with
      | nil => simp
      | cons a as ih =>
        simp only [List.map_cons, List.sum_cons, add_mul]
        have := (le_abs_self _).trans (abs_rdot_le a.1 G)
        linarith
    have hsq := vlen_sq G
    by_contra hlt
    rw [not_le] at hlt
    have hnn : 0 ≤ (as.map fun a => vlen a.1).sum := List.sum_nonneg (by
      intro z hz
      obtain ⟨a, _, rfl⟩ := List.mem_map.mp hz
      exact vlen_nonneg _)
    nlinarith [vlen_nonneg G]

/-! ### a body at the surface of the Earth, an observation point five metres above its corner -/

/-- the point of the equator at longitude 0 -/
def gulf : V3 ℝ := ⟨6378137, 0, 0⟩

/-- the unit tetrahedron with a corner there -/
def gulfTetra : Hull ℝ := tetra.rigid Motion.one gulf

theorem gulfTetra_points : gulfTetra.points = [⟨6378137, 0, 0⟩, ⟨6378138, 0, 0⟩, ⟨6378137, 1, 0⟩, ⟨6378137, 0, 1⟩] := by
  show [rigid Motion.one gulf ⟨0, 0, 0⟩, rigid Motion.one gulf ⟨1, 0, 0⟩, rigid Motion.one gulf ⟨0, 1, 0⟩, rigid Motion.one gulf ⟨0, 0, 1⟩] = _
  simp only [rigid, one_apply, gulf, List.cons.injEq, and_true]
  refine ⟨?_, ?_, ?_, ?_⟩ <;> refine V3.ext' ?_ ?_ ?_ <;> simp <;> norm_num

theorem clearOf_large {a b s : V3 ℝ} (h1 : rdot (a.sub s) (a.sub s) ≤ 10 ^ 14) (h2 : rdot (b.sub a) (b.sub a) ≤ 100)
    (h3 : 1 / 1000 ≤ rdot (cross (a.sub s) (b.sub a)) (cross (a.sub s) (b.sub a))) : ClearOf a b s := by
  apply clearOf_aside
  have e1 : vlen (a.sub s) ≤ 10 ^ 7 := by
    unfold vlen; rw [Real.sqrt_le_left (by norm_num)]; norm_num at h1 ⊢; linarith
  have e2 := vlen_nonneg (a.sub s)
  have e3 : repsilon ≤ 1 / 1000000000000000 := by unfold repsilon; norm_num
  have e0 : (0 : ℝ) < repsilon := by unfold repsilon; positivity
  have e4 := rdot_self_nonneg (b.sub a)
  calc 2 * repsilon * vlen (a.sub s) * rdot (b.sub a) (b.sub a) ≤ 2 * (1 / 1000000000000000) * 10 ^ 7 * 100 := by gcongr
    _ < 1 / 1000 := by norm_num
    _ ≤ _ := h3

/-- where the program looks: the centre of the Earth, 5 m up the axis (relative to the corner) -/
theorem tetra_regular_centre : tetra.Regular ⟨-6378137, 0, 5⟩ := by
  apply regular_bounds
  intro t ht
  simp only [tetra, List.mem_cons, List.not_mem_nil, or_false] at ht
  rcases ht with rfl | rfl | rfl | rfl
  · right
    refine ⟨?_, ?_, ?_⟩
    · simp [tetra_pt0, tetra_pt1, tetra_pt2, tetra_pt3, rdot] <;> norm_num
    · simp [tetra_pt0, tetra_pt1, tetra_pt2, tetra_pt3, rdot] <;> norm_num
    · intro i j hi hj hne
      rcases hi with rfl | rfl | rfl <;> rcases hj with rfl | rfl | rfl <;> first | exact absurd rfl hne | skip
      all_goals
        apply clearOf_large <;> simp only [rdot, cross_x, cross_y, cross_z, sub_x, sub_y, sub_z, tetra_pt0, tetra_pt1, tetra_pt2, tetra_pt3] <;> norm_num
  · left; simp [tetra_pt0, tetra_pt1, tetra_pt2, tetra_pt3, rdot]
  all_goals
    right
    refine ⟨?_, ?_, ?_⟩
    · simp [tetra_pt0, tetra_pt1, tetra_pt2, tetra_pt3, rdot] <;> norm_num
    · simp [tetra_pt0, tetra_pt1, tetra_pt2, tetra_pt3, rdot] <;> norm_num
    · intro i j hi hj hne
      rcases hi with rfl | rfl | rfl <;> rcases hj with rfl | rfl | rfl <;> first | exact absurd rfl hne | skip
      all_goals
        apply clearOf_large <;> simp only [rdot, cross_x, cross_y, cross_z, sub_x, sub_y, sub_z, tetra_pt0, tetra_pt1, tetra_pt2, tetra_pt3] <;> norm_num

/-- where the point is: 5 m above the corner -/
theorem tetra_regular_above : tetra.Regular ⟨5, 0, 0⟩ := by
  apply regular_bounds
  intro t ht
  simp only [tetra, List.mem_cons, List.not_mem_nil, or_false] at ht
  rcases ht with rfl | rfl | rfl | rfl
  · left; simp [tetra_pt0, tetra_pt1, tetra_pt2, tetra_pt3, rdot]
  · left; simp [tetra_pt0, tetra_pt1, tetra_pt2, tetra_pt3, rdot]
  all_goals
    right
    refine ⟨?_, ?_, ?_⟩
    · simp [tetra_pt0, tetra_pt1, tetra_pt2, tetra_pt3, rdot] <;> norm_num
    · simp [tetra_pt0, tetra_pt1, tetra_pt2, tetra_pt3, rdot] <;> norm_num
    · intro i j hi hj hne
      rcases hi with rfl | rfl | rfl <;> rcases hj with rfl | rfl | rfl <;> first | exact absurd rfl hne | skip
      all_goals
        apply clearOf_bounds <;> simp only [rdot, cross_x, cross_y, cross_z, sub_x, sub_y, sub_z, tetra_pt0, tetra_pt1, tetra_pt2, tetra_pt3] <;> norm_num

theorem gulfTetra_isHull : gulfTetra.IsHull := tetra_isHull.rigid one_rotation gulf

theorem gulfTetra_regular_used : gulfTetra.Regular ⟨0, 0, 5⟩ := by
  have := regular_rigid tetra_isHull one_rotation gulf tetra_regular_centre
  rwa [show rigid Motion.one gulf ⟨-6378137, 0, 5⟩ = ⟨0, 0, 5⟩ by
    refine V3.ext' ?_ ?_ ?_ <;> simp [rigid, one_apply, gulf]] at this

theorem gulfTetra_regular_true : gulfTetra.Regular ⟨6378142, 0, 0⟩ := by
  have := regular_rigid tetra_isHull one_rotation gulf tetra_regular_above
  rwa [show rigid Motion.one gulf ⟨5, 0, 0⟩ = ⟨6378142, 0, 0⟩ by
    refine V3.ext' ?_ ?_ ?_ <;> simp [rigid, one_apply, gulf] <;> norm_num] at this

/-- the configuration -/
def gulfConfig : View ℝ := View.root [.dict [
  ("masses", .list [massVal "ecef" 1 ⟨6378137, 0, 0⟩ ⟨6378138, 0, 0⟩ ⟨6378137, 1, 0⟩ ⟨6378137, 0, 1⟩]),
  ("observers", observersVal "ellps" "ellps" ⟨0, 0, 5⟩)]]

theorem getCrs_earth : getCrs (earth more latLonErr geoid) ⟨[.ok (crsVal "ellps" "ellps")]⟩ =
    .ok ⟨.ELLPS, some (wgs84 (earth more latLonErr geoid)), none, .ELLPS⟩ := by
  have h2 : ((⟨[.ok (crsVal "ellps" "ellps")]⟩ : View ℝ).at "ref").getOptStr "ellps" = .ok "ellps" := rfl
  have hr : readRef (⟨[.ok (crsVal "ellps" "ellps")]⟩ : View ℝ) = .ok .ELLPS := by
    simp only [readRef, h2, bind, Except.bind, findMember_ellps]; rfl
  have h3 : ((⟨[.ok (crsVal "ellps" "ellps")]⟩ : View ℝ).at "vdatum").getOptStr "ellps" = .ok "ellps" := rfl
  have hv : readVdatum (⟨[.ok (crsVal "ellps" "ellps")]⟩ : View ℝ) = .ok .ELLPS := by
    simp only [readVdatum, h3, bind, Except.bind, findMember_vellps]; rfl
  have hn : readEllipsoidParameters (earth more latLonErr geoid) (⟨[.ok (crsVal "ellps" "ellps")]⟩ : View ℝ) = .ok (none, .null, .null) := rfl
  simp only [getCrs, hr, createEllipsoidCrs, hn, hv, bind, Except.bind]
  have hm : findModel "wgs84" (earth more latLonErr geoid).models = some ("WGS-84 (1984)", wgsA, wgsB) := by simp [earth, findModel]
  have he : (earth more latLonErr geoid).ellipsoidErr wgsA wgsB = none := by
    simp only [earth]; exact if_pos ⟨wgsB_pos, wgsB_le_wgsA⟩
  simp [mkEllipsoid, Val.truthy, hm, pmEllipsoid, he, mkCrs, earth_wgs84]

/-- the quantities of the run of this configuration, which returns -/
theorem gulf_run : ∃ (p : Poly ℝ) (t : Table ℝ) (r : RunData ℝ), mkPoly gulfTetra (fun _ => true) = .ok p ∧
    runTable (earth more latLonErr geoid) noFiles fourPoints gulfConfig false = .ok t ∧
    r.Of (earth more latLonErr geoid) noFiles fourPoints gulfConfig ∧ r.configured = r.masses ∧
    r.masses = [⟨1, 1, ⟨⟨gulfTetra.points, false⟩, ⟨.ECEF, none, none, .ELLPS⟩⟩⟩] ∧
    r.observer.dataset.crs = ⟨.ELLPS, some (wgs84 (earth more latLonErr geoid)), none, .ELLPS⟩ ∧
    r.stations = ⟨⟨[⟨0, 0, 5⟩], false⟩, ⟨.ELLPS, some (wgs84 (earth more latLonErr geoid)), none, .ELLPS⟩⟩ := by
  obtain ⟨p, hp⟩ := hull_mkPoly_ok gulfTetra_isHull (fun _ => true)
  have hH : fourPoints.convexHull gulfTetra.points = .ok gulfTetra := if_pos gulfTetra_isHull
  set c : Crs ℝ := ⟨.ELLPS, some (wgs84 (earth more latLonErr geoid)), none, .ELLPS⟩ with hc
  have hms : getMasses (earth more latLonErr geoid) noFiles gulfConfig = .ok [⟨1, 1, ⟨⟨gulfTetra.points, false⟩, ⟨.ECEF, none, none, .ELLPS⟩⟩⟩] := by
    rw [gulfTetra_points]
    have h2 : (gulfConfig.at "masses").iter = .ok [⟨[.ok (massVal "ecef" 1 ⟨6378137, 0, 0⟩ ⟨6378138, 0, 0⟩ ⟨6378137, 1, 0⟩ ⟨6378137, 0, 1⟩)]⟩] := rfl
    have one : ∀ (ρ : ℝ) (a b c d : V3 ℝ), getMass (earth more latLonErr geoid) noFiles ⟨[.ok (massVal "ecef" ρ a b c d)]⟩ =
        .ok ⟨ρ, 1, ⟨⟨[a, b, c, d], false⟩, ⟨.ECEF, none, none, .ELLPS⟩⟩⟩ := by
      intro ρ a b c d
      have h4 : readCoords noFiles ⟨[.ok (massVal "ecef" ρ a b c d)]⟩ = .ok ⟨[a, b, c, d], false⟩ := rfl
      have h5 : (⟨[.ok (massVal "ecef" ρ a b c d)]⟩ : View ℝ).at "crs" = ⟨[.ok (crsVal "ecef" "ellps")]⟩ := rfl
      simp only [getMass, getDataset, h4, h5, getCrs_plain findMember_ecef (.inr rfl), bind, Except.bind]
      rfl
    simp only [getMasses, h2, bind, Except.bind, List.mapM_cons, List.mapM_nil, one]
    rfl
  have hob : getObserver (earth more latLonErr geoid) noFiles gulfConfig = .ok (mkObserver ⟨⟨[⟨0, 0, 5⟩], false⟩, c⟩) := by
    have h4 : readCoords noFiles (gulfConfig.at "observers") = .ok ⟨[⟨0, 0, 5⟩], false⟩ := rfl
    have h5 : (gulfConfig.at "observers").at "crs" = ⟨[.ok (crsVal "ellps" "ellps")]⟩ := rfl
    simp only [getObserver, getDataset, h4, h5, getCrs_earth, bind, Except.bind]
    rfl
  have hds : ∀ d : Dataset ℝ, (mkObserver d).dataset = d := by
    intro d; simp only [mkObserver]; cases d.crs.name <;> rfl
  have hid : Dataset.toWgs84 (earth more latLonErr geoid) ⟨⟨[⟨0, 0, 5⟩], false⟩, c⟩ = (.ok (), ⟨⟨[⟨0, 0, 5⟩], false⟩, c⟩) := by
    have : isWgs84 (earth more latLonErr geoid) (some (wgs84 (earth more latLonErr geoid))) = true := (earth_lawful more latLonErr geoid).eq_refl _
    simp only [hc, Dataset.toWgs84, Dataset.apply, ellpsToWgs84, this, Option.isNone_none, Bool.and_self, if_true]
  have hr : (RunData.mk [⟨1, 1, ⟨⟨gulfTetra.points, false⟩, ⟨.ECEF, none, none, .ELLPS⟩⟩⟩]
      [⟨1, 1, ⟨⟨gulfTetra.points, false⟩, ⟨.ECEF, none, none, .ELLPS⟩⟩⟩] [p] (mkObserver ⟨⟨[⟨0, 0, 5⟩], false⟩, c⟩)
      ⟨⟨[⟨0, 0, 5⟩], false⟩, c⟩).Of (earth more latLonErr geoid) noFiles fourPoints gulfConfig := by
    refine ⟨hms, .cons ⟨rfl, rfl, rfl⟩ .nil, .cons ?_ .nil, hob, ?_⟩
    · simp only [polyhedronOf, hH]; exact hp
    · simp only [hds]; exact hid
  obtain ⟨t, ht⟩ := run_returns fourPoints_honest hr rfl (by simp) (by simp) (by
    intro q hq m hm
    simp only [List.mem_cons, List.not_mem_nil, or_false] at hq hm
    subst hq hm
    rw [gulfTetra_points]
    simp)
  exact ⟨p, t, _, hp, ht, hr, rfl, rfl, by rw [hds], rfl⟩

theorem gulf_position : position (earth more latLonErr geoid) ⟨.ELLPS, some (wgs84 (earth more latLonErr geoid)), none, .ELLPS⟩ ⟨0, 0, 5⟩ =
    some (.ok ⟨6378142, 0, 0⟩) := by
  simp only [position, earth_wgs84]
  congr 1
  refine geodetic2ecefOn_iff.mpr ⟨by norm_num, ?_⟩
  have ha := wgsA_pos
  simp only [geodeticPoint, primeRadius, radians, zero_mul, zero_div, Real.cos_zero, Real.sin_zero, mul_one, mul_zero]
  rw [show wgsA ^ 2 + (0 : ℝ) ^ 2 = wgsA ^ 2 by ring, Real.sqrt_sq ha.le]
  refine V3.ext' ?_ ?_ ?_
  · show (6378142 : ℝ) = wgsA ^ 2 / wgsA + 5
    rw [pow_two, mul_div_assoc, div_self ha.ne']; norm_num [wgsA]
  · rfl
  · rfl

/-- **C89 is false**: at a point 4 m above a body on the equator (longitude 0, latitude 0, height 5) the run reports a pull upwards. -/
theorem C89_false : ¬ C89_statement := by
  intro hst
  obtain ⟨p, t, r, hp, ht, hr, hconf, hm, hoc, hs⟩ := gulf_run [] (fun _ _ => none) (fun _ _ _ => 0)
  have hd : ∀ m ∈ r.configured, m.dataset.crs.name = .ECEF ∧ m.density = 1 ∧ m.gravityConstant = 1 := by
    rw [hconf, hm]; intro m hm; simp only [List.mem_singleton] at hm; subst hm; exact ⟨rfl, rfl, rfl⟩
  have hH : fourPoints.convexHull gulfTetra.points = .ok gulfTetra := if_pos gulfTetra_isHull
  have hreg : ∀ s, gulfTetra.Regular s → RegularPoint fourPoints r.masses s := by
    intro s hs m hmm H hH'
    rw [hm, List.mem_singleton] at hmm
    subst hmm
    rw [hH] at hH'; cases hH'; exact hs
  have hst0 : r.stations.coords.rows[0]? = some ⟨0, 0, 5⟩ := by rw [hs]; rfl
  have h1 := hst [] _ _ _ _ _ _ t r 1 1 fourPoints_honest ht hr hd 0 ⟨0, 0, 5⟩ ⟨6378142, 0, 0⟩ hst0 (by rw [hs]; exact gulf_position _ _ _)
    (hreg _ gulfTetra_regular_used) (hreg _ gulfTetra_regular_true)
  obtain ⟨row, h2, -, h3⟩ := C69_newton _ _ _ fourPoints_honest _ _ t r ht hr 1 1 (fun m hm => (hd m hm).2) 0 ⟨0, 0, 5⟩ hst0 (hreg _ gulfTetra_regular_used)
  rw [h2, Option.map_some] at h1
  have h4 : (row.drop 3).take 3 = (row.take 6).drop 3 := by rw [List.drop_take]
  rw [h4, h3, Option.some.injEq] at h1
  have h5 := (List.cons.inj h1).1
  simp only [hm, sumOver, List.map_cons, List.map_nil, List.sum_cons, List.sum_nil, add_zero] at h5
  have hb : solidOf gulfTetra.points = gulfTetra.body := rfl
  rw [hb] at h5
  -- the sign at both places
  have hx : ∀ q ∈ gulfTetra.body, 6378137 ≤ q.1 ∧ q.1 ≤ 6378138 := by
    have hc : Convex ℝ {q : P3 | 6378137 ≤ q.1 ∧ q.1 ≤ 6378138} := by
      apply Convex.inter
      · exact convex_halfSpace_ge (LinearMap.isLinear (LinearMap.fst ℝ ℝ (ℝ × ℝ))) _
      · exact convex_halfSpace_le (LinearMap.isLinear (LinearMap.fst ℝ ℝ (ℝ × ℝ))) _
    intro q hq
    refine convexHull_min ?_ hc hq
    rintro _ ⟨a, ha, rfl⟩
    rw [gulfTetra_points] at ha
    simp only [List.mem_cons, List.not_mem_nil, or_false] at ha
    rcases ha with rfl | rfl | rfl | rfl <;> constructor <;> norm_num [V3.toP]
  have hcorner : ∀ s : V3 ℝ, s ∉ gulfTetra.points → ∀ u ∈ gulfTetra.simplices, ∀ i, Corner u i → gulfTetra.pt i ≠ s :=
    fun s hs u hu i hi heq => hs (heq ▸ corner_mem gulfTetra_isHull hu hi)
  obtain ⟨T1, v1⟩ := C16_newton_returned gulfTetra_isHull hp gulfTetra_regular_used (hcorner _ (by rw [gulfTetra_points]; simp)) 1 1
  obtain ⟨T2, v2⟩ := C16_newton_returned gulfTetra_isHull hp gulfTetra_regular_true (hcorner _ (by rw [gulfTetra_points]; norm_num)) 1 1
  have s1 := C17_towards gulfTetra_isHull hp gulfTetra_regular_used one_pos one_pos v1 (n := ⟨1, 0, 0⟩) (by
    intro h; have := congrArg V3.x h; simp [V3.zeros] at this) (by
    intro q hq; have := (hx q hq).1; simp only [rdot, P3.toV]; norm_num; linarith)
  have s2 := C17_towards gulfTetra_isHull hp gulfTetra_regular_true one_pos one_pos v2 (n := ⟨-1, 0, 0⟩) (by
    intro h; have := congrArg V3.x h; simp [V3.zeros] at this) (by
    intro q hq; have := (hx q hq).2; simp only [rdot, P3.toV]; norm_num; linarith)
  simp only [rdot, smul_x, smul_y, smul_z] at s1 s2
  nlinarith

/-- The hypotheses of the parts of C89 are met by this run. -/
example : ∃ (t : Table ℝ) (r : RunData ℝ), runTable (earth more latLonErr geoid) noFiles fourPoints gulfConfig false = .ok t ∧
    r.Of (earth more latLonErr geoid) noFiles fourPoints gulfConfig ∧ r.observer.dataset.crs.Consistent (earth more latLonErr geoid) ∧
    r.observer.dataset.crs.name ≠ .CART ∧ r.stations.coords.rows[0]? = some ⟨0, 0, 5⟩ ∧
    position (earth more latLonErr geoid) r.stations.crs ⟨0, 0, 5⟩ = some (.ok ⟨6378142, 0, 0⟩) ∧
    RegularPoint fourPoints r.masses ⟨0, 0, 5⟩ ∧ ∀ m ∈ r.masses, ∀ q ∈ solidOf m.dataset.coords.rows, 6378137 ≤ vlen (P3.toV q) := by
  obtain ⟨p, t, r, hp, ht, hr, hconf, hm, hoc, hs⟩ := gulf_run more latLonErr geoid
  refine ⟨t, r, ht, hr, by rw [hoc]; simp [Crs.Consistent], by rw [hoc]; simp, by rw [hs]; rfl, by rw [hs]; exact gulf_position _ _ _, ?_, ?_⟩
  · intro m hmm H hH
    rw [hm, List.mem_singleton] at hmm
    subst hmm
    rw [show fourPoints.convexHull gulfTetra.points = .ok gulfTetra from if_pos gulfTetra_isHull] at hH
    cases hH; exact gulfTetra_regular_used
  · intro m hmm q hq
    rw [hm, List.mem_singleton] at hmm
    subst hmm
    have hc : Convex ℝ {q : P3 | 6378137 ≤ q.1} := convex_halfSpace_ge (LinearMap.isLinear (LinearMap.fst ℝ ℝ (ℝ × ℝ))) _
    have h1 : (6378137 : ℝ) ≤ q.1 := by
      refine convexHull_min ?_ hc hq
      rintro _ ⟨a, ha, rfl⟩
      change a ∈ gulfTetra.points at ha
      rw [gulfTetra_points] at ha
      simp only [List.mem_cons, List.not_mem_nil, or_false] at ha
      rcases ha with rfl | rfl | rfl | rfl <;> norm_num [V3.toP]
    unfold vlen
    apply Real.le_sqrt_of_sq_le
    simp only [rdot, P3.toV]
    nlinarith [mul_self_nonneg q.2.1, mul_self_nonneg q.2.2]

end
end Geec
