import Verif.Props.EndToEnd
import Verif.Props.Longitude
import Verif.Lemmas.UniqueLocal
/-
For properties that are false of the code in general (C28, C30, C36, C37, C45, C52, C53, C54): exactly when they hold.
-/
namespace Geec
open Arith MeasureTheory
noncomputable section

/-- **C28**, exactly: `to_lon180` leaves a dataset alone if and only if it is Cartesian or ECEF, or no first coordinate exceeds 180. -/
theorem C28_exact (d : Dataset ℝ) :
    d.toLon180 = d ↔ d.crs.name = .CART ∨ d.crs.name = .ECEF ∨ ∀ p ∈ d.coords.rows, p.x ≤ 180 := by
  rcases d with ⟨⟨rows, i⟩, crs⟩
  have key : rows.map (fun p => ({ p with x := wrapLon p.x } : V3 ℝ)) = rows ↔ ∀ p ∈ rows, p.x ≤ 180 := by
    induction rows with
    | nil => simp
    | cons p ps ih =>
      rw [List.map_cons, List.cons.injEq, ih, List.forall_mem_cons]
      refine and_congr_left fun _ => ?_
      rw [wrapLon_real]
      constructor
      · intro h
        have := congrArg V3.x h
        simp only at this
        split at this <;> linarith
      · intro h
        rw [if_neg (not_lt.mpr h)]
  cases hn : crs.name <;> simp only [Dataset.toLon180, hn, wrap180, Dataset.mk.injEq, Coords.mk.injEq, and_true, key] <;> simp

/-- local data beyond 180 m east, and local data that are not -/
example : (⟨⟨[⟨200, 0, 0⟩], false⟩, ⟨.ENU, none, none, .ELLPS⟩⟩ : Dataset ℝ).toLon180 ≠ ⟨⟨[⟨200, 0, 0⟩], false⟩, ⟨.ENU, none, none, .ELLPS⟩⟩ ∧
    (⟨⟨[⟨100, 3000, 4⟩], false⟩, ⟨.ENU, none, none, .ELLPS⟩⟩ : Dataset ℝ).toLon180 = ⟨⟨[⟨100, 3000, 4⟩], false⟩, ⟨.ENU, none, none, .ELLPS⟩⟩ := by
  constructor
  · rw [Ne, C28_exact]; simp; norm_num
  · rw [C28_exact]; simp; norm_num

/-- **C30**, exactly: the height conversion of local data returns and leaves the coordinates alone if and only if the library accepts
the metres east and north as degrees, and there is no geoid, or its heights at these wrong places all vanish (and the numbers are
floats). -/
theorem C30_exact (g : Geodesy ℝ) (d : Dataset ℝ) (hn : d.crs.name = .ENU) :
    (∃ d', d.toEllipsoidHeight g = (.ok (), d') ∧ d'.coords = d.coords) ↔
      (∀ p ∈ d.coords.rows, g.latLonErr p.y p.x = none) ∧
      (d.crs.vdatum = .ELLPS ∨ d.coords.intDtype = false ∧ ∀ p ∈ d.coords.rows, g.geoid d.crs.vdatum p.y p.x = 0) := by
  rcases d with ⟨⟨rows, i⟩, ⟨name, ellps, enu, vd⟩⟩
  simp only at hn
  subst hn
  constructor
  · rintro ⟨d', h, he⟩
    simp only [Dataset.toEllipsoidHeight, Dataset.apply, ellipsoidHeight] at h
    cases hl : latLonErrs g rows with
    | some e => simp [hl] at h
    | none =>
      refine ⟨latLonErrs_none.mp hl, ?_⟩
      by_cases hv : vd = .ELLPS
      · exact .inl hv
      · right
        simp only [hl] at h
        cases i with
        | true => simp [hv] at h
        | false =>
          simp only [Bool.false_and, Bool.false_eq_true, if_false, Prod.mk.injEq, true_and] at h
          subst h
          refine ⟨rfl, ?_⟩
          simp only [Coords.mk.injEq, and_true] at he
          intro p hp
          obtain ⟨k, hk⟩ := List.getElem?_of_mem hp
          have h1 := congrArg (fun l => l[k]?) he
          simp only [List.getElem?_map, hk, Option.map_some, Option.some.injEq] at h1
          have h2 := congrArg V3.z h1
          simp only [r_add] at h2
          have h3 : geoidHeight g vd p.y p.x = g.geoid vd p.y p.x := by cases vd <;> first | rfl | exact absurd rfl hv
          rw [h3] at h2
          linarith
  · rintro ⟨hl, hv⟩
    have hl' := latLonErrs_none.mpr hl
    rcases hv with hv | ⟨hi, hz⟩
    · exact ⟨_, C30_partial g _ rfl hv hl, rfl⟩
    · simp only at hi hz
      subst hi
      simp only [Dataset.toEllipsoidHeight, Dataset.apply, ellipsoidHeight, hl', Bool.false_and, Bool.false_eq_true, if_false]
      refine ⟨_, rfl, ?_⟩
      simp only [Coords.mk.injEq, and_true]
      have : ∀ p ∈ rows, ({ p with z := p.z +. geoidHeight g vd p.y p.x } : V3 ℝ) = p := by
        intro p hp
        have h1 : geoidHeight g vd p.y p.x = 0 := by
          have := hz p hp
          cases vd <;> first | rfl | exact this
        simp [h1]
      rw [List.map_congr_left this, List.map_id']

/-- both sides of C30: with the geoid height equal to the longitude, a local point on the axis keeps its height, one 10 m east does not -/
example : (∃ d', Dataset.toEllipsoidHeight toyGeo ⟨⟨[⟨0, 45, 7⟩], false⟩, ⟨.ENU, none, none, .EGM96⟩⟩ = (.ok (), d') ∧ d'.coords = ⟨[⟨0, 45, 7⟩], false⟩) ∧
    ¬ ∃ d', Dataset.toEllipsoidHeight toyGeo ⟨⟨[⟨10, 45, 7⟩], false⟩, ⟨.ENU, none, none, .EGM96⟩⟩ = (.ok (), d') ∧ d'.coords = ⟨[⟨10, 45, 7⟩], false⟩ := by
  have h1 := C30_exact toyGeo ⟨⟨[⟨0, 45, 7⟩], false⟩, ⟨.ENU, none, none, .EGM96⟩⟩ rfl
  have h2 := C30_exact toyGeo ⟨⟨[⟨10, 45, 7⟩], false⟩, ⟨.ENU, none, none, .EGM96⟩⟩ rfl
  rw [h1, h2]
  constructor
  · refine ⟨?_, .inr ⟨rfl, ?_⟩⟩
    · simp [toyGeo]; norm_num [abs_of_pos]
    · simp [toyGeo]
  · rintro ⟨-, h | ⟨-, h⟩⟩
    · cases h
    · simp [toyGeo] at h

/-- **C52**, exactly: with integer and with float coordinates the height conversion has the same outcome if and only if the dataset is
Cartesian or ECEF, or has no geoid datum, or has a point that the library refuses anyway. -/
theorem C52_exact {S : Type} [Arith S] (g : Geodesy S) (rows : List (V3 S)) (crs : Crs S) :
    (Dataset.toEllipsoidHeight g ⟨⟨rows, true⟩, crs⟩).1 = (Dataset.toEllipsoidHeight g ⟨⟨rows, false⟩, crs⟩).1 ↔
      crs.name = .CART ∨ crs.name = .ECEF ∨ crs.vdatum = .ELLPS ∨ ∃ p ∈ rows, g.latLonErr p.y p.x ≠ none := by
  constructor
  · intro h
    by_contra hne
    simp only [not_or, not_exists, not_and, not_not] at hne
    obtain ⟨h1, h2, h3, h4⟩ := hne
    have hname : crs.name = .ELLPS ∨ crs.name = .ENU := by
      cases hn : crs.name <;> simp_all
    rw [C52_int_raises g rows crs hname h3 h4] at h
    rcases hname with hn | hn <;>
      simp [Dataset.toEllipsoidHeight, hn, Dataset.apply, ellipsoidHeight, latLonErrs_none.mpr h4] at h
  · rintro (h | h | h | ⟨p, hp, h⟩)
    · exact (C52_partial g rows crs (.inr (.inr h))).1
    · exact (C52_partial g rows crs (.inr (.inl h))).1
    · exact (C52_partial g rows crs (.inl h)).1
    · cases hl : latLonErrs g rows with
      | none => exact absurd (latLonErrs_none.mp hl p hp) h
      | some e =>
        cases hn : crs.name <;> simp [Dataset.toEllipsoidHeight, hn, Dataset.apply, ellipsoidHeight, hl, crsId]

/-- the fourth case: a latitude of 100 degrees is refused with integers and with floats -/
example : (Dataset.toEllipsoidHeight toyGeo ⟨⟨[⟨10, 100, 0⟩], true⟩, ⟨.ELLPS, none, none, .EGM96⟩⟩).1 =
    (Dataset.toEllipsoidHeight toyGeo ⟨⟨[⟨10, 100, 0⟩], false⟩, ⟨.ELLPS, none, none, .EGM96⟩⟩).1 := by
  rw [C52_exact]
  refine .inr (.inr (.inr ⟨_, List.mem_cons_self, ?_⟩))
  simp [toyGeo]; norm_num [abs_of_pos]

section
variable {S : Type} [Arith S]

/-- **C36**, exactly: the bodies of a run are in the frame of the stations if and only if all bodies and the observers were configured
as Cartesian. -/
theorem C36_exact (g : Geodesy S) (hg : g.Lawful) (o : Outside S) (lib : HullLib S) (cfg : View S) (r : RunData S)
    (hr : r.Of g o lib cfg) (hcons : r.observer.dataset.crs.Consistent g) (hne : r.configured ≠ []) :
    (∀ m ∈ r.masses, m.dataset.crs.name = r.stations.crs.name) ↔
      (∀ m ∈ r.configured, m.dataset.crs.name = .CART) ∧ r.observer.dataset.crs.name = .CART := by
  obtain ⟨hm, hs⟩ := C36_frames g hg o lib cfg r hr hcons
  constructor
  · intro h
    have key : ∀ m ∈ r.configured, m.dataset.crs.name = .CART ∧ r.observer.dataset.crs.name = .CART := by
      intro m hmem
      obtain ⟨k, hk⟩ := List.getElem?_of_mem hmem
      obtain ⟨hk1, rfl⟩ := List.getElem?_eq_some_iff.mp hk
      have hk2 : k < r.masses.length := by rw [← hm.length_eq]; exact hk1
      have h1 := List.forall₂_iff_get.mp hm |>.2 k hk1 hk2
      have h2 := h _ (List.getElem_mem hk2)
      simp only [List.get_eq_getElem] at h1
      rw [h1, hs] at h2
      split at h2 <;> split at h2
      · exact ⟨by assumption, by assumption⟩
      all_goals cases h2
    refine ⟨fun m hmem => (key m hmem).1, ?_⟩
    obtain ⟨m, hmem⟩ := List.exists_mem_of_ne_nil _ hne
    exact (key m hmem).2
  · rintro ⟨h1, h2⟩
    exact (C36_partial g o lib cfg r hr h1 h2).2.2

/-- **C53**, exactly: the stations of a run have ellipsoidal heights if and only if they were configured so. -/
theorem C53_exact (g : Geodesy S) (hg : g.Lawful) (o : Outside S) (lib : HullLib S) (cfg : View S) (r : RunData S)
    (hr : r.Of g o lib cfg) (hcons : r.observer.dataset.crs.Consistent g) :
    r.stations.crs.vdatum = .ELLPS ↔ r.observer.dataset.crs.vdatum = .ELLPS := by
  by_cases hc : r.observer.dataset.crs.name = .CART
  · have hs := hr.stations
    simp only [Dataset.toWgs84, hc, apply_ok, crsId, Prod.mk.injEq, Except.ok.injEq] at hs
    rw [← hs.2]
  · rw [(C32_to_wgs84 g hg _ _ hcons hc hr.stations).2.2.2.1]

/-- **C45**, exactly: after two writings to one directory the first result is still in its file if and only if the second name does
not lead to the same file (or the results are equal). -/
theorem C45_exact (t t' : Table S) (dir a b out : List Char) (fs : Files S) (hdir : dir ≠ []) (ha : SuffixReplaced ".csv".toList a out) :
    writeFile t' dir b (writeFile t dir a fs) dir out = some t ↔ ¬ SuffixReplaced ".csv".toList b out ∨ t' = t := by
  rw [suffixReplaced_iff] at ha ⊢
  change out = csvName a at ha
  change _ ↔ ¬ out = csvName b ∨ _
  unfold writeFile
  have h1 : ∀ c : List Char, ¬ (dir.isEmpty && c.isEmpty) = true := fun c h => by simp [hdir] at h
  rw [if_neg (h1 _), if_neg (h1 _)]
  simp only [true_and]
  by_cases h : out = csvName b
  · simp [h]
  · rw [if_neg h, if_pos ha]; simp [h]

/-- **C54**, exactly: `show`, the first thing a run does with its configuration, passes if and only if `masses` is a list, all
parameters of the template are present in every body, and those of the observers (without the vertical datum) in the observers. -/
theorem C54_exact (cfg : View S) : configShow cfg = .ok () ↔
    ∃ ms, (cfg.at "masses").iter = .ok ms ∧ (∀ m ∈ ms, ∀ p ∈ bodyParameters, Present m p) ∧
      ∀ p ∈ observerParameters, Present (cfg.at "observers") p := by
  have key : ∀ (w : View S) (ps : List (List String)), showAll w ps = .ok () → ∀ p ∈ ps, Present w p := by
    intro w ps h p hp
    cases hv : (w.path p).first with
    | ok v => exact ⟨v, hv⟩
    | error e =>
      obtain ⟨e', he'⟩ := showAll_error w p e hv ps hp
      rw [h] at he'; cases he'
  constructor
  · intro h
    unfold configShow at h
    cases hms : (cfg.at "masses").iter with
    | error e => simp [hms, bind, Except.bind] at h
    | ok ms =>
      simp only [hms, bind, Except.bind] at h
      cases hf : ms.forM (fun m => showAll m massShown) with
      | error e => rw [hf] at h; cases h
      | ok u =>
        rw [hf] at h
        refine ⟨ms, rfl, ?_, key _ _ h⟩
        clear hms h
        induction ms with
        | nil => intro m hm; cases hm
        | cons a ms ih =>
          simp only [List.forM_eq_forM, List.forM_cons, bind, Except.bind] at hf
          cases ha : showAll a massShown with
          | error e => rw [ha] at hf; cases hf
          | ok u =>
            rw [ha] at hf
            intro m hm
            rcases List.mem_cons.mp hm with rfl | hm
            · exact key _ _ ha
            · exact ih hf m hm
  · rintro ⟨ms, hms, h1, h2⟩
    exact C54_partial cfg ms hms h1 h2

end

/-- "run.1" and "run.2" share a file, "run.1" and "walk.1" do not -/
example : SuffixReplaced ".csv".toList "run.1".toList "run.csv".toList ∧ SuffixReplaced ".csv".toList "run.2".toList "run.csv".toList ∧
    ¬ SuffixReplaced ".csv".toList "walk.1".toList "run.csv".toList := by
  simp only [suffixReplaced_iff]
  decide +kernel

/-! ### C37: which densities are used, and when it does not matter -/

/-- the attraction of a solid that lies on one side of a plane through the point is towards that side -/
theorem attraction_towards {h : Hull ℝ} (hh : h.IsHull) {s : V3 ℝ} (hs : h.Regular s) (hout : s.toP ∉ h.body) {n : V3 ℝ} (hn : n ≠ V3.zeros)
    (hsep : ∀ q ∈ h.body, rdot n s ≤ rdot n (P3.toV q)) : 0 < rdot n (attraction h.body s) := by
  obtain ⟨p, hp⟩ := hull_mkPoly_ok hh (fun _ => true)
  obtain ⟨T, hT⟩ := C16_newton_returned hh hp hs (by
    intro t ht i hi he
    exact hout (he ▸ Hull.mem_body (Hull.pt_mem (hh.cornerIndex t ht i hi)))) 1 1
  have := C17_towards hh hp hs one_pos one_pos hT hn hsep
  simp only [rdot, smul_x, smul_y, smul_z] at this ⊢
  linarith

/-- outside a body its attraction does not vanish -/
theorem attraction_ne_zeros {h : Hull ℝ} (hh : h.IsHull) {s : V3 ℝ} (hs : h.Regular s) (hout : s.toP ∉ h.body) : attraction h.body s ≠ V3.zeros := by
  obtain ⟨n, hn⟩ := plane_between h hout
  intro h0
  obtain ⟨q, hq⟩ := hh.solid.mono interior_subset
  have hn0 : V3.smul (-1) n ≠ V3.zeros := by
    intro hz
    have := hn q hq
    have e : ∀ v : V3 ℝ, rdot n v = 0 := by
      intro v
      have ex := congrArg V3.x hz
      have ey := congrArg V3.y hz
      have ez := congrArg V3.z hz
      simp [V3.zeros] at ex ey ez
      simp [rdot, ex, ey, ez]
    simp only [form, e, lt_self_iff_false] at this
  have := attraction_towards hh hs hout hn0 (by
    intro q hq
    have := hn q hq
    simp only [form, rdot, P3.toV, V3.toP, smul_x, smul_y, smul_z] at this ⊢
    linarith)
  rw [h0, rdot_comm] at this
  simp [rdot, V3.zeros] at this

/-- the sum over the bodies of one number each, weighted with the density and constant of the body -/
def ownSum (ms : List (Mass ℝ)) (f : Set P3 → ℝ) : ℝ :=
  (ms.map fun m => m.gravityConstant * m.density * f (solidOf m.dataset.coords.rows)).sum

/-- **C37**, what is written: the columns Gx, Gy, Gz are the attraction of all bodies with the density and the constant of the first
one. -/
theorem C37_newton (g : Geodesy ℝ) (o : Outside ℝ) (lib : HullLib ℝ) (hlib : lib.Honest) (cfg : View ℝ) (gr : Bool) (t : Table ℝ)
    (r : RunData ℝ) (h : runTable g o lib cfg gr = .ok t) (hr : r.Of g o lib cfg) :
    ∃ first rest, r.masses = first :: rest ∧ ∀ (i : Nat) (p : V3 ℝ), r.stations.coords.rows[i]? = some p → RegularPoint lib r.masses p →
      ∃ row, t.rows[i]? = some row ∧ row.take 6 = [p.x, p.y, p.z,
        100000 * first.gravityConstant * first.density * sumOver r.masses (fun B => (attraction B p).x),
        100000 * first.gravityConstant * first.density * sumOver r.masses (fun B => (attraction B p).y),
        100000 * first.gravityConstant * first.density * sumOver r.masses (fun B => (attraction B p).z)] := by
  obtain ⟨first, rest, hfirst, hrows⟩ := C37_first_density g o lib cfg gr t r h hr
  refine ⟨first, rest, hfirst, fun i p hp hreg => ?_⟩
  obtain ⟨as, has, hrow⟩ := hrows i p hp
  generalize first.density = ρ at has ⊢
  generalize first.gravityConstant = Gc at has ⊢
  have ans := answers_of (Q := fun H a => a.1 = V3.smul (100000 * Gc * ρ) (attraction H.body p)) hr.polys (by
    intro m hm H q a hH hq ha
    obtain ⟨G, T⟩ := a
    exact (C16_newton (hlib _ _ hH).2 hq (hreg m hm H hH) ha).1) has
  have hcoord : ∀ (as : List (V3 ℝ × M3 ℝ)) (s : Station ℝ), (accumulate s as).coord = s.coord := by
    intro as
    induction as with
    | nil => intro s; rfl
    | cons a as ih => intro s; exact ih _
  have key : ∀ e : V3 ℝ, rdot (accumulate (Station.new p) as).G e = 100000 * Gc * ρ * sumOver r.masses (fun B => rdot (attraction B p) e) := by
    intro e
    rw [accumulate_G, sum_of_answers hlib (k := 100000 * Gc * ρ) (f := fun B => rdot (attraction B p) e) (ans.imp ?_)]
    · simp [Station.new, V3.zeros, rdot]
    · rintro m a ⟨H, hH, ha⟩
      refine ⟨H, hH, ?_⟩
      rw [ha]; simp only [rdot, smul_x, smul_y, smul_z]; ring
  have kx := key ⟨1, 0, 0⟩
  have ky := key ⟨0, 1, 0⟩
  have kz := key ⟨0, 0, 1⟩
  simp only [rdot, mul_one, mul_zero, add_zero, zero_add] at kx ky kz
  refine ⟨_, hrow, ?_⟩
  simp only [lineOf, List.take, hcoord, kx, ky, kz]
  rfl

/-- **C37**, exactly, for two bodies: at a point outside the second body the columns Gx, Gy, Gz are the attraction of the bodies with
their own densities and constants if and only if the products of density and constant are equal. -/
theorem C37_exact (g : Geodesy ℝ) (o : Outside ℝ) (lib : HullLib ℝ) (hlib : lib.Honest) (cfg : View ℝ) (gr : Bool) (t : Table ℝ)
    (r : RunData ℝ) (h : runTable g o lib cfg gr = .ok t) (hr : r.Of g o lib cfg) (m₁ m₂ : Mass ℝ) (hms : r.masses = [m₁, m₂])
    (i : Nat) (p : V3 ℝ) (hp : r.stations.coords.rows[i]? = some p) (hreg : RegularPoint lib r.masses p)
    (hout : p.toP ∉ solidOf m₂.dataset.coords.rows) :
    (∃ row, t.rows[i]? = some row ∧ row.take 6 = [p.x, p.y, p.z,
      100000 * ownSum r.masses (fun B => (attraction B p).x), 100000 * ownSum r.masses (fun B => (attraction B p).y),
      100000 * ownSum r.masses (fun B => (attraction B p).z)]) ↔
    m₁.gravityConstant * m₁.density = m₂.gravityConstant * m₂.density := by
  obtain ⟨first, rest, hfirst, hrows⟩ := C37_newton g o lib hlib cfg gr t r h hr
  obtain ⟨row, hrow, htake⟩ := hrows i p hp hreg
  rw [hms, List.cons.injEq] at hfirst
  obtain ⟨rfl, -⟩ := hfirst
  have hne : attraction (solidOf m₂.dataset.coords.rows) p ≠ V3.zeros := by
    have hpol := hr.polys
    rw [hms] at hpol
    generalize r.polys = ps at hpol
    cases hpol with
    | cons _ hpol =>
      cases hpol with
      | cons h2 _ =>
        obtain ⟨H, hH, -⟩ := except_bind_ok h2
        have e : H.body = solidOf m₂.dataset.coords.rows := congrArg solidOf (hlib _ _ hH).1
        rw [← e] at hout ⊢
        exact attraction_ne_zeros (hlib _ _ hH).2 (hreg m₂ (by rw [hms]; simp) H hH) hout
  rw [hms] at htake ⊢
  simp only [sumOver, ownSum, List.map_cons, List.map_nil, List.sum_cons, List.sum_nil, add_zero] at htake ⊢
  constructor
  · rintro ⟨row', hrow', htake'⟩
    rw [hrow, Option.some.injEq] at hrow'
    rw [hrow', htake'] at htake
    simp only [List.cons.injEq, and_true, true_and] at htake
    obtain ⟨hx, hy, hz⟩ := htake
    by_contra hk
    have hk' : m₁.gravityConstant * m₁.density - m₂.gravityConstant * m₂.density ≠ 0 := sub_ne_zero.mpr hk
    apply hne
    refine V3.ext' ?_ ?_ ?_ <;> apply mul_left_cancel₀ hk' <;> simp only [V3.zeros, r_zero] <;> linarith
  · intro hk
    refine ⟨row, hrow, htake.trans ?_⟩
    rw [← hk]
    simp only [List.cons.injEq, and_true, true_and]
    refine ⟨?_, ?_, ?_⟩ <;> ring

theorem halves_stations {n : CRSName} {ρ ρ' : ℝ} : RegularPoint fourPoints (halvesMasses n ρ ρ') ⟨2, 3, 5⟩ := by
  intro m hm H hH
  simp only [halvesMasses, List.mem_cons, List.not_mem_nil, or_false] at hm
  rcases hm with rfl | rfl
  · rw [fourPoints_A] at hH; cases hH; exact halfA_regular
  · rw [fourPoints_B] at hH; cases hH; exact halfB_regular

/-- C37 for a run with two bodies: the line is right if the densities are equal, and wrong if they are 2 and 5 -/
example : ∃ t t', runTable toyGeo noFiles fourPoints (halves "cart" "cart" "ellps" 2 2) false = .ok t ∧
    runTable toyGeo noFiles fourPoints (halves "cart" "cart" "ellps" 2 5) false = .ok t' ∧
    (∃ row, t.rows[0]? = some row ∧ row.take 6 = [2, 3, 5,
      100000 * ownSum (halvesMasses .CART 2 2) (fun B => (attraction B ⟨2, 3, 5⟩).x),
      100000 * ownSum (halvesMasses .CART 2 2) (fun B => (attraction B ⟨2, 3, 5⟩).y),
      100000 * ownSum (halvesMasses .CART 2 2) (fun B => (attraction B ⟨2, 3, 5⟩).z)]) ∧
    ¬ ∃ row, t'.rows[0]? = some row ∧ row.take 6 = [2, 3, 5,
      100000 * ownSum (halvesMasses .CART 2 5) (fun B => (attraction B ⟨2, 3, 5⟩).x),
      100000 * ownSum (halvesMasses .CART 2 5) (fun B => (attraction B ⟨2, 3, 5⟩).y),
      100000 * ownSum (halvesMasses .CART 2 5) (fun B => (attraction B ⟨2, 3, 5⟩).z)] := by
  have hB : solidOf [⟨0, 0, 0⟩, ⟨1 / 2, 1 / 2, 0⟩, ⟨0, 1, 0⟩, ⟨0, 0, 1⟩] = halfB.body := by rw [← halfB_points]; rfl
  have hout : (⟨2, 3, 5⟩ : V3 ℝ).toP ∉ solidOf [⟨0, 0, 0⟩, ⟨1 / 2, 1 / 2, 0⟩, ⟨0, 1, 0⟩, ⟨0, 0, 1⟩] := by
    rw [hB, halfB_body]; rintro ⟨h1, h2, h3, h4⟩; simp only [V3.toP] at h4; norm_num at h4
  obtain ⟨_, _, t, -, -, hr, ht⟩ := halves_run findMember_cart (.inl rfl) (getCrs_plain findMember_cart (.inl rfl) "ellps") wgs84_cart 2 2 false
  obtain ⟨_, _, t', -, -, hr', ht'⟩ := halves_run findMember_cart (.inl rfl) (getCrs_plain findMember_cart (.inl rfl) "ellps") wgs84_cart 2 5 false
  refine ⟨t, t', ht, ht', ?_, ?_⟩
  · exact (C37_exact _ _ _ fourPoints_honest _ _ t _ ht hr _ _ rfl 0 ⟨2, 3, 5⟩ rfl halves_stations hout).mpr rfl
  · intro h
    have := (C37_exact _ _ _ fourPoints_honest _ _ t' _ ht' hr' _ _ rfl 0 ⟨2, 3, 5⟩ rfl halves_stations hout).mp h
    norm_num at this

/-- C36 and C53 for a run with bodies in ECEF and observers in geographic coordinates referred to a geoid: the frames differ and the
heights are not ellipsoidal -/
example : ∃ r : RunData ℝ, r.Of toyGeo noFiles fourPoints (halves "ecef" "ellps" "egm96" 2 5) ∧
    (¬ ∀ m ∈ r.masses, m.dataset.crs.name = r.stations.crs.name) ∧ r.stations.crs.vdatum ≠ .ELLPS := by
  obtain ⟨_, _, t, -, -, hr, -⟩ := halves_run findMember_ecef (.inr rfl) (getCrs_geographic findMember_egm96) (wgs84_geographic _) 2 5 false
  have hcons : (mkObserver ⟨⟨[⟨2, 3, 5⟩], false⟩, ⟨.ELLPS, some ⟨"wgs84", "WGS-84", 7, 6⟩, none, .EGM96⟩⟩ : Observer ℝ).dataset.crs.Consistent toyGeo :=
    fun h => by cases h
  refine ⟨_, hr, ?_, ?_⟩
  · rw [C36_exact _ toyGeo_lawful _ _ _ _ hr hcons (by simp [halvesMasses])]
    rintro ⟨-, h⟩; cases h
  · rw [Ne, C53_exact _ toyGeo_lawful _ _ _ _ hr hcons]
    intro h; cases h

/-- C54: the configuration of the two halves passes `show` -/
example : ∃ ms, ((halves "cart" "cart" "ellps" 2 5).at "masses").iter = .ok ms ∧ (∀ m ∈ ms, ∀ p ∈ bodyParameters, Present m p) ∧
    ∀ p ∈ observerParameters, Present ((halves "cart" "cart" "ellps" 2 5 : View ℝ).at "observers") p := by
  obtain ⟨_, _, t, -, -, hr, ht⟩ := halves_run findMember_cart (.inl rfl) (getCrs_plain findMember_cart (.inl rfl) "ellps") wgs84_cart 2 5 false
  refine (C54_exact _).mp ?_
  cases h : configShow (halves "cart" "cart" "ellps" 2 5 : View ℝ) with
  | ok u => rfl
  | error e => simp [runTable, h, bind, Except.bind] at ht

end
end Geec
