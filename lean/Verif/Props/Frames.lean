import Verif.Spec.Geo
import Mathlib.Tactic.Linarith
import Mathlib.Data.List.Forall2
/-
C31 – C35: conversions between coordinate systems.
-/
namespace Geec
open Arith
set_option linter.unusedSectionVars false
variable {S : Type} [Arith S]

theorem mapM_ok {α β : Type} {f : α → Except PyErr β} : ∀ {l : List α} {l' : List β}, l.mapM f = .ok l' ↔
    List.Forall₂ (fun p q => f p = .ok q) l l'
  | [], l' => by
    cases l' <;> simp [pure, Except.pure]
  | a :: l, l' => by
    rw [List.mapM_cons]
    cases ha : f a with
    | error e =>
      simp only [bind, Except.bind]
      constructor
      · intro h; cases h
      · intro h; cases h with | cons h1 h2 => rw [ha] at h1; cases h1
    | ok b =>
      simp only [bind, Except.bind]
      cases hl : l.mapM f with
      | error e =>
        simp only
        constructor
        · intro h; cases h
        · intro h
          cases h with | cons h1 h2 =>
          rw [mapM_ok.mpr h2] at hl; cases hl
      | ok bs =>
        simp only [pure, Except.pure]
        constructor
        · intro h; cases h
          exact .cons ha (mapM_ok.mp hl)
        · intro h
          cases h with | cons h1 h2 =>
          rw [ha] at h1; cases h1
          rw [mapM_ok.mpr h2] at hl; cases hl; rfl

theorem mapM_total {α β : Type} {f : α → Except PyErr β} : ∀ {l : List α}, (∀ p ∈ l, ∃ q, f p = .ok q) →
    ∃ l', l.mapM f = .ok l'
  | [], _ => ⟨[], rfl⟩
  | a :: l, h => by
    obtain ⟨b, hb⟩ := h a (by simp)
    obtain ⟨bs, hbs⟩ := mapM_total (l := l) (fun p hp => h p (by simp [hp]))
    exact ⟨b :: bs, mapM_ok.mpr (.cons hb (mapM_ok.mp hbs))⟩

theorem mapRows_ok {f : V3 S → Except PyErr (V3 S)} {c c' : Coords S} (h : mapRows f c = .ok c') :
    List.Forall₂ (fun p q => f p = .ok q) c.rows c'.rows := by
  simp only [mapRows, bind, Except.bind] at h
  cases hm : c.rows.mapM f with
  | error e => rw [hm] at h; cases h
  | ok l => rw [hm] at h; simp [pure, Except.pure] at h; subst h; exact mapM_ok.mp hm

theorem mapRows_total {f : V3 S → Except PyErr (V3 S)} {c : Coords S} (h : ∀ p ∈ c.rows, ∃ q, f p = .ok q) :
    ∃ c', mapRows f c = .ok c' := by
  obtain ⟨l, hl⟩ := mapM_total h
  exact ⟨⟨l, false⟩, by simp [mapRows, hl, bind, Except.bind, pure, Except.pure]⟩

theorem apply_ok {f : CrsFn S} {d d' : Dataset S} {u : Unit} :
    d.apply f = (.ok u, d') ↔ f d.coords d.crs = (.ok d'.coords, d'.crs) := by
  simp only [Dataset.apply]
  rcases h : f d.coords d.crs with ⟨_ | c, crs⟩
  · simp
  · constructor
    · intro h; cases h; rfl
    · intro h; cases h; rfl

/-- how the frame of the CRS and that of the ENU object agree, as far as conversions are concerned -/
def Crs.Agrees (g : Geodesy S) (c : Crs S) : Prop :=
  c.name = .ENU → ∃ e, c.enu = some e ∧ g.enu2ecef c.ellps = g.enu2ecef (some e.ellps)

theorem Crs.Consistent.agrees {g : Geodesy S} (hg : g.Lawful) {c : Crs S} (h : c.Consistent g) : c.Agrees g := by
  intro hn
  obtain ⟨e, l, he, hl, heq⟩ := h hn
  exact ⟨e, he, by rw [hl, hg.eq_enu _ _ heq]⟩

theorem ellpsToEcef_ok {g : Geodesy S} {c c' : Coords S} {crs crs' : Crs S}
    (h : ellpsToEcef g c crs = (.ok c', crs')) :
    List.Forall₂ (fun p q => g.geodetic2ecef crs.ellps p = .ok q) c.rows c'.rows ∧
    crs' = { crs with name := .ECEF, ellps := none, enu := none } := by
  simp only [ellpsToEcef] at h
  cases hm : mapRows (g.geodetic2ecef crs.ellps) c with
  | error e => rw [hm] at h; simp at h
  | ok l => rw [hm] at h; simp only [Prod.mk.injEq, Except.ok.injEq] at h; rw [← h.1]; exact ⟨mapRows_ok hm, h.2.symm⟩

theorem enuToEcef_ok {g : Geodesy S} {c c' : Coords S} {crs crs' : Crs S}
    (h : enuToEcef g c crs = (.ok c', crs')) : ∃ e, crs.enu = some e ∧
    List.Forall₂ (fun p q => g.enu2ecef crs.ellps e.lat0 e.lon0 e.alt0 p = .ok q) c.rows c'.rows ∧
    crs' = { crs with name := .ECEF, ellps := none, enu := none } := by
  simp only [enuToEcef] at h
  cases he : crs.enu with
  | none => rw [he] at h; simp at h
  | some e =>
    rw [he] at h
    simp only at h
    cases hm : mapRows (g.enu2ecef crs.ellps e.lat0 e.lon0 e.alt0) c with
    | error e => rw [hm] at h; simp at h
    | ok l =>
      rw [hm] at h; simp only [Prod.mk.injEq, Except.ok.injEq] at h; rw [← h.1]
      exact ⟨e, rfl, mapRows_ok hm, h.2.symm⟩

theorem ecefToWgs84_ok {g : Geodesy S} {c c' : Coords S} {crs crs' : Crs S}
    (h : ecefToWgs84 g c crs = (.ok c', crs')) :
    List.Forall₂ (fun p q => g.ecef2geodetic p = .ok q) c.rows c'.rows ∧
    crs' = { crs with name := .ELLPS, ellps := some (wgs84 g), enu := none } := by
  simp only [ecefToWgs84] at h
  cases hm : mapRows g.ecef2geodetic c with
  | error e => rw [hm] at h; simp at h
  | ok l => rw [hm] at h; simp only [Prod.mk.injEq, Except.ok.injEq] at h; rw [← h.1]; exact ⟨mapRows_ok hm, h.2.symm⟩

theorem ecefToEnu_ok {g : Geodesy S} {lon lat alt : S} {c c' : Coords S} {crs crs' : Crs S}
    (h : ecefToEnu g lon lat alt c crs = (.ok c', crs')) :
    List.Forall₂ (fun p q => g.ecef2enu lat lon alt p = .ok q) c.rows c'.rows ∧
    crs' = { crs with name := .ENU, enu := some ⟨lon, lat, alt, wgs84 g⟩ } := by
  simp only [ecefToEnu] at h
  cases hm : mapRows (g.ecef2enu lat lon alt) c with
  | error e => rw [hm] at h; simp at h
  | ok l => rw [hm] at h; simp only [Prod.mk.injEq, Except.ok.injEq] at h; rw [← h.1]; exact ⟨mapRows_ok hm, h.2.symm⟩

theorem wgs84ToEnu_ok {g : Geodesy S} {lon lat alt : S} {c c' : Coords S} {crs crs' : Crs S}
    (h : wgs84ToEnu g lon lat alt c crs = (.ok c', crs')) :
    List.Forall₂ (fun p q => g.geodetic2enu lat lon alt p = .ok q) c.rows c'.rows ∧
    crs' = { crs with name := .ENU, enu := some ⟨lon, lat, alt, wgs84 g⟩ } := by
  simp only [wgs84ToEnu] at h
  cases hm : mapRows (g.geodetic2enu lat lon alt) c with
  | error e => rw [hm] at h; simp at h
  | ok l => rw [hm] at h; simp only [Prod.mk.injEq, Except.ok.injEq] at h; rw [← h.1]; exact ⟨mapRows_ok hm, h.2.symm⟩

theorem then_ok {f h : CrsFn S} {c c' : Coords S} {crs crs' : Crs S} (hh : f.then h c crs = (.ok c', crs')) :
    ∃ c1 crs1, f c crs = (.ok c1, crs1) ∧ h c1 crs1 = (.ok c', crs') := by
  simp only [CrsFn.then] at hh
  rcases hf : f c crs with ⟨_ | c1, crs1⟩
  · rw [hf] at hh; simp at hh
  · rw [hf] at hh; exact ⟨c1, crs1, rfl, hh⟩

/-- the positions reached by one conversion to ECEF -/
theorem toEcef_positions {g : Geodesy S} {d d' : Dataset S} (ha : d.crs.Agrees g) (hc : d.crs.name ≠ .CART)
    (h : d.toEcef g = (.ok (), d')) :
    List.Forall₂ (fun p q => position g d.crs p = some (.ok q)) d.coords.rows d'.coords.rows ∧
    d'.crs.name = .ECEF ∧ (d.crs.name ≠ .ECEF → d'.crs.ellps = none ∧ d'.crs.enu = none) ∧
    (d.crs.name = .ECEF → d' = d) ∧ d'.crs.vdatum = d.crs.vdatum := by
  simp only [Dataset.toEcef] at h
  cases hn : d.crs.name with
  | CART => exact absurd hn hc
  | ECEF =>
    rw [hn] at h; simp only [apply_ok, crsId, Prod.mk.injEq, Except.ok.injEq] at h
    obtain ⟨h1, h2⟩ := h
    have hd : d' = d := by cases d; cases d'; simp at h1 h2; simp [h1, h2]
    subst hd
    refine ⟨?_, hn, by simp, fun _ => rfl, rfl⟩
    simp only [position, hn]
    exact List.forall₂_same.mpr (fun _ _ => rfl)
  | ELLPS =>
    rw [hn] at h; simp only [apply_ok] at h
    obtain ⟨h1, h2⟩ := ellpsToEcef_ok h
    refine ⟨?_, by rw [h2], by rw [h2]; simp, by simp, by rw [h2]⟩
    exact h1.imp (fun _ _ h => by simp [position, hn, h])
  | ENU =>
    rw [hn] at h; simp only [apply_ok] at h
    obtain ⟨e, he, h1, h2⟩ := enuToEcef_ok h
    refine ⟨?_, by rw [h2], by rw [h2]; simp, by simp, by rw [h2]⟩
    obtain ⟨e', he', heq⟩ := ha hn
    rw [he] at he'; cases he'
    exact h1.imp (fun _ _ h => by simp [position, hn, he, ← heq, h])

/-- **C31.** `to_ecef` on a non-Cartesian dataset (with a consistent CRS): the result is labelled ECEF with no ellipsoid
and no origin, its points are the geocentric positions of the original points, one by one in order; a second call changes
nothing. -/
theorem C31_to_ecef (g : Geodesy S) (hg : g.Lawful) (d d' : Dataset S) (hcons : d.crs.Consistent g)
    (hplain : d.crs.name = .ECEF → d.crs.ellps = none ∧ d.crs.enu = none)
    (hc : d.crs.name ≠ .CART) (h : d.toEcef g = (.ok (), d')) :
    d'.crs.name = .ECEF ∧ d'.crs.ellps = none ∧ d'.crs.enu = none ∧ d'.crs.vdatum = d.crs.vdatum ∧
    List.Forall₂ (fun p q => position g d.crs p = some (.ok q)) d.coords.rows d'.coords.rows ∧
    d'.toEcef g = (.ok (), d') := by
  obtain ⟨h1, h2, h3, h4, h5⟩ := toEcef_positions (hcons.agrees hg) hc h
  have h6 : d'.crs.ellps = none ∧ d'.crs.enu = none := by
    by_cases hn : d.crs.name = .ECEF
    · rw [h4 hn]; exact hplain hn
    · exact h3 hn
  exact ⟨h2, h6.1, h6.2, h5, h1, by simp [Dataset.toEcef, h2, Dataset.apply, crsId]⟩

/-- **C31.** Cartesian data are untouched. -/
theorem C31_cartesian (g : Geodesy S) (d : Dataset S) (h : d.crs.name = .CART) : d.toEcef g = (.ok (), d) := by
  simp [Dataset.toEcef, h, Dataset.apply, crsId]

/-- **C31.** `to_ecef` returns whenever every point has a position. -/
theorem C31_returns (g : Geodesy S) (hg : g.Lawful) (d : Dataset S) (hcons : d.crs.Consistent g)
    (hp : ∀ p ∈ d.coords.rows, ∃ q, position g d.crs p = some (.ok q)) : ∃ d', d.toEcef g = (.ok (), d') := by
  simp only [Dataset.toEcef]
  cases hn : d.crs.name with
  | CART => exact ⟨d, rfl⟩
  | ECEF => exact ⟨d, rfl⟩
  | ELLPS =>
    obtain ⟨c', hc'⟩ := mapRows_total (f := g.geodetic2ecef d.crs.ellps) (c := d.coords)
      (fun p h => by simpa [position, hn] using hp p h)
    exact ⟨⟨c', _⟩, apply_ok.mpr (by simp only [ellpsToEcef, hc']; rfl)⟩
  | ENU =>
    obtain ⟨e, he, heq⟩ := hcons.agrees hg hn
    obtain ⟨c', hc'⟩ := mapRows_total (f := g.enu2ecef d.crs.ellps e.lat0 e.lon0 e.alt0) (c := d.coords)
      (fun p h => by simpa [position, hn, he, heq] using hp p h)
    exact ⟨⟨c', _⟩, apply_ok.mpr (by simp only [enuToEcef, he, hc']; rfl)⟩

/-- a dataset meeting the hypotheses of C31, with its conversion -/
example : ∃ d d' : Dataset ℝ, toyGeo.Lawful ∧ d.crs.Consistent toyGeo ∧ d.crs.name = .ENU ∧
    d.coords.rows.length = 2 ∧ d.toEcef toyGeo = (.ok (), d') ∧ d'.coords.rows = [⟨15, 12, 8⟩, ⟨15, 13, 8⟩] :=
  ⟨⟨⟨[⟨1, 2, 3⟩, ⟨1, 3, 3⟩], false⟩, ⟨.ENU, some (wgs84 toyGeo), some ⟨7, 10, 5, wgs84 toyGeo⟩, .ELLPS⟩⟩,
   ⟨⟨[⟨15, 12, 8⟩, ⟨15, 13, 8⟩], false⟩, ⟨.ECEF, none, none, .ELLPS⟩⟩, toyGeo_lawful,
   by intro _; exact ⟨_, _, rfl, rfl, toyGeo_lawful.eq_refl _⟩, rfl, rfl, by
    have h : wgs84 toyGeo = ⟨"wgs84", "WGS-84", 7, 6⟩ := toyGeo_wgs84
    rw [h]
    norm_num [Dataset.toEcef, Dataset.apply, enuToEcef, mapRows, toyGeo, bind, Except.bind, pure, Except.pure], rfl⟩

/-- pointwise statement to lists of positions -/
theorem positions_eq {g : Geodesy S} {d d' : Dataset S}
    (h : List.Forall₂ (fun p q => position g d.crs p = position g d'.crs q) d.coords.rows d'.coords.rows) :
    d'.positions g = d.positions g := by
  simp only [Dataset.positions]
  symm
  rw [List.map_eq_iff]
  generalize d.coords.rows = l at h ⊢
  generalize d'.coords.rows = l' at h ⊢
  induction h with
  | nil => simp
  | cons h1 _ ih =>
    intro i
    cases i with
    | zero => simp [h1]
    | succ i => simpa using ih i

theorem forall₂_comp {α β γ : Type} {R : α → β → Prop} {R' : β → γ → Prop} {T : α → γ → Prop}
    (hT : ∀ a b c, R a b → R' b c → T a c) : ∀ {l : List α} {m : List β} {n : List γ},
    List.Forall₂ R l m → List.Forall₂ R' m n → List.Forall₂ T l n
  | _, _, _, .nil, .nil => .nil
  | _, _, _, .cons h1 h2, .cons h3 h4 => .cons (hT _ _ _ h1 h3) (forall₂_comp hT h2 h4)

/-- **C32.** `to_wgs84` on a non-Cartesian dataset (with a consistent CRS and, for geographic data, no left-over local
origin): the result is geographic on WGS84 with no local origin, positions are preserved, and a second call changes
nothing. -/
theorem C32_to_wgs84 (g : Geodesy S) (hg : g.Lawful) (d d' : Dataset S) (hcons : d.crs.Consistent g)
    (hc : d.crs.name ≠ .CART) (h : d.toWgs84 g = (.ok (), d')) :
    d'.crs.name = .ELLPS ∧ d'.crs.enu = none ∧ (∃ e, d'.crs.ellps = some e ∧ g.ellEq e (wgs84 g) = true) ∧
    d'.crs.vdatum = d.crs.vdatum ∧ d'.coords.rows.length = d.coords.rows.length ∧
    d'.positions g = d.positions g ∧ d'.toWgs84 g = (.ok (), d') := by
  have key : d'.crs.name = .ELLPS ∧ d'.crs.enu = none ∧ (∃ e, d'.crs.ellps = some e ∧ g.ellEq e (wgs84 g) = true) ∧
      d'.crs.vdatum = d.crs.vdatum ∧
      List.Forall₂ (fun p q => position g d.crs p = position g d'.crs q) d.coords.rows d'.coords.rows := by
    -- conversion through ECEF
    have through : ∀ (f : CrsFn S) (crs1 : Crs S) (c1 : Coords S),
        f d.coords d.crs = (.ok c1, crs1) → crs1.vdatum = d.crs.vdatum →
        List.Forall₂ (fun p q => position g d.crs p = some (.ok q)) d.coords.rows c1.rows →
        ecefToWgs84 g c1 crs1 = (.ok d'.coords, d'.crs) →
        d'.crs.name = .ELLPS ∧ d'.crs.enu = none ∧ (∃ e, d'.crs.ellps = some e ∧ g.ellEq e (wgs84 g) = true) ∧
        d'.crs.vdatum = d.crs.vdatum ∧
        List.Forall₂ (fun p q => position g d.crs p = position g d'.crs q) d.coords.rows d'.coords.rows := by
      intro f crs1 c1 _ hv h1 h2
      obtain ⟨h3, h4⟩ := ecefToWgs84_ok h2
      refine ⟨by rw [h4], by rw [h4], ⟨wgs84 g, by rw [h4], hg.eq_refl _⟩, by rw [h4]; exact hv, ?_⟩
      refine forall₂_comp ?_ h1 h3
      intro a b c hab hbc
      rw [hab, h4]
      simp [position, hg.geodetic_inv _ _ hbc]
    simp only [Dataset.toWgs84] at h
    cases hn : d.crs.name with
    | CART => exact absurd hn hc
    | ECEF =>
      rw [hn] at h; simp only [apply_ok] at h
      exact through crsId d.crs d.coords rfl rfl
        (List.forall₂_same.mpr (fun _ _ => by simp [position, hn])) h
    | ELLPS =>
      rw [hn] at h; simp only [apply_ok, ellpsToWgs84] at h
      split at h
      · rename_i hw
        simp only [Prod.mk.injEq, Except.ok.injEq] at h
        obtain ⟨h1, h2⟩ := h
        simp only [Bool.and_eq_true] at hw
        rw [← h1, ← h2]
        refine ⟨hn, by simpa using hw.1, ?_, rfl, List.forall₂_same.mpr (fun _ _ => rfl)⟩
        cases he : d.crs.ellps with
        | none => rw [he] at hw; simp [isWgs84] at hw
        | some e => rw [he] at hw; exact ⟨e, rfl, hw.2⟩
      · obtain ⟨c1, crs1, h1, h2⟩ := then_ok h
        obtain ⟨h3, h4⟩ := ellpsToEcef_ok h1
        exact through _ crs1 c1 h1 (by rw [h4]) (h3.imp fun _ _ h => by simp [position, hn, h]) h2
    | ENU =>
      rw [hn] at h; simp only [apply_ok, enuToWgs84] at h
      obtain ⟨c1, crs1, h1, h2⟩ := then_ok h
      obtain ⟨e, he, h3, h4⟩ := enuToEcef_ok h1
      obtain ⟨e', he', heq⟩ := hcons.agrees hg hn
      rw [he] at he'; cases he'
      exact through _ crs1 c1 h1 (by rw [h4]) (h3.imp fun _ _ h => by simp [position, hn, he, ← heq, h]) h2
  obtain ⟨h1, h2, ⟨e, he, heq⟩, h3, h4⟩ := key
  refine ⟨h1, h2, ⟨e, he, heq⟩, h3, h4.length_eq.symm, positions_eq h4, ?_⟩
  simp [Dataset.toWgs84, h1, Dataset.apply, ellpsToWgs84, h2, isWgs84, he, heq]

/-- a dataset on another ellipsoid whose conversion to WGS84 returns -/
example : ∃ d d' : Dataset ℝ, d.crs.Consistent toyGeo ∧ d.crs.name = .ELLPS ∧
    d.toWgs84 toyGeo = (.ok (), d') ∧ d'.coords.rows = [⟨-1, 2, 3⟩] :=
  ⟨⟨⟨[⟨1, 2, 3⟩], false⟩, ⟨.ELLPS, some ⟨"airy", "Airy", 5, 4⟩, none, .ELLPS⟩⟩,
   ⟨⟨[⟨-1, 2, 3⟩], false⟩, ⟨.ELLPS, some (wgs84 toyGeo), none, .ELLPS⟩⟩, by intro h; simp at h, rfl, by
    rw [Dataset.toWgs84, apply_ok, ellpsToWgs84, toyGeo_wgs84]
    norm_num [toyGeo, isWgs84, wgs84, findModel, CrsFn.then, ellpsToEcef, ecefToWgs84, mapRows, bind,
      Except.bind, pure, Except.pure], rfl⟩

/-- The full statement of C33: after `to_enu` the dataset is in the local frame of the requested origin and denotes the
same positions. -/
def C33_statement (S : Type) [Arith S] : Prop :=
  ∀ (g : Geodesy S), g.Lawful → ∀ (d d' : Dataset S), d.crs.Consistent g → d.crs.name ≠ .CART →
    ∀ lon0 lat0 alt0, d.toEnu g lon0 lat0 alt0 = (.ok (), d') →
      d'.crs.name = .ENU ∧ d'.crs.enu = some ⟨lon0, lat0, alt0, wgs84 g⟩ ∧ d'.positions g = d.positions g

/-- **C33**, first failure: a dataset already in a local frame is left in *its* frame, whatever origin is requested. -/
theorem C33_enu_ignores_origin (g : Geodesy S) (d : Dataset S) (h : d.crs.name = .ENU) (lon0 lat0 alt0 : S) :
    d.toEnu g lon0 lat0 alt0 = (.ok (), d) := by
  simp [Dataset.toEnu, h, Dataset.apply, crsId]

/-- **C33 is false.** -/
theorem C33_false : ¬ C33_statement ℝ := by
  intro h
  have := (h toyGeo toyGeo_lawful
    ⟨⟨[⟨1, 2, 3⟩], false⟩, ⟨.ENU, some (wgs84 toyGeo), some ⟨7, 10, 5, wgs84 toyGeo⟩, .ELLPS⟩⟩ _
    (by intro _; exact ⟨_, _, rfl, rfl, toyGeo_lawful.eq_refl _⟩) (by simp) 0 0 0
    (C33_enu_ignores_origin _ _ rfl _ _ _)).2.1
  simp at this

/-- **C33**, second failure: geographic coordinates on another ellipsoid are taken for WGS84 coordinates, so positions
change: for such a dataset the new positions are those of the same numbers on WGS84. -/
theorem C33_other_ellipsoid (g : Geodesy S) (hg : g.Lawful) (d d' : Dataset S) (hn : d.crs.name = .ELLPS)
    (lon0 lat0 alt0 : S) (h : d.toEnu g lon0 lat0 alt0 = (.ok (), d')) :
    d'.positions g = d.coords.rows.map (fun p => some (g.geodetic2ecef (some (wgs84 g)) p)) := by
  simp only [Dataset.toEnu, hn, apply_ok] at h
  obtain ⟨h1, h2⟩ := wgs84ToEnu_ok h
  have := positions_eq (g := g) (d := ⟨d.coords, ⟨.ELLPS, some (wgs84 g), none, .ELLPS⟩⟩) (d' := d')
    (h1.imp (fun p q hpq => by
      obtain ⟨x, hx, hq⟩ := hg.geodetic_enu _ _ _ _ _ hpq
      rw [h2]
      simp [position, hx, hg.enu_inv _ _ _ _ _ hq]))
  rw [this]
  simp [Dataset.positions, position]

/-- **C33, partial**: the statement holds for ECEF data and for geographic data on WGS84 (missing: data already in a
local frame with another origin, and geographic data on other ellipsoids, for which it is false). -/
theorem C33_partial (g : Geodesy S) (hg : g.Lawful) (d d' : Dataset S)
    (hc : d.crs.name = .ECEF ∨ d.crs.name = .ELLPS ∧ (d.crs.ellps = none ∨ isWgs84 g d.crs.ellps = true))
    (lon0 lat0 alt0 : S) (h : d.toEnu g lon0 lat0 alt0 = (.ok (), d')) :
    d'.crs.name = .ENU ∧ d'.crs.enu = some ⟨lon0, lat0, alt0, wgs84 g⟩ ∧ d'.positions g = d.positions g ∧
    d'.crs.ellps = d.crs.ellps := by
  rcases hc with hn | ⟨hn, hw⟩
  · simp only [Dataset.toEnu, hn, apply_ok] at h
    obtain ⟨h1, h2⟩ := ecefToEnu_ok h
    refine ⟨by rw [h2], by rw [h2], positions_eq (h1.imp fun p q hpq => ?_), by rw [h2]⟩
    rw [h2]
    simp [position, hn, hg.enu_inv _ _ _ _ _ hpq]
  · have h' := C33_other_ellipsoid g hg d d' hn _ _ _ h
    simp only [Dataset.toEnu, hn, apply_ok] at h
    obtain ⟨h1, h2⟩ := wgs84ToEnu_ok h
    refine ⟨by rw [h2], by rw [h2], ?_, by rw [h2]⟩
    rw [h']
    have : g.geodetic2ecef d.crs.ellps = g.geodetic2ecef (some (wgs84 g)) := by
      rcases hw with hw | hw
      · rw [hw, hg.default_ecef]
      · cases he : d.crs.ellps with
        | none => rw [he] at hw; simp [isWgs84] at hw
        | some e => rw [he] at hw; exact hg.eq_ecef _ _ hw
    simp [Dataset.positions, position, hn, this]

example : ∃ d d' : Dataset ℝ, d.crs.name = .ECEF ∧ d.toEnu toyGeo 1 2 3 = (.ok (), d') ∧
    d'.coords.rows = [⟨-7, 0, 0⟩] :=
  ⟨⟨⟨[⟨1, 2, 3⟩], false⟩, ⟨.ECEF, none, none, .ELLPS⟩⟩,
   ⟨⟨[⟨-7, 0, 0⟩], false⟩, ⟨.ENU, none, some ⟨1, 2, 3, wgs84 toyGeo⟩, .ELLPS⟩⟩, rfl, by
    rw [Dataset.toEnu, apply_ok, toyGeo_wgs84]
    norm_num [toyGeo, wgs84, findModel, ecefToEnu, mapRows, bind, Except.bind, pure, Except.pure], rfl⟩

/-- The full statement of C34. -/
def C34_statement (S : Type) [Arith S] : Prop :=
  ∀ (g : Geodesy S), g.Lawful → ∀ (ops : List (Op S)) (d : Dataset S), d.crs.Consistent g →
    (runOps g ops d).2.crs.Consistent g

/-- **C34**, failure: every ECEF dataset converted to a local frame has a CRS that the constructor would refuse. -/
theorem C34_ecef_to_enu_inconsistent (g : Geodesy S) (d d' : Dataset S) (hn : d.crs.name = .ECEF)
    (he : d.crs.ellps = none) (lon0 lat0 alt0 : S) (h : d.toEnu g lon0 lat0 alt0 = (.ok (), d')) :
    ¬ d'.crs.Consistent g := by
  simp only [Dataset.toEnu, hn, apply_ok] at h
  obtain ⟨_, h2⟩ := ecefToEnu_ok h
  intro hcons
  obtain ⟨e, l, _, hl, _⟩ := hcons (by rw [h2])
  rw [h2] at hl
  simp [he] at hl

/-- **C34 is false.** -/
theorem C34_false : ¬ C34_statement ℝ := by
  intro h
  have h1 := h toyGeo toyGeo_lawful [.enu 0 0 0] ⟨⟨[], false⟩, ⟨.ECEF, none, none, .ELLPS⟩⟩ (by intro h; simp at h)
  refine C34_ecef_to_enu_inconsistent toyGeo ⟨⟨[], false⟩, ⟨.ECEF, none, none, .ELLPS⟩⟩ _ rfl rfl 0 0 0 ?_ h1
  rfl

/-- **C34.** The constructor enforces the consistency: what it returns is consistent, and a local frame on another
ellipsoid than that of the system is a `ValueError`. -/
theorem C34_constructed (g : Geodesy S) (name : CRSName) (ellps : Option (Ell S)) (enu : Option (Enu S)) (v : VDatum) :
    (∀ c, mkCrs g name ellps enu v = .ok c → c.Consistent g) ∧
    (∀ e l, name = .ENU → enu = some e → ellps = some l → g.ellEq e.ellps l = false →
      mkCrs g name ellps enu v = .error .valueError) := by
  constructor
  · intro c h hc
    unfold mkCrs at h
    by_cases hn : name = .ENU
    · rw [if_pos hn] at h
      rcases enu with _ | e
      · cases h
      rcases ellps with _ | l
      · cases h
      dsimp only at h
      by_cases he : g.ellEq e.ellps l = true
      · rw [if_pos he] at h
        cases h
        exact ⟨e, l, rfl, rfl, he⟩
      · rw [if_neg he] at h; cases h
    · rw [if_neg hn] at h
      cases h
      exact absurd hc hn
  · rintro e l rfl rfl rfl he
    simp [mkCrs, he]

example : mkCrs toyGeo .ENU (some ⟨"a", "a", 6, 5⟩) (some ⟨0, 0, 0, ⟨"b", "b", 7, 5⟩⟩) .ELLPS = .error .valueError :=
  (C34_constructed toyGeo _ _ _ _).2 _ _ rfl rfl rfl (by simp [toyGeo])

/-- every use of `to_enu` in the sequence is on Cartesian data, on data already in a local frame, or on geographic data
on WGS84 -/
def EnuOnWgs84 (g : Geodesy S) : List (Op S) → Dataset S → Prop
  | [], _ => True
  | op :: ops, d =>
    (∀ lon lat alt, op = .enu lon lat alt →
      d.crs.name = .CART ∨ d.crs.name = .ENU ∨ d.crs.name = .ELLPS ∧ isWgs84 g d.crs.ellps = true) ∧
    EnuOnWgs84 g ops (op.run g d).2

theorem apply_snd (f : CrsFn S) (d : Dataset S) : (d.apply f).2.crs = (f d.coords d.crs).2 := by
  simp only [Dataset.apply]
  rcases f d.coords d.crs with ⟨_ | c, crs⟩ <;> rfl

theorem ellEq_symm_of {g : Geodesy S} (hs : ∀ e e', g.ellEq e e' = true → g.ellEq e' e = true) {e : Ell S}
    (h : isWgs84 g (some e) = true) : g.ellEq (wgs84 g) e = true := hs _ _ h

theorem op_consistent (g : Geodesy S) (hs : ∀ e e', g.ellEq e e' = true → g.ellEq e' e = true) (op : Op S)
    (d : Dataset S) (hd : d.crs.Consistent g)
    (he : ∀ lon lat alt, op = .enu lon lat alt →
      d.crs.name = .CART ∨ d.crs.name = .ENU ∨ d.crs.name = .ELLPS ∧ isWgs84 g d.crs.ellps = true) :
    (op.run g d).2.crs.Consistent g := by
  have hec : ∀ (c : Coords S) (crs : Crs S), crs.name ≠ .ENU → ((ecefToWgs84 g) c crs).2.name ≠ .ENU := by
    intro c crs h
    simp only [ecefToWgs84]; split <;> simp [h]
  have hth : ∀ (f : CrsFn S), (∀ (e : PyErr), (f d.coords d.crs).1 = .error e →
        (f d.coords d.crs).2.Consistent g) → (∀ c, (f d.coords d.crs).1 = .ok c → (f d.coords d.crs).2.name ≠ .ENU) →
      ((f.then (ecefToWgs84 g)) d.coords d.crs).2.Consistent g := by
    intro f h1 h2
    simp only [CrsFn.then]
    rcases hf : f d.coords d.crs with ⟨e | c, crs⟩
    · have := h1 e (by rw [hf]); rwa [hf] at this
    · have := h2 c (by rw [hf]); rw [hf] at this
      intro h; exact absurd h (hec _ _ this)
  have hen : (enuToEcef g d.coords d.crs).2.Consistent g := by
    simp only [enuToEcef]
    split
    · exact hd
    · split
      · exact hd
      · intro h; simp at h
  have hel : (ellpsToEcef g d.coords d.crs).2.Consistent g := by
    simp only [ellpsToEcef]
    split
    · exact hd
    · intro h; simp at h
  cases op with
  | lon180 =>
    simp only [Op.run, Dataset.toLon180]
    split <;> exact hd
  | height =>
    simp only [Op.run, Dataset.toEllipsoidHeight]
    have h1 : (ellipsoidHeight g d.coords d.crs).2.Consistent g := by
      simp only [ellipsoidHeight]
      split
      · exact hd
      · split
        · exact hd
        · exact hd
    split <;> rw [apply_snd] <;> first | exact h1 | exact hd
  | ecef =>
    simp only [Op.run, Dataset.toEcef]
    split <;> rw [apply_snd] <;> first | exact hen | exact hel | exact hd
  | wgs84 =>
    simp only [Op.run, Dataset.toWgs84]
    split <;> rw [apply_snd]
    · refine hth _ (fun e _ => hen) (fun c hc => ?_)
      simp only [enuToEcef] at hc ⊢
      split
      · rename_i h; rw [h] at hc; simp at hc
      · rename_i h; rw [h] at hc; simp only at hc
        split
        · rename_i h2; rw [h2] at hc; simp at hc
        · simp
    · simp only [ellpsToWgs84]
      split
      · exact hd
      · refine hth _ (fun e _ => hel) (fun c hc => ?_)
        simp only [ellpsToEcef] at hc ⊢
        split
        · rename_i h2; rw [h2] at hc; simp at hc
        · simp
    · rename_i hn
      intro h; exact absurd h (hec _ _ (by rw [hn]; simp))
    · exact hd
  | enu lon lat alt =>
    simp only [Op.run, Dataset.toEnu]
    rcases he lon lat alt rfl with hn | hn | ⟨hn, hw⟩
    · rw [hn]; simp only [apply_snd]; exact hd
    · rw [hn]; simp only [apply_snd]; exact hd
    · rw [hn]; simp only [apply_snd, wgs84ToEnu]
      split
      · exact hd
      · intro _
        cases hl : d.crs.ellps with
        | none => rw [hl] at hw; simp [isWgs84] at hw
        | some e => rw [hl] at hw; exact ⟨_, e, rfl, rfl, hs _ _ hw⟩

/-- **C34, partial**: every sequence of transformations keeps the consistency, also when one of them raises, provided
`to_enu` is only used on geographic WGS84 (or local or Cartesian) data (missing: `to_enu` on ECEF data and on other
ellipsoids, for which the statement is false).  `==` on ellipsoids is assumed symmetric. -/
theorem C34_partial (g : Geodesy S) (hs : ∀ e e', g.ellEq e e' = true → g.ellEq e' e = true) (ops : List (Op S))
    (d : Dataset S) (hd : d.crs.Consistent g) (he : EnuOnWgs84 g ops d) : (runOps g ops d).2.crs.Consistent g := by
  induction ops generalizing d with
  | nil => exact hd
  | cons op ops ih =>
    have h1 := op_consistent g hs op d hd he.1
    simp only [runOps]
    rcases h : op.run g d with ⟨e | u, d'⟩
    · rw [h] at h1; exact h1
    · rw [h] at h1
      exact ih d' h1 (by have := he.2; rwa [h] at this)

example : (∀ e e', toyGeo.ellEq e e' = true → toyGeo.ellEq e' e = true) ∧
    EnuOnWgs84 toyGeo [.wgs84, .enu 1 2 3, .lon180, .ecef]
      ⟨⟨[⟨1, 2, 3⟩], false⟩, ⟨.ECEF, none, none, .ELLPS⟩⟩ := by
  refine ⟨by intro e e' h; simp [toyGeo] at h ⊢; simp [h], ?_⟩
  have h1 := toyGeo_wgs84
  simp [EnuOnWgs84, Op.run, Dataset.toWgs84, Dataset.apply, ecefToWgs84, mapRows, bind, Except.bind, pure, Except.pure,
    toyGeo_lawful.eq_refl, isWgs84]
  simp [toyGeo]

/-- The full statement of C35. -/
def C35_statement (S : Type) [Arith S] : Prop :=
  ∀ (g : Geodesy S), g.Lawful → ∀ (ops : List (Op S)), (∀ op ∈ ops, op ≠ .lon180 ∧ op ≠ .height) →
    ∀ (d d' : Dataset S), d.crs.Consistent g → d.crs.name ≠ .CART → runOps g ops d = (.ok (), d') →
      d'.positions g = d.positions g

/-- **C35 is false**: geographic coordinates on another ellipsoid move when converted to a local frame. -/
theorem C35_false : ¬ C35_statement ℝ := by
  intro h
  have hrun : Dataset.toEnu toyGeo 0 0 0 ⟨⟨[⟨1, 2, 3⟩], false⟩, ⟨.ELLPS, some ⟨"airy", "Airy", 5, 4⟩, none, .ELLPS⟩⟩ =
      (.ok (), (⟨⟨[⟨1, 2, 3⟩], false⟩, ⟨.ENU, some ⟨"airy", "Airy", 5, 4⟩, some ⟨0, 0, 0, wgs84 toyGeo⟩, .ELLPS⟩⟩ :
        Dataset ℝ)) := by
    rw [Dataset.toEnu, apply_ok, toyGeo_wgs84]
    norm_num [toyGeo, wgs84, findModel, wgs84ToEnu, mapRows, bind, Except.bind, pure, Except.pure]
  have h1 := h toyGeo toyGeo_lawful [.enu 0 0 0] (by simp)
    ⟨⟨[⟨1, 2, 3⟩], false⟩, ⟨.ELLPS, some ⟨"airy", "Airy", 5, 4⟩, none, .ELLPS⟩⟩ _ (by intro h; simp at h) (by simp)
    (by simp only [runOps, Op.run, hrun]; rfl)
  rw [toyGeo_wgs84] at h1
  norm_num [Dataset.positions, position, toyGeo] at h1

/-- no use of `to_enu` in the sequence is on geographic data on another ellipsoid than WGS84 -/
def EnuSafe (g : Geodesy S) : List (Op S) → Dataset S → Prop
  | [], _ => True
  | op :: ops, d =>
    (∀ lon lat alt, op = .enu lon lat alt → d.crs.name = .ELLPS →
      d.crs.ellps = none ∨ isWgs84 g d.crs.ellps = true) ∧
    EnuSafe g ops (op.run g d).2

/-- what is preserved along a sequence -/
def Crs.Sound (g : Geodesy S) (c : Crs S) : Prop := c.Agrees g ∧ (c.name = .ECEF → c.ellps = none)

/-- one conversion preserves positions -/
theorem op_positions (g : Geodesy S) (hg : g.Lawful) (op : Op S) (hop : op ≠ .lon180 ∧ op ≠ .height)
    (d d' : Dataset S) (hs : d.crs.Sound g) (h : op.run g d = (.ok (), d'))
    (he : ∀ lon lat alt, op = .enu lon lat alt → d.crs.name = .ELLPS →
      d.crs.ellps = none ∨ isWgs84 g d.crs.ellps = true) :
    d'.positions g = d.positions g ∧ d'.crs.Sound g := by
  by_cases hc : d.crs.name = .CART
  · have : d' = d := by
      cases op <;> simp_all [Op.run, Dataset.toEcef, Dataset.toWgs84, Dataset.toEnu, Dataset.apply, crsId] <;>
        exact h.symm
    subst this; exact ⟨rfl, hs⟩
  cases op with
  | lon180 => exact absurd rfl hop.1
  | height => exact absurd rfl hop.2
  | ecef =>
    obtain ⟨h1, h2, h3, h4, _⟩ := toEcef_positions hs.1 hc h
    refine ⟨positions_eq (h1.imp fun p q hpq => by rw [hpq]; simp [position, h2]), ?_, ?_⟩
    · intro h; rw [h2] at h; cases h
    · intro _
      by_cases hn : d.crs.name = .ECEF
      · rw [h4 hn]; exact hs.2 hn
      · exact (h3 hn).1
  | wgs84 =>
    -- the agreement is all that is needed of the consistency
    have h1 : d'.positions g = d.positions g ∧ d'.crs.name = .ELLPS := by
      have through : ∀ (crs1 : Crs S) (c1 : Coords S),
          List.Forall₂ (fun p q => position g d.crs p = some (.ok q)) d.coords.rows c1.rows →
          ecefToWgs84 g c1 crs1 = (.ok d'.coords, d'.crs) → d'.positions g = d.positions g ∧ d'.crs.name = .ELLPS := by
        intro crs1 c1 h1 h2
        obtain ⟨h3, h4⟩ := ecefToWgs84_ok h2
        refine ⟨positions_eq (forall₂_comp ?_ h1 h3), by rw [h4]⟩
        intro a b c hab hbc
        rw [hab, h4]
        simp [position, hg.geodetic_inv _ _ hbc]
      simp only [Op.run, Dataset.toWgs84] at h
      cases hn : d.crs.name with
      | CART => exact absurd hn hc
      | ECEF =>
        rw [hn] at h; simp only [apply_ok] at h
        exact through d.crs d.coords (List.forall₂_same.mpr (fun _ _ => by simp [position, hn])) h
      | ELLPS =>
        rw [hn] at h; simp only [apply_ok, ellpsToWgs84] at h
        split at h
        · simp only [Prod.mk.injEq, Except.ok.injEq] at h
          have : d' = d := by cases d; cases d'; simp_all
          subst this; exact ⟨rfl, hn⟩
        · obtain ⟨c1, crs1, h1, h2⟩ := then_ok h
          obtain ⟨h3, h4⟩ := ellpsToEcef_ok h1
          exact through crs1 c1 (h3.imp fun _ _ h => by simp [position, hn, h]) h2
      | ENU =>
        rw [hn] at h; simp only [apply_ok, enuToWgs84] at h
        obtain ⟨c1, crs1, h1, h2⟩ := then_ok h
        obtain ⟨e, he, h3, h4⟩ := enuToEcef_ok h1
        obtain ⟨e', he', heq⟩ := hs.1 hn
        rw [he] at he'; cases he'
        exact through crs1 c1 (h3.imp fun _ _ h => by simp [position, hn, he, ← heq, h]) h2
    refine ⟨h1.1, ?_, ?_⟩
    · intro h; rw [h1.2] at h; cases h
    · intro h; rw [h1.2] at h; cases h
  | enu lon lat alt =>
    by_cases hn : d.crs.name = .ENU
    · simp only [Op.run] at h
      rw [C33_enu_ignores_origin g d hn] at h
      cases h; exact ⟨rfl, hs⟩
    · have hcase : d.crs.name = .ECEF ∨
          d.crs.name = .ELLPS ∧ (d.crs.ellps = none ∨ isWgs84 g d.crs.ellps = true) := by
        cases hnn : d.crs.name with
        | CART => exact absurd hnn hc
        | ENU => exact absurd hnn hn
        | ECEF => exact Or.inl rfl
        | ELLPS => exact Or.inr ⟨rfl, he _ _ _ rfl hnn⟩
      obtain ⟨h1, h2, h3, h4⟩ := C33_partial g hg d d' hcase _ _ _ h
      refine ⟨h3, ?_, ?_⟩
      · intro _
        refine ⟨_, h2, ?_⟩
        rw [h4]
        have hor : d.crs.ellps = none ∨ isWgs84 g d.crs.ellps = true := by
          rcases hcase with hh | hh
          · exact Or.inl (hs.2 hh)
          · exact hh.2
        rcases hor with hw | hw
        · rw [hw, hg.default_enu]
        · cases hl : d.crs.ellps with
          | none => rw [hl] at hw; simp [isWgs84] at hw
          | some e => rw [hl] at hw; exact hg.eq_enu _ _ hw
      · intro h; rw [h1] at h; cases h

/-- **C35, partial**: every finite sequence of returning `to_ecef`, `to_wgs84`, `to_enu` calls preserves the position of
every point, provided `to_enu` is not used on geographic data on another ellipsoid than WGS84 (missing: exactly that
case, for which the statement is false). -/
theorem C35_partial (g : Geodesy S) (hg : g.Lawful) (ops : List (Op S))
    (hops : ∀ op ∈ ops, op ≠ .lon180 ∧ op ≠ .height) (d d' : Dataset S) (hcons : d.crs.Consistent g)
    (hplain : d.crs.name = .ECEF → d.crs.ellps = none) (hsafe : EnuSafe g ops d)
    (h : runOps g ops d = (.ok (), d')) : d'.positions g = d.positions g := by
  have key : ∀ (ops : List (Op S)), (∀ op ∈ ops, op ≠ .lon180 ∧ op ≠ .height) → ∀ d : Dataset S, d.crs.Sound g →
      EnuSafe g ops d → runOps g ops d = (.ok (), d') → d'.positions g = d.positions g := by
    intro ops
    induction ops with
    | nil => intro _ d _ _ h; simp only [runOps, Prod.mk.injEq, true_and] at h; rw [h]
    | cons op ops ih =>
      intro hops d hs hsafe h
      simp only [runOps] at h
      rcases hr : op.run g d with ⟨e | u, d1⟩
      · rw [hr] at h; simp at h
      · rw [hr] at h
        obtain ⟨h1, h2⟩ := op_positions g hg op (hops op (by simp)) d d1 hs hr hsafe.1
        rw [← h1]
        exact ih (fun o ho => hops o (by simp [ho])) d1 h2 (by have := hsafe.2; rwa [hr] at this) h
  exact key ops hops d ⟨hcons.agrees hg, hplain⟩ hsafe h

/-- conversions of data on WGS84, or without ellipsoid, give such data -/
theorem op_wgs84 (g : Geodesy S) (hg : g.Lawful) (op : Op S) (hop : op ≠ .lon180 ∧ op ≠ .height) (d : Dataset S)
    (hw : d.crs.ellps = none ∨ isWgs84 g d.crs.ellps = true) :
    (op.run g d).2.crs.ellps = none ∨ isWgs84 g (op.run g d).2.crs.ellps = true := by
  have hwg : isWgs84 g (some (wgs84 g)) = true := hg.eq_refl _
  have hec : ∀ (c : Coords S) (crs : Crs S), crs.ellps = none ∨ isWgs84 g crs.ellps = true →
      ((ecefToWgs84 g) c crs).2.ellps = none ∨ isWgs84 g ((ecefToWgs84 g) c crs).2.ellps = true := by
    intro c crs h
    simp only [ecefToWgs84]; split
    · exact h
    · exact Or.inr hwg
  have hel : (ellpsToEcef g d.coords d.crs).2.ellps = none ∨
      isWgs84 g (ellpsToEcef g d.coords d.crs).2.ellps = true := by
    simp only [ellpsToEcef]; split
    · exact hw
    · exact Or.inl rfl
  have hen : (enuToEcef g d.coords d.crs).2.ellps = none ∨
      isWgs84 g (enuToEcef g d.coords d.crs).2.ellps = true := by
    simp only [enuToEcef]; split
    · exact hw
    · split
      · exact hw
      · exact Or.inl rfl
  have hth : ∀ f : CrsFn S, ((f d.coords d.crs).2.ellps = none ∨ isWgs84 g (f d.coords d.crs).2.ellps = true) →
      (((f.then (ecefToWgs84 g)) d.coords d.crs).2.ellps = none ∨
        isWgs84 g ((f.then (ecefToWgs84 g)) d.coords d.crs).2.ellps = true) := by
    intro f hf
    simp only [CrsFn.then]
    rcases hh : f d.coords d.crs with ⟨e | c, crs⟩
    · rw [hh] at hf; exact hf
    · rw [hh] at hf; exact hec _ _ hf
  cases op with
  | lon180 => exact absurd rfl hop.1
  | height => exact absurd rfl hop.2
  | ecef =>
    simp only [Op.run, Dataset.toEcef]
    split <;> rw [apply_snd] <;> first | exact hen | exact hel | exact hw
  | wgs84 =>
    simp only [Op.run, Dataset.toWgs84]
    split <;> rw [apply_snd]
    · exact hth _ hen
    · simp only [ellpsToWgs84]; split
      · exact hw
      · exact hth _ hel
    · exact hec _ _ hw
    · exact hw
  | enu lon lat alt =>
    simp only [Op.run, Dataset.toEnu]
    split <;> rw [apply_snd]
    · exact hw
    · simp only [wgs84ToEnu]; split <;> exact hw
    · simp only [ecefToEnu]; split <;> exact hw
    · exact hw

/-- **C35, partial**, in a form without a condition on the intermediate states: for data that start on WGS84, any
sequence preserves positions. -/
theorem C35_wgs84_partial (g : Geodesy S) (hg : g.Lawful) (ops : List (Op S))
    (hops : ∀ op ∈ ops, op ≠ .lon180 ∧ op ≠ .height) (d d' : Dataset S) (hcons : d.crs.Consistent g)
    (hplain : d.crs.name = .ECEF → d.crs.ellps = none)
    (hw : d.crs.ellps = none ∨ isWgs84 g d.crs.ellps = true)
    (h : runOps g ops d = (.ok (), d')) : d'.positions g = d.positions g := by
  refine C35_partial g hg ops hops d d' hcons hplain ?_ h
  clear h hcons hplain
  induction ops generalizing d with
  | nil => trivial
  | cons op ops ih =>
    refine ⟨fun _ _ _ _ _ => hw, ih (fun o ho => hops o (by simp [ho])) _ (op_wgs84 g hg op (hops op (by simp)) d hw)⟩

/-- a sequence with all three conversions, from ECEF data, that returns -/
example : ∃ d' : Dataset ℝ, runOps toyGeo [.enu 1 2 3, .wgs84, .ecef]
    ⟨⟨[⟨1, 2, 3⟩], false⟩, ⟨.ECEF, none, none, .ELLPS⟩⟩ = (.ok (), d') ∧ d'.coords.rows = [⟨1, 2, 3⟩] := by
  refine ⟨⟨⟨[⟨1, 2, 3⟩], false⟩, ⟨.ECEF, none, none, .ELLPS⟩⟩, ?_, rfl⟩
  have h := toyGeo_wgs84
  norm_num [runOps, Op.run, Dataset.toEnu, Dataset.toWgs84, Dataset.toEcef, Dataset.apply, toyGeo, wgs84, findModel,
    ecefToEnu, enuToWgs84, CrsFn.then, enuToEcef, ecefToWgs84, ellpsToEcef, mapRows, bind, Except.bind, pure,
    Except.pure]

end Geec
