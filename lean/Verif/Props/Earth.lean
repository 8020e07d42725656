import Verif.Lemmas.Earth
import Verif.Lemmas.Rigid
import Verif.Props.Frames
import Verif.Props.EndToEnd
/-
C87, C88: the conversions with the closed formulas of the geodesy library (exact arithmetic).
-/
namespace Geec
open Arith
noncomputable section

variable (more : List (String × String × ℝ × ℝ)) (latLonErr : ℝ → ℝ → Option PyErr) (geoid : VDatum → ℝ → ℝ → ℝ)

/-! ### C87 -/

theorem earth_ecef2geodetic (x : V3 ℝ) : ∃ p, (earth more latLonErr geoid).ecef2geodetic x = .ok p := by
  have h := geodetic2ecefOn_surjective wgsA_pos wgsB_pos x
  exact ⟨Classical.choose h, by simp only [earth]; rw [dif_pos h]⟩

theorem geodetic2ecefOn_ok {a b : ℝ} {p : V3 ℝ} (h : |p.y| ≤ 90) : ∃ x, geodetic2ecefOn a b p = .ok x :=
  ⟨_, if_neg (not_lt.mpr h)⟩

theorem geodetic2ecefOn_iff {a b : ℝ} {p x : V3 ℝ} :
    geodetic2ecefOn a b p = .ok x ↔ |p.y| ≤ 90 ∧ x = geodeticPoint a b (radians p.y) (radians p.x) p.z := by
  unfold geodetic2ecefOn
  split
  · rename_i h
    exact ⟨fun h' => (nomatch h'), fun h' => absurd h (not_lt.mpr h'.1)⟩
  · rename_i h
    rw [Except.ok.injEq]
    exact ⟨fun e => ⟨not_lt.mp h, e.symm⟩, fun e => e.2.symm⟩

theorem ecef2enuOn_ok {a b lat lon alt : ℝ} (h : |lat| ≤ 90) (x : V3 ℝ) : ∃ q, ecef2enuOn a b lat lon alt x = .ok q := by
  obtain ⟨o, ho⟩ := geodetic2ecefOn_ok (a := a) (b := b) (p := ⟨lon, lat, alt⟩) h
  exact ⟨_, by unfold ecef2enuOn; rw [ho]; rfl⟩

theorem toEcef_returns {g : Geodesy ℝ} {d : Dataset ℝ} (ha : d.crs.Agrees g)
    (hp : ∀ p ∈ d.coords.rows, ∃ q, position g d.crs p = some (.ok q)) :
    (d.crs.name = .ELLPS → ∃ c crs, ellpsToEcef g d.coords d.crs = (.ok c, crs)) ∧
    (d.crs.name = .ENU → ∃ c crs, enuToEcef g d.coords d.crs = (.ok c, crs)) := by
  constructor
  · intro hn
    obtain ⟨c', hc'⟩ := mapRows_total (f := g.geodetic2ecef d.crs.ellps) (c := d.coords)
      (fun p h => by simpa [position, hn] using hp p h)
    exact ⟨c', _, by simp only [ellpsToEcef, hc']; rfl⟩
  · intro hn
    obtain ⟨e, he, heq⟩ := ha hn
    obtain ⟨c', hc'⟩ := mapRows_total (f := g.enu2ecef d.crs.ellps e.lat0 e.lon0 e.alt0) (c := d.coords)
      (fun p h => by simpa [position, hn, he, heq] using hp p h)
    exact ⟨c', _, by simp only [enuToEcef, he, hc']; rfl⟩

theorem apply_returns {f : CrsFn ℝ} {d : Dataset ℝ} (h : ∃ c crs, f d.coords d.crs = (.ok c, crs)) : ∃ d', d.apply f = (.ok (), d') := by
  obtain ⟨c, crs, h⟩ := h
  exact ⟨⟨c, crs⟩, apply_ok.mpr h⟩

theorem ecefToWgs84_returns (c : Coords ℝ) (crs : Crs ℝ) :
    ∃ c' crs', ecefToWgs84 (earth more latLonErr geoid) c crs = (.ok c', crs') := by
  obtain ⟨c', hc'⟩ := mapRows_total (f := (earth more latLonErr geoid).ecef2geodetic) (c := c)
    (fun p _ => earth_ecef2geodetic more latLonErr geoid p)
  exact ⟨c', _, by simp only [ecefToWgs84, hc']; rfl⟩

theorem then_returns {f : CrsFn ℝ} {c : Coords ℝ} {crs : Crs ℝ} (h : ∃ c' crs', f c crs = (.ok c', crs')) :
    ∃ c' crs', f.then (ecefToWgs84 (earth more latLonErr geoid)) c crs = (.ok c', crs') := by
  obtain ⟨c', crs', h⟩ := h
  obtain ⟨c2, crs2, h2⟩ := ecefToWgs84_returns more latLonErr geoid c' crs'
  exact ⟨c2, crs2, by simp only [CrsFn.then, h, h2]⟩

/-- one of the three conversions between frames, with a local origin that has a latitude -/
def Op.Conversion (op : Op ℝ) : Prop := op = .ecef ∨ op = .wgs84 ∨ ∃ lon lat alt, op = .enu lon lat alt ∧ |lat| ≤ 90

theorem Op.Conversion.ne {op : Op ℝ} (h : op.Conversion) : op ≠ .lon180 ∧ op ≠ .height := by
  rcases h with rfl | rfl | ⟨lon, lat, alt, rfl, _⟩ <;> constructor <;> intro h <;> cases h

theorem op_returns {op : Op ℝ} (hop : op.Conversion) {d : Dataset ℝ} (ha : d.crs.Agrees (earth more latLonErr geoid))
    (hw : d.crs.ellps = none ∨ isWgs84 (earth more latLonErr geoid) d.crs.ellps = true)
    (hp : ∀ p ∈ d.coords.rows, ∃ q, position (earth more latLonErr geoid) d.crs p = some (.ok q)) :
    ∃ d', op.run (earth more latLonErr geoid) d = (.ok (), d') := by
  obtain ⟨h1, h2⟩ := toEcef_returns ha hp
  have hid : ∃ d', d.apply crsId = (.ok (), d') := ⟨d, rfl⟩
  rcases hop with rfl | rfl | ⟨lon, lat, alt, rfl, hlat⟩
  · simp only [Op.run, Dataset.toEcef]
    split
    · rename_i hn; exact apply_returns (h2 hn)
    · rename_i hn; exact apply_returns (h1 hn)
    · exact hid
    · exact hid
  · simp only [Op.run, Dataset.toWgs84]
    split
    · rename_i hn; exact apply_returns (then_returns _ _ _ (h2 hn))
    · rename_i hn
      refine apply_returns ?_
      simp only [ellpsToWgs84]
      split
      · exact ⟨_, _, rfl⟩
      · exact then_returns _ _ _ (h1 hn)
    · exact apply_returns (ecefToWgs84_returns _ _ _ _ _)
    · exact hid
  · simp only [Op.run, Dataset.toEnu]
    split
    · exact hid
    · rename_i hn
      refine apply_returns ?_
      obtain ⟨c', hc'⟩ := mapRows_total (f := (earth more latLonErr geoid).geodetic2enu lat lon alt) (c := d.coords) (by
        intro p hpm
        obtain ⟨q, hq⟩ := hp p hpm
        simp only [position, hn, Option.some.injEq] at hq
        have hq' : geodetic2ecefOn wgsA wgsB p = .ok q := by
          rcases hw with hw | hw
          · rw [hw] at hq; exact hq
          · cases he : d.crs.ellps with
            | none => rw [he] at hq; exact hq
            | some e =>
              rw [he] at hw hq
              rw [(earth_lawful more latLonErr geoid).eq_ecef _ _ hw, earth_wgs84] at hq
              exact hq
        obtain ⟨r, hr⟩ := ecef2enuOn_ok (a := wgsA) (b := wgsB) (lon := lon) (alt := alt) hlat q
        exact ⟨r, by simp only [earth, hq', hr, bind, Except.bind]⟩)
      exact ⟨c', _, by simp only [wgs84ToEnu, hc']; rfl⟩
    · refine apply_returns ?_
      obtain ⟨c', hc'⟩ := mapRows_total (f := (earth more latLonErr geoid).ecef2enu lat lon alt) (c := d.coords)
        (fun p _ => ecef2enuOn_ok hlat p)
      exact ⟨c', _, by simp only [ecefToEnu, hc']; rfl⟩
    · exact hid

theorem positions_exist {g : Geodesy ℝ} {d d' : Dataset ℝ} (h : d'.positions g = d.positions g)
    (hp : ∀ p ∈ d.coords.rows, ∃ q, position g d.crs p = some (.ok q)) : ∀ p ∈ d'.coords.rows, ∃ q, position g d'.crs p = some (.ok q) := by
  intro p hpm
  have : position g d'.crs p ∈ d.positions g := h ▸ List.mem_map_of_mem hpm
  obtain ⟨p0, hp0, e⟩ := List.mem_map.mp this
  obtain ⟨q, hq⟩ := hp p0 hp0
  exact ⟨q, by rw [← e, hq]⟩

theorem op_not_cart (g : Geodesy ℝ) {op : Op ℝ} (d : Dataset ℝ) (hc : d.crs.name ≠ .CART) : (op.run g d).2.crs.name ≠ .CART := by
  have hec : ∀ c crs, crs.name ≠ .CART → (ecefToWgs84 g c crs).2.name ≠ .CART := by
    intro c crs h; simp only [ecefToWgs84]; split <;> simp [h]
  have hth : ∀ f : CrsFn ℝ, (f d.coords d.crs).2.name ≠ .CART → ((f.then (ecefToWgs84 g)) d.coords d.crs).2.name ≠ .CART := by
    intro f hf
    simp only [CrsFn.then]
    rcases hh : f d.coords d.crs with ⟨e | c, crs⟩
    · rw [hh] at hf; exact hf
    · rw [hh] at hf; exact hec _ _ hf
  have hel : (ellpsToEcef g d.coords d.crs).2.name ≠ .CART := by
    simp only [ellpsToEcef]; split <;> simp [hc]
  have hen : (enuToEcef g d.coords d.crs).2.name ≠ .CART := by
    simp only [enuToEcef]; split
    · exact hc
    · split <;> simp [hc]
  cases op with
  | lon180 => simp only [Op.run, Dataset.toLon180]; split <;> exact hc
  | height =>
    simp only [Op.run, Dataset.toEllipsoidHeight]
    split <;> rw [apply_snd]
    · simp only [ellipsoidHeight]; split
      · exact hc
      · split <;> exact hc
    · simp only [ellipsoidHeight]; split
      · exact hc
      · split <;> exact hc
    · exact hc
    · exact hc
  | ecef =>
    simp only [Op.run, Dataset.toEcef]
    split <;> rw [apply_snd] <;> first | exact hen | exact hel | exact hc
  | wgs84 =>
    simp only [Op.run, Dataset.toWgs84]
    split <;> rw [apply_snd]
    · exact hth _ hen
    · simp only [ellpsToWgs84]; split
      · exact hc
      · exact hth _ hel
    · exact hec _ _ hc
    · exact hc
  | enu lon lat alt =>
    simp only [Op.run, Dataset.toEnu]
    split <;> rw [apply_snd]
    · exact hc
    · simp only [wgs84ToEnu]; split <;> simp [hc]
    · simp only [ecefToEnu]; split <;> simp [hc]
    · exact hc

theorem runOps_append {g : Geodesy ℝ} : ∀ {ops ops' : List (Op ℝ)} {d d1 : Dataset ℝ}, runOps g ops d = (.ok (), d1) →
    runOps g (ops ++ ops') d = runOps g ops' d1
  | [], _, _, _, h => by simp only [runOps, Prod.mk.injEq, true_and] at h; rw [h]; rfl
  | op :: ops, ops', d, d1, h => by
    simp only [runOps, List.cons_append] at h ⊢
    rcases hr : op.run g d with ⟨e | u, d2⟩
    · rw [hr] at h; cases h
    · rw [hr] at h; exact runOps_append h

theorem runOps_sound (ops : List (Op ℝ)) (hops : ∀ op ∈ ops, op.Conversion) (d : Dataset ℝ)
    (hs : d.crs.Sound (earth more latLonErr geoid))
    (hw : d.crs.ellps = none ∨ isWgs84 (earth more latLonErr geoid) d.crs.ellps = true)
    (hp : ∀ p ∈ d.coords.rows, ∃ q, position (earth more latLonErr geoid) d.crs p = some (.ok q)) (hc : d.crs.name ≠ .CART) :
    ∃ d', runOps (earth more latLonErr geoid) ops d = (.ok (), d') ∧ d'.crs.Sound (earth more latLonErr geoid) ∧ d'.crs.name ≠ .CART := by
  have hg := earth_lawful more latLonErr geoid
  induction ops generalizing d with
  | nil => exact ⟨d, rfl, hs, hc⟩
  | cons op ops ih =>
    obtain ⟨d1, h1⟩ := op_returns more latLonErr geoid (hops op (by simp)) hs.1 hw hp
    obtain ⟨h2, h3⟩ := op_positions _ hg op (hops op (by simp)).ne d d1 hs h1 (fun _ _ _ _ _ => hw)
    have h4 := op_wgs84 _ hg op (hops op (by simp)).ne d hw
    have h5 := op_not_cart (earth more latLonErr geoid) (op := op) d hc
    rw [h1] at h4 h5
    obtain ⟨d', h6, h7⟩ := ih (fun o ho => hops o (by simp [ho])) d1 h3 h4 (positions_exist h2 hp) h5
    exact ⟨d', by simp only [runOps, h1, h6], h7⟩

/-- **C87** With the closed formulas: any sequence of `to_ecef`, `to_wgs84`, `to_enu` (with latitudes between -90 and 90) on data that start on
WGS84 and have positions returns, and every point keeps its position. -/
theorem C87_sequences (ops : List (Op ℝ)) (hops : ∀ op ∈ ops, op.Conversion) (d : Dataset ℝ)
    (hcons : d.crs.Consistent (earth more latLonErr geoid)) (hplain : d.crs.name = .ECEF → d.crs.ellps = none)
    (hw : d.crs.ellps = none ∨ isWgs84 (earth more latLonErr geoid) d.crs.ellps = true)
    (hp : ∀ p ∈ d.coords.rows, ∃ q, position (earth more latLonErr geoid) d.crs p = some (.ok q)) :
    ∃ d', runOps (earth more latLonErr geoid) ops d = (.ok (), d') ∧
      d'.positions (earth more latLonErr geoid) = d.positions (earth more latLonErr geoid) := by
  have hg := earth_lawful more latLonErr geoid
  have hs : d.crs.Sound (earth more latLonErr geoid) := ⟨hcons.agrees hg, hplain⟩
  clear hcons hplain
  induction ops generalizing d with
  | nil => exact ⟨d, rfl, rfl⟩
  | cons op ops ih =>
    obtain ⟨d1, h1⟩ := op_returns more latLonErr geoid (hops op (by simp)) hs.1 hw hp
    obtain ⟨h2, h3⟩ := op_positions _ hg op (hops op (by simp)).ne d d1 hs h1 (fun _ _ _ _ _ => hw)
    have h4 := op_wgs84 _ hg op (hops op (by simp)).ne d hw
    rw [h1] at h4
    obtain ⟨d', h5, h6⟩ := ih (fun o ho => hops o (by simp [ho])) d1 h4 (positions_exist h2 hp) h3
    exact ⟨d', by simp only [runOps, h1, h5], h6.trans h2⟩

/-- **C87** Geocentric data come back unchanged from every journey through the other frames. -/
theorem C87_roundtrip (ops : List (Op ℝ)) (hops : ∀ op ∈ ops, op.Conversion) (d : Dataset ℝ) (hn : d.crs.name = .ECEF)
    (hl : d.crs.ellps = none) :
    ∃ d', runOps (earth more latLonErr geoid) (ops ++ [.ecef]) d = (.ok (), d') ∧ d'.crs.name = .ECEF ∧ d'.coords.rows = d.coords.rows := by
  have hg := earth_lawful more latLonErr geoid
  have hcons : d.crs.Consistent (earth more latLonErr geoid) := fun h => by rw [hn] at h; cases h
  have hpos : ∀ p ∈ d.coords.rows, ∃ q, position (earth more latLonErr geoid) d.crs p = some (.ok q) := fun p _ => ⟨p, by simp [position, hn]⟩
  obtain ⟨d', h1, h2⟩ := C87_sequences more latLonErr geoid (ops ++ [.ecef]) (by
    intro op ho
    rcases List.mem_append.mp ho with ho | ho
    · exact hops op ho
    · exact Or.inl (List.mem_singleton.mp ho)) d hcons (fun _ => hl) (Or.inl hl) hpos
  have hname' : d'.crs.name = .ECEF := by
    obtain ⟨d1, h3, h4, h5⟩ := runOps_sound more latLonErr geoid ops hops d ⟨hcons.agrees hg, fun _ => hl⟩ (Or.inl hl) hpos
      (by rw [hn]; intro h; cases h)
    rw [runOps_append h3] at h1
    simp only [runOps, Op.run] at h1
    rcases hr : d1.toEcef (earth more latLonErr geoid) with ⟨e | u, d2⟩
    · rw [hr] at h1; cases h1
    · rw [hr] at h1
      cases h1
      exact (toEcef_positions h4.1 h5 hr).2.1
  refine ⟨d', h1, hname', ?_⟩
  have e : ∀ c : Crs ℝ, c.name = .ECEF → position (earth more latLonErr geoid) c = fun p => some (.ok p) := by
    intro c hc; funext p; simp only [position, hc]
  rw [Dataset.positions, Dataset.positions, e _ hn, e _ hname'] at h2
  exact List.map_injective_iff.mpr (fun a b h => by simpa using h) h2

/-- a journey of geocentric data of any points -/
example (l : List (V3 ℝ)) : ∃ d', runOps (earth more latLonErr geoid) ([.wgs84, .enu 2 48 35, .wgs84, .ecef, .enu 7 (-90) 0] ++ [.ecef])
    ⟨⟨l, false⟩, ⟨.ECEF, none, none, .ELLPS⟩⟩ = (.ok (), d') ∧ d'.crs.name = .ECEF ∧ d'.coords.rows = l :=
  C87_roundtrip more latLonErr geoid _ (by
    intro op ho
    simp only [List.mem_cons, List.not_mem_nil, or_false] at ho
    rcases ho with rfl | rfl | rfl | rfl | rfl
    · exact Or.inr (Or.inl rfl)
    · exact Or.inr (Or.inr ⟨2, 48, 35, rfl, by norm_num [abs_le]⟩)
    · exact Or.inr (Or.inl rfl)
    · exact Or.inl rfl
    · exact Or.inr (Or.inr ⟨7, -90, 0, rfl, by norm_num [abs_le]⟩)) ⟨⟨l, false⟩, ⟨.ECEF, none, none, .ELLPS⟩⟩ rfl rfl

/-- geographic data with positions -/
example : ∀ p ∈ [(⟨2, 48, 35⟩ : V3 ℝ), ⟨-120, -33, 1200⟩],
    ∃ q, position (earth more latLonErr geoid) ⟨.ELLPS, none, none, .ELLPS⟩ p = some (.ok q) := by
  intro p hp
  simp only [List.mem_cons, List.not_mem_nil, or_false] at hp
  rcases hp with rfl | rfl <;> exact ⟨_, congrArg some (geodetic2ecefOn_iff.mpr ⟨by norm_num [abs_le], rfl⟩)⟩

/-! ### C88 -/

theorem enu2ecefOn_iff {a b lat lon alt : ℝ} {p x : V3 ℝ} :
    enu2ecefOn a b lat lon alt p = .ok x ↔ |lat| ≤ 90 ∧
      x = ((localFrame (radians lat) (radians lon)).apply p).add (geodeticPoint a b (radians lat) (radians lon) alt) := by
  unfold enu2ecefOn
  cases ho : geodetic2ecefOn a b ⟨lon, lat, alt⟩ with
  | error e =>
    refine ⟨fun h => (nomatch h), fun h => ?_⟩
    have := (geodetic2ecefOn_iff (a := a) (b := b) (p := ⟨lon, lat, alt⟩)).mpr ⟨h.1, rfl⟩
    rw [ho] at this; cases this
  | ok o =>
    have h := geodetic2ecefOn_iff.mp ho
    simp only [bind, Except.bind, pure, Except.pure, Except.ok.injEq]
    have e : o.add (enu2uvw (radians lat) (radians lon) p) =
        ((localFrame (radians lat) (radians lon)).apply p).add (geodeticPoint a b (radians lat) (radians lon) alt) := by
      rw [enu2uvw_eq, h.2]
      refine V3.ext' ?_ ?_ ?_ <;> simp [add_comm]
    rw [e]
    exact ⟨fun e => ⟨h.1, e.symm⟩, fun e => e.2.symm⟩

/-- **C88** `to_ecef` on data in a local ENU frame is one rigid motion of space for all points: the rotation that takes east, north, up at the
origin to geocentric axes, followed by the shift to the position of the origin. -/
theorem C88_rigid (d d' : Dataset ℝ) (e : Enu ℝ) (l : Ell ℝ) (hn : d.crs.name = .ENU) (he : d.crs.enu = some e) (hl : d.crs.ellps = some l)
    (h : d.toEcef (earth more latLonErr geoid) = (.ok (), d')) :
    IsRotation (localFrame (radians e.lat0) (radians e.lon0)) ∧ d'.coords.rows = d.coords.rows.map fun p =>
      ((localFrame (radians e.lat0) (radians e.lon0)).apply p).add (geodeticPoint l.a l.b (radians e.lat0) (radians e.lon0) e.alt0) := by
  refine ⟨localFrame_rotation _ _, ?_⟩
  simp only [Dataset.toEcef, hn, apply_ok] at h
  obtain ⟨e', he', h1, -⟩ := enuToEcef_ok h
  rw [he] at he'
  cases he'
  rw [hl] at h1
  clear h
  generalize d.coords.rows = rs at h1 ⊢
  generalize d'.coords.rows = rs' at h1 ⊢
  induction h1 with
  | nil => rfl
  | cons h _ ih => rw [List.map_cons, ← ih, (enu2ecefOn_iff.mp h).2]

/-- **C88** "Up" is height: the point `u` above the origin of a local frame is the point of the same longitude and latitude, `u` higher. -/
theorem C88_up (l : Ell ℝ) (lat lon alt u : ℝ) :
    (earth more latLonErr geoid).enu2ecef (some l) lat lon alt ⟨0, 0, u⟩ = (earth more latLonErr geoid).geodetic2ecef (some l) ⟨lon, lat, alt + u⟩ := by
  by_cases h : |lat| ≤ 90
  · have h1 := (enu2ecefOn_iff (a := l.a) (b := l.b) (lon := lon) (alt := alt) (p := ⟨0, 0, u⟩)).mpr ⟨h, rfl⟩
    have h2 := (geodetic2ecefOn_iff (a := l.a) (b := l.b) (p := ⟨lon, lat, alt + u⟩)).mpr ⟨h, rfl⟩
    simp only [earth, h1, h2]
    congr 1
    refine V3.ext' ?_ ?_ ?_ <;> simp [M3.apply, rdot, localFrame, geodeticPoint] <;> ring
  · have h' : 90 < |lat| := not_le.mp h
    simp [earth, enu2ecefOn, geodetic2ecefOn, h', bind, Except.bind]

/-- **C87** What longitude, latitude and altitude mean: `to_ecef` puts the point at the altitude along the outward normal of the ellipsoid from a point of it,
and the normal has the latitude as its angle to the equator and the longitude as its angle to the prime meridian. -/
theorem C87_geodetic (d d' : Dataset ℝ) (l : Ell ℝ) (hn : d.crs.name = .ELLPS) (hl : d.crs.ellps = some l) (ha : 0 < l.a) (hb : 0 < l.b)
    (h : d.toEcef (earth more latLonErr geoid) = (.ok (), d')) (i : Nat) (p q : V3 ℝ) (hp : d.coords.rows[i]? = some p) (hq : d'.coords.rows[i]? = some q) :
    ∃ f n : V3 ℝ, n = ⟨Real.cos (p.y * Real.pi / 180) * Real.cos (p.x * Real.pi / 180), Real.cos (p.y * Real.pi / 180) * Real.sin (p.x * Real.pi / 180),
        Real.sin (p.y * Real.pi / 180)⟩ ∧
      f.x ^ 2 / l.a ^ 2 + f.y ^ 2 / l.a ^ 2 + f.z ^ 2 / l.b ^ 2 = 1 ∧
      (∃ k > 0, f.x / l.a ^ 2 = k * n.x ∧ f.y / l.a ^ 2 = k * n.y ∧ f.z / l.b ^ 2 = k * n.z) ∧ q = f.add (V3.smul p.z n) := by
  simp only [Dataset.toEcef, hn, apply_ok] at h
  obtain ⟨h1, -⟩ := ellpsToEcef_ok h
  rw [hl] at h1
  obtain ⟨q', hq', h2⟩ := forall₂_get h1 hp
  rw [hq] at hq'
  cases hq'
  obtain ⟨-, rfl⟩ := geodetic2ecefOn_iff.mp h2
  have e1 : radians p.y = p.y * Real.pi / 180 := rfl
  have e2 : radians p.x = p.x * Real.pi / 180 := rfl
  rw [e1, e2]
  generalize p.y * Real.pi / 180 = φ
  generalize p.x * Real.pi / 180 = m
  have hW := meridian_pos ha hb φ
  have hs := Real.sin_sq_add_cos_sq φ
  have hm := Real.sin_sq_add_cos_sq m
  have h3 : 0 < Real.sqrt ((l.a * Real.cos φ) ^ 2 + (l.b * Real.sin φ) ^ 2) := Real.sqrt_pos.mpr hW
  have h4 := Real.sq_sqrt hW.le
  refine ⟨geodeticPoint l.a l.b φ m 0, _, rfl, ?_, ⟨1 / Real.sqrt ((l.a * Real.cos φ) ^ 2 + (l.b * Real.sin φ) ^ 2), by positivity, ?_, ?_, ?_⟩, ?_⟩
  · simp only [geodeticPoint, primeRadius]
    generalize Real.sqrt ((l.a * Real.cos φ) ^ 2 + (l.b * Real.sin φ) ^ 2) = r at h3 h4 ⊢
    field_simp
    linear_combination l.a ^ 4 * l.b ^ 2 * Real.cos φ ^ 2 * hm - l.a ^ 2 * l.b ^ 2 * h4
  · simp only [geodeticPoint, primeRadius]
    field_simp
    ring
  · simp only [geodeticPoint, primeRadius]
    field_simp
    ring
  · simp only [geodeticPoint, primeRadius]
    field_simp
    ring
  · refine V3.ext' ?_ ?_ ?_ <;> simp [geodeticPoint] <;> ring

/-- Any ellipsoid and two places on it meet the hypotheses of C87_geodetic. -/
example (l : Ell ℝ) : ∃ (d' : Dataset ℝ) (q : V3 ℝ),
    Dataset.toEcef (earth more latLonErr geoid) ⟨⟨[⟨2, 48, 35⟩, ⟨-120, -33, 1200⟩], false⟩, ⟨.ELLPS, some l, none, .ELLPS⟩⟩ = (.ok (), d') ∧
    d'.coords.rows[1]? = some q := by
  have hrow : ∀ q : V3 ℝ, |q.y| ≤ 90 → (earth more latLonErr geoid).geodetic2ecef (some l) q = .ok (geodeticPoint l.a l.b (radians q.y) (radians q.x) q.z) :=
    fun q h => geodetic2ecefOn_iff.mpr ⟨h, rfl⟩
  refine ⟨⟨⟨[geodeticPoint l.a l.b (radians 48) (radians 2) 35, geodeticPoint l.a l.b (radians (-33)) (radians (-120)) 1200], false⟩,
    ⟨.ECEF, none, none, .ELLPS⟩⟩, _, ?_, rfl⟩
  simp only [Dataset.toEcef, apply_ok, ellpsToEcef, mapRows, List.mapM_cons, List.mapM_nil]
  rw [hrow _ (by norm_num [abs_le]), hrow _ (by norm_num [abs_le])]
  rfl

/-- **C87**, the figure: the ellipsoid named "wgs84" (also the one used when neither a name nor axes are given, and by the conversions that are
called without an ellipsoid) is that of the World Geodetic System 1984: semi-major axis 6378137 m, inverse flattening 298.257223563 (to the
precision of the table of the library, ten nanometres of the semi-minor axis). -/
theorem C87_wgs84 (a b : Val ℝ) : ∃ l, mkEllipsoid (earth more latLonErr geoid) (some "wgs84") a b = .ok l ∧ l.a = 6378137 ∧
    |(l.a - l.b) * 298.257223563 - l.a| ≤ 0.000003 ∧ (a.truthy = false → mkEllipsoid (earth more latLonErr geoid) none a b = .ok l) ∧
    (∀ p, (earth more latLonErr geoid).geodetic2ecef none p = (earth more latLonErr geoid).geodetic2ecef (some l) p) ∧
    (∀ lat lon h p, (earth more latLonErr geoid).enu2ecef none lat lon h p = (earth more latLonErr geoid).enu2ecef (some l) lat lon h p) := by
  have hm : findModel "wgs84" (earth more latLonErr geoid).models = some ("WGS-84 (1984)", wgsA, wgsB) := by simp [earth, findModel]
  have he : (earth more latLonErr geoid).ellipsoidErr wgsA wgsB = none := by
    show (if _ then _ else _) = _
    rw [if_pos]
    unfold wgsA wgsB
    norm_num
  refine ⟨⟨"wgs84", "WGS-84 (1984)", wgsA, wgsB⟩, ?_, rfl, ?_, fun h => ?_, fun _ => rfl, fun _ _ _ _ => rfl⟩
  · simp [mkEllipsoid, hm, pmEllipsoid, he]
  · rw [abs_le]
    unfold wgsA wgsB
    norm_num
  · simp [mkEllipsoid, hm, pmEllipsoid, he, h]

/-- **C88** The axes of a local frame: `to_ecef` puts the point with coordinates (e, n, u) at the origin of the frame, plus `e` towards the east (horizontal, in the
equatorial plane), plus `n` towards the north, plus `u` along the normal of the ellipsoid. -/
theorem C88_axes (d d' : Dataset ℝ) (en : Enu ℝ) (l : Ell ℝ) (hn : d.crs.name = .ENU) (he : d.crs.enu = some en) (hl : d.crs.ellps = some l)
    (h : d.toEcef (earth more latLonErr geoid) = (.ok (), d')) (i : Nat) (p q : V3 ℝ) (hp : d.coords.rows[i]? = some p) (hq : d'.coords.rows[i]? = some q) :
    ∃ o φ m : _, φ = en.lat0 * Real.pi / 180 ∧ m = en.lon0 * Real.pi / 180 ∧
      (earth more latLonErr geoid).geodetic2ecef (some l) ⟨en.lon0, en.lat0, en.alt0⟩ = .ok o ∧
      q = o.add ((V3.smul p.x ⟨- Real.sin m, Real.cos m, 0⟩).add
        ((V3.smul p.y ⟨- (Real.sin φ * Real.cos m), - (Real.sin φ * Real.sin m), Real.cos φ⟩).add
          (V3.smul p.z ⟨Real.cos φ * Real.cos m, Real.cos φ * Real.sin m, Real.sin φ⟩))) := by
  simp only [Dataset.toEcef, hn, apply_ok] at h
  obtain ⟨e', he', h1, -⟩ := enuToEcef_ok h
  rw [he] at he'
  cases he'
  rw [hl] at h1
  obtain ⟨q', hq', h2⟩ := forall₂_get h1 hp
  rw [hq] at hq'
  cases hq'
  obtain ⟨hlat, rfl⟩ := enu2ecefOn_iff.mp h2
  refine ⟨_, _, _, rfl, rfl, geodetic2ecefOn_iff.mpr ⟨hlat, rfl⟩, ?_⟩
  have e1 : radians en.lat0 = en.lat0 * Real.pi / 180 := rfl
  have e2 : radians en.lon0 = en.lon0 * Real.pi / 180 := rfl
  simp only [e1, e2]
  refine V3.ext' ?_ ?_ ?_ <;> simp [M3.apply, rdot, localFrame] <;> ring

/-- **C88** Gravity turns with the frame: a body and a station given in one local ENU frame and both taken to ECEF with `to_ecef` have, at regular
stations, the same gravity, turned from east, north, up to geocentric axes. -/
theorem C88_gravity (lib : HullLib ℝ) (hlib : lib.Honest) (body body' obs obs' : Dataset ℝ) (e : Enu ℝ) (l : Ell ℝ) (hn : body.crs.name = .ENU)
    (he : body.crs.enu = some e) (hl : body.crs.ellps = some l) (ho : obs.crs = body.crs)
    (hb : body.toEcef (earth more latLonErr geoid) = (.ok (), body')) (hob : obs.toEcef (earth more latLonErr geoid) = (.ok (), obs'))
    (H H' : Hull ℝ) (hH : lib.convexHull body.coords.rows = .ok H) (hH' : lib.convexHull body'.coords.rows = .ok H')
    (p p' : Poly ℝ) (hp : polyhedronOf lib body.coords.rows = .ok p) (hp' : polyhedronOf lib body'.coords.rows = .ok p')
    (i : Nat) (s s' : V3 ℝ) (hs : obs.coords.rows[i]? = some s) (hs' : obs'.coords.rows[i]? = some s')
    (hr : H.Regular s) (hr' : H'.Regular s') {ρ Gc : ℝ} {gr gr' : Bool} {G G' : V3 ℝ} {T T' : M3 ℝ}
    (hv : Call.onNew p ⟨s, ρ, Gc, gr⟩ = .ok (G, T)) (hv' : Call.onNew p' ⟨s', ρ, Gc, gr'⟩ = .ok (G', T')) :
    G' = enu2uvw (radians e.lat0) (radians e.lon0) G ∧ G = uvw2enu (radians e.lat0) (radians e.lon0) G' ∧ vlen G' = vlen G := by
  obtain ⟨hR, h1⟩ := C88_rigid more latLonErr geoid body body' e l hn he hl hb
  obtain ⟨-, h2⟩ := C88_rigid more latLonErr geoid obs obs' e l (by rw [ho]; exact hn) (by rw [ho]; exact he) (by rw [ho]; exact hl) hob
  rw [h2, List.getElem?_map, hs] at hs'
  cases hs'
  have hpts : ∀ a, a ∈ H'.points ↔ ∃ b ∈ H.points, a = ((localFrame (radians e.lat0) (radians e.lon0)).apply b).add
      (geodeticPoint l.a l.b (radians e.lat0) (radians e.lon0) e.alt0) := by
    intro a
    rw [(hlib _ _ hH).1, (hlib _ _ hH').1, h1, List.mem_map]
    exact ⟨fun ⟨b, hb, e⟩ => ⟨b, hb, e.symm⟩, fun ⟨b, hb, e⟩ => ⟨b, hb, e.symm⟩⟩
  obtain ⟨H1, hH1, hp1⟩ := except_bind_ok hp
  obtain ⟨H1', hH1', hp1'⟩ := except_bind_ok hp'
  rw [hH] at hH1; cases hH1
  rw [hH'] at hH1'; cases hH1'
  have key := C57_congruent (hlib _ _ hH).2 (hlib _ _ hH').2 hp1 hp1' hR.orthogonal _ hpts hr hr' hv hv'
  rw [← enu2uvw_eq] at key
  refine ⟨key, by rw [key, uvw2enu_enu2uvw], ?_⟩
  rw [key, enu2uvw_eq, vlen, vlen, hR.rdot_apply]

/-- **C88**, without any condition on the station: if the hull library triangulates the moved points as it does the original ones, the moved call
returns the turned gravity, or raises the same exception. -/
theorem C88_same_triangulation (lib : HullLib ℝ) (hlib : lib.Honest) (body body' obs obs' : Dataset ℝ) (e : Enu ℝ) (l : Ell ℝ)
    (hn : body.crs.name = .ENU) (he : body.crs.enu = some e) (hl : body.crs.ellps = some l) (ho : obs.crs = body.crs)
    (hb : body.toEcef (earth more latLonErr geoid) = (.ok (), body')) (hob : obs.toEcef (earth more latLonErr geoid) = (.ok (), obs'))
    (H : Hull ℝ) (hH : lib.convexHull body.coords.rows = .ok H)
    (hH' : lib.convexHull body'.coords.rows = .ok { H with points := body'.coords.rows })
    (p p' : Poly ℝ) (hp : polyhedronOf lib body.coords.rows = .ok p) (hp' : polyhedronOf lib body'.coords.rows = .ok p')
    (i : Nat) (s s' : V3 ℝ) (hs : obs.coords.rows[i]? = some s) (hs' : obs'.coords.rows[i]? = some s') (ρ Gc : ℝ) (gr : Bool) :
    (Call.onNew p' ⟨s', ρ, Gc, gr⟩).map Prod.fst =
      (Call.onNew p ⟨s, ρ, Gc, gr⟩).map (fun v => enu2uvw (radians e.lat0) (radians e.lon0) v.1) := by
  obtain ⟨hR, h1⟩ := C88_rigid more latLonErr geoid body body' e l hn he hl hb
  obtain ⟨-, h2⟩ := C88_rigid more latLonErr geoid obs obs' e l (by rw [ho]; exact hn) (by rw [ho]; exact he) (by rw [ho]; exact hl) hob
  rw [h2, List.getElem?_map, hs] at hs'
  cases hs'
  obtain ⟨H1, hH1, hp1⟩ := except_bind_ok hp
  obtain ⟨H1', hH1', hp1'⟩ := except_bind_ok hp'
  rw [hH] at hH1; cases hH1
  rw [hH'] at hH1'; cases hH1'
  obtain ⟨hpts, hh⟩ := hlib _ _ hH
  set R := localFrame (radians e.lat0) (radians e.lon0)
  set t := geodeticPoint l.a l.b (radians e.lat0) (radians e.lon0) e.alt0
  -- turned, then shifted
  have hz : ∀ (M : M3 ℝ) (q : V3 ℝ), rigid M ⟨0, 0, 0⟩ q = M.apply q := by
    intro M q; unfold rigid; refine V3.ext' ?_ ?_ ?_ <;> simp
  have hmid : ({ H with points := H.points.map R.apply } : Hull ℝ).IsHull := by
    have := hh.rigid hR ⟨0, 0, 0⟩
    rwa [show H.rigid R ⟨0, 0, 0⟩ = { H with points := H.points.map R.apply } by
      unfold Hull.rigid; congr 1; exact List.map_congr_left fun a _ => hz R a] at this
  obtain ⟨q, hq⟩ := hull_mkPoly_ok hmid (fun _ => true)
  have e1 := C12_rotation hh hR hp1 hq s ρ Gc gr
  have e2 := C10_translation hmid t hq (p' := p') (inHull' := lib.inHull body'.coords.rows) (by
    rw [← hp1']
    congr 2
    show List.map _ (List.map _ _) = _
    rw [List.map_map, hpts, h1]
    rfl) (R.apply s) ρ Gc gr
  rw [e2, e1]
  congr 1
  funext v
  rw [enu2uvw_eq]

/-- A tetrahedron and a station in a local frame at any place of the Earth meet the hypotheses of C88. -/
example (e : Enu ℝ) (hlat : |e.lat0| ≤ 90) : ∃ (body' obs' : Dataset ℝ) (H' : Hull ℝ) (p p' : Poly ℝ) (s' G G' : V3 ℝ) (T T' : M3 ℝ),
    Dataset.toEcef (earth more latLonErr geoid) ⟨⟨tetra.points, false⟩, ⟨.ENU, some e.ellps, some e, .ELLPS⟩⟩ = (.ok (), body') ∧
    Dataset.toEcef (earth more latLonErr geoid) ⟨⟨[⟨2, 3, 5⟩], false⟩, ⟨.ENU, some e.ellps, some e, .ELLPS⟩⟩ = (.ok (), obs') ∧
    fourPoints.convexHull tetra.points = .ok tetra ∧ fourPoints.convexHull body'.coords.rows = .ok H' ∧
    H' = { tetra with points := body'.coords.rows } ∧
    polyhedronOf fourPoints tetra.points = .ok p ∧ polyhedronOf fourPoints body'.coords.rows = .ok p' ∧ obs'.coords.rows[0]? = some s' ∧
    tetra.Regular ⟨2, 3, 5⟩ ∧ H'.Regular s' ∧ Call.onNew p ⟨⟨2, 3, 5⟩, 1, 1, false⟩ = .ok (G, T) ∧ Call.onNew p' ⟨s', 1, 1, false⟩ = .ok (G', T') := by
  set R := localFrame (radians e.lat0) (radians e.lon0) with hR0
  set t := geodeticPoint e.ellps.a e.ellps.b (radians e.lat0) (radians e.lon0) e.alt0 with ht0
  have hR : IsRotation R := localFrame_rotation _ _
  have hrow : ∀ q : V3 ℝ, (earth more latLonErr geoid).enu2ecef (some e.ellps) e.lat0 e.lon0 e.alt0 q = .ok (rigid R t q) :=
    fun q => enu2ecefOn_iff.mpr ⟨hlat, rfl⟩
  have hmap : ∀ rows : List (V3 ℝ), Dataset.toEcef (earth more latLonErr geoid) ⟨⟨rows, false⟩, ⟨.ENU, some e.ellps, some e, .ELLPS⟩⟩ =
      (.ok (), ⟨⟨rows.map (rigid R t), false⟩, ⟨.ECEF, none, none, .ELLPS⟩⟩) := by
    intro rows
    have hm : rows.mapM ((earth more latLonErr geoid).enu2ecef (some e.ellps) e.lat0 e.lon0 e.alt0) = .ok (rows.map (rigid R t)) := by
      induction rows with
      | nil => rfl
      | cons q rows ih => rw [List.mapM_cons, hrow, ih]; rfl
    simp only [Dataset.toEcef, apply_ok, enuToEcef, mapRows, hm]
    rfl
  have hH' : fourPoints.convexHull (tetra.points.map (rigid R t)) = .ok (tetra.rigid R t) := if_pos (tetra_isHull.rigid hR t)
  have hH : fourPoints.convexHull tetra.points = .ok tetra := if_pos tetra_isHull
  obtain ⟨p, hp⟩ := hull_mkPoly_ok tetra_isHull (fourPoints.inHull tetra.points)
  obtain ⟨p', hp'⟩ := hull_mkPoly_ok (tetra_isHull.rigid hR t) (fourPoints.inHull (tetra.points.map (rigid R t)))
  have hreg' := regular_rigid tetra_isHull hR t tetra_regular_out
  have hco : ∀ i, i < 4 → tetra.pt i ≠ ⟨2, 3, 5⟩ := by
    intro i hi h
    interval_cases i <;> simp only [tetra_pt0, tetra_pt1, tetra_pt2, tetra_pt3, V3.mk.injEq] at h <;> norm_num at h
  obtain ⟨G, T, hv⟩ := C22_total tetra_isHull hp (obs := ⟨2, 3, 5⟩) (fun u hu i hi => hco i (tetra_isHull.cornerIndex u hu i hi)) 1 1
  obtain ⟨G', T', hv'⟩ := C22_total (tetra_isHull.rigid hR t) hp' (obs := rigid R t ⟨2, 3, 5⟩) (by
    intro u hu i hi h
    have h4 := tetra_isHull.cornerIndex u hu i hi
    rw [rigid_pt h4] at h
    exact hco i h4 (rigid_injective hR h)) 1 1
  refine ⟨_, _, tetra.rigid R t, p, p', rigid R t ⟨2, 3, 5⟩, G, G', T, T', hmap _, hmap _, hH, hH', rfl, ?_, ?_, rfl, tetra_regular_out, hreg', hv, hv'⟩
  · simp only [polyhedronOf, hH]; exact hp
  · simp only [polyhedronOf, hH']; exact hp'

end
end Geec
