import Verif.Props.ThinTube
import Verif.Props.Frames
import Verif.Props.Config
import Verif.Props.Objects
/-
For the properties on coordinates and on the configuration that are false of the code in general (C33, C34, C35, C40, C43, C80), and for the edge integrals (C13): exactly
when they hold.
-/
namespace Geec
open Arith
noncomputable section

variable {S : Type} [Arith S]

/-- **C33**, exactly: after a `to_enu` that returned, the dataset is in the local frame of the requested origin on WGS84 and denotes the
same positions, if and only if it was in geocentric coordinates, or in geographic coordinates that are those of the same places on WGS84,
or already in this very frame. -/
theorem C33_exact (g : Geodesy S) (hg : g.Lawful) (d d' : Dataset S) (hc : d.crs.name ≠ .CART) (lon0 lat0 alt0 : S)
    (h : d.toEnu g lon0 lat0 alt0 = (.ok (), d')) :
    (d'.crs.name = .ENU ∧ d'.crs.enu = some ⟨lon0, lat0, alt0, wgs84 g⟩ ∧ d'.positions g = d.positions g) ↔
      d.crs.name = .ECEF ∨
      d.crs.name = .ELLPS ∧ (∀ p ∈ d.coords.rows, g.geodetic2ecef d.crs.ellps p = g.geodetic2ecef (some (wgs84 g)) p) ∨
      d.crs.name = .ENU ∧ d.crs.enu = some ⟨lon0, lat0, alt0, wgs84 g⟩ := by
  cases hn : d.crs.name with
  | CART => exact absurd hn hc
  | ECEF =>
    obtain ⟨h1, h2, h3, -⟩ := C33_partial g hg d d' (.inl hn) _ _ _ h
    simp [h1, h2, h3]
  | ENU =>
    rw [C33_enu_ignores_origin g d hn] at h
    cases h
    simp [hn]
  | ELLPS =>
    have h3 := C33_other_ellipsoid g hg d d' hn _ _ _ h
    simp only [Dataset.toEnu, hn, apply_ok] at h
    obtain ⟨h1, h2⟩ := wgs84ToEnu_ok h
    have h4 : d'.crs.name = .ENU := by rw [h2]
    have h5 : d'.crs.enu = some ⟨lon0, lat0, alt0, wgs84 g⟩ := by rw [h2]
    simp only [h4, h5, true_and, reduceCtorEq, false_and, or_false, false_or]
    rw [h3]
    simp only [Dataset.positions, position, hn, List.map_inj_left, Option.some.injEq]
    exact forall₂_congr fun _ _ => eq_comm

/-- geographic data on another ellipsoid that stay in place (it differs from WGS84 in the semi-minor axis, which the toy library does not
use), and data that move -/
example : (∀ p ∈ [(⟨1, 2, 3⟩ : V3 ℝ)], toyGeo.geodetic2ecef (some ⟨"grs80", "GRS-80", 7, 5⟩) p = toyGeo.geodetic2ecef (some (wgs84 toyGeo)) p) ∧
    ¬ ∀ p ∈ [(⟨1, 2, 3⟩ : V3 ℝ)], toyGeo.geodetic2ecef (some ⟨"airy", "Airy", 5, 4⟩) p = toyGeo.geodetic2ecef (some (wgs84 toyGeo)) p := by
  rw [toyGeo_wgs84]
  norm_num [toyGeo]

/-- both return from `to_enu` -/
example : ∀ e : Ell ℝ, ∃ d', (⟨⟨[⟨1, 2, 3⟩], false⟩, ⟨.ELLPS, some e, none, .ELLPS⟩⟩ : Dataset ℝ).toEnu toyGeo 1 2 3 = (.ok (), d') := by
  intro e
  simp [Dataset.toEnu, Dataset.apply, wgs84ToEnu, toyGeo, mapRows, bind, Except.bind, pure, Except.pure]

/-- **C34**, exactly: one transformation of a consistent dataset leaves it consistent, also if it raises, unless it is a `to_enu` that
returns, of geocentric or geographic data, whose ellipsoid is absent or not equal to WGS84. -/
theorem C34_exact (g : Geodesy S) (hs : ∀ e e', g.ellEq e e' = true → g.ellEq e' e = true) (op : Op S) (d : Dataset S)
    (hd : d.crs.Consistent g) :
    (op.run g d).2.crs.Consistent g ↔
      ¬ ((∃ lon lat alt, op = .enu lon lat alt) ∧ (op.run g d).1 = .ok () ∧ (d.crs.name = .ECEF ∨ d.crs.name = .ELLPS) ∧
        isWgs84 g d.crs.ellps = false) := by
  constructor
  · rintro hcons ⟨⟨lon, lat, alt, rfl⟩, hok, hn, hw⟩
    have hsplit : d.toEnu g lon lat alt = (.ok (), (Op.run g (.enu lon lat alt) d).2) := by
      rcases hr : Op.run g (.enu lon lat alt) d with ⟨r, d'⟩
      rw [hr] at hok
      cases hok
      exact hr
    have hcrs : (Op.run g (.enu lon lat alt) d).2.crs.name = .ENU ∧
        (Op.run g (.enu lon lat alt) d).2.crs.enu = some ⟨lon, lat, alt, wgs84 g⟩ ∧
        (Op.run g (.enu lon lat alt) d).2.crs.ellps = d.crs.ellps := by
      rcases hn with hn | hn
      · simp only [Dataset.toEnu, hn, apply_ok] at hsplit
        obtain ⟨-, h2⟩ := ecefToEnu_ok hsplit
        rw [h2]; exact ⟨rfl, rfl, rfl⟩
      · simp only [Dataset.toEnu, hn, apply_ok] at hsplit
        obtain ⟨-, h2⟩ := wgs84ToEnu_ok hsplit
        rw [h2]; exact ⟨rfl, rfl, rfl⟩
    obtain ⟨e, l, h1, h2, h3⟩ := hcons hcrs.1
    rw [hcrs.2.1, Option.some.injEq] at h1
    rw [hcrs.2.2] at h2
    subst h1
    rw [h2] at hw
    have : isWgs84 g (some l) = true := hs _ _ h3
    rw [this] at hw
    cases hw
  · intro h
    by_cases hE : ∃ lon lat alt, op = .enu lon lat alt
    · obtain ⟨lon, lat, alt, rfl⟩ := hE
      by_cases hok : (Op.run g (.enu lon lat alt) d).1 = .ok ()
      · by_cases hw : isWgs84 g d.crs.ellps = true
        · cases hn : d.crs.name with
          | ECEF =>
            simp only [Op.run, Dataset.toEnu, hn, apply_snd, ecefToEnu]
            split
            · exact hd
            · intro _
              cases hl : d.crs.ellps with
              | none => rw [hl] at hw; simp [isWgs84] at hw
              | some e => rw [hl] at hw; exact ⟨_, e, rfl, rfl, hs _ _ hw⟩
          | CART => exact op_consistent g hs _ d hd fun _ _ _ _ => .inl hn
          | ENU => exact op_consistent g hs _ d hd fun _ _ _ _ => .inr (.inl hn)
          | ELLPS => exact op_consistent g hs _ d hd fun _ _ _ _ => .inr (.inr ⟨hn, hw⟩)
        · have hn : ¬ (d.crs.name = .ECEF ∨ d.crs.name = .ELLPS) := fun hn =>
            h ⟨⟨_, _, _, rfl⟩, hok, hn, by simpa using hw⟩
          cases hn' : d.crs.name with
          | ECEF => exact absurd (.inl hn') hn
          | ELLPS => exact absurd (.inr hn') hn
          | CART => exact op_consistent g hs _ d hd fun _ _ _ _ => .inl hn'
          | ENU => exact op_consistent g hs _ d hd fun _ _ _ _ => .inr (.inl hn')
      · have key : (Op.run g (.enu lon lat alt) d).2.crs = d.crs := by
          simp only [Op.run, Dataset.toEnu] at hok ⊢
          cases hn : d.crs.name with
          | CART => rfl
          | ENU => rfl
          | ECEF =>
            simp only [hn, Dataset.apply, ecefToEnu] at hok ⊢
            rcases hm : mapRows (g.ecef2enu lat lon alt) d.coords with e | c
            · rfl
            · simp [hm] at hok
          | ELLPS =>
            simp only [hn, Dataset.apply, wgs84ToEnu] at hok ⊢
            rcases hm : mapRows (g.geodetic2enu lat lon alt) d.coords with e | c
            · rfl
            · simp [hm] at hok
        rw [key]; exact hd
    · exact op_consistent g hs op d hd fun lon lat alt h => absurd ⟨lon, lat, alt, h⟩ hE

/-- `to_enu` of geocentric data is a case where it fails -/
example : ¬ (Op.run toyGeo (.enu 1 2 3) ⟨⟨[⟨1, 2, 3⟩], false⟩, ⟨.ECEF, none, none, .ELLPS⟩⟩).2.crs.Consistent toyGeo := by
  rw [C34_exact toyGeo (by intro e e' h; simp [toyGeo] at h ⊢; simp [h]) _ _ (by intro h; simp at h), not_not]
  refine ⟨⟨1, 2, 3, rfl⟩, ?_, .inl rfl, rfl⟩
  simp [Op.run, Dataset.toEnu, Dataset.apply, ecefToEnu, toyGeo, mapRows, bind, Except.bind, pure, Except.pure]

/-- **C35**, exactly, for each conversion: a `to_ecef`, `to_wgs84` or `to_enu` that returns preserves the positions of a consistent dataset,
if and only if it is not a `to_enu` of geographic data of which some point is another place on WGS84. -/
theorem C35_exact (g : Geodesy S) (hg : g.Lawful) (op : Op S) (hop : op ≠ .lon180 ∧ op ≠ .height) (d d' : Dataset S)
    (hcons : d.crs.Consistent g) (hplain : d.crs.name = .ECEF → d.crs.ellps = none) (h : op.run g d = (.ok (), d')) :
    d'.positions g = d.positions g ↔
      ¬ ((∃ lon lat alt, op = .enu lon lat alt) ∧ d.crs.name = .ELLPS ∧
        ∃ p ∈ d.coords.rows, g.geodetic2ecef d.crs.ellps p ≠ g.geodetic2ecef (some (wgs84 g)) p) := by
  by_cases hE : (∃ lon lat alt, op = .enu lon lat alt) ∧ d.crs.name = .ELLPS
  · obtain ⟨⟨lon, lat, alt, rfl⟩, hn⟩ := hE
    have h3 := C33_other_ellipsoid g hg d d' hn _ _ _ h
    rw [h3]
    simp only [Dataset.positions, position, hn, List.map_inj_left, Option.some.injEq, true_and, not_exists, not_and, not_not]
    constructor
    · rintro h - p hp; exact (h p hp).symm
    · intro h p hp; exact (h ⟨lon, lat, alt, rfl⟩ p hp).symm
  · refine iff_of_true ?_ fun h => hE ⟨h.1, h.2.1⟩
    refine (op_positions g hg op hop d d' ⟨hcons.agrees hg, hplain⟩ h fun lon lat alt h1 h2 => ?_).1
    exact absurd ⟨⟨lon, lat, alt, h1⟩, h2⟩ hE

/-- **C40**, exactly: which numbers are read as the points of a body or of the observers, for every configuration: those listed in
`points` if this key is present and not empty; else those of the file, if both keys are present and the second is not empty; else the
grid, if all three keys are present. -/
theorem C40_exact (o : Outside S) (cfg : View S) (c : Coords S) :
    readCoords o cfg = .ok c ↔
      ∃ vp, (cfg.at "points").first = .ok vp ∧
        (vp.truthy = true ∧ arrayOf vp = .ok c ∨
         vp.truthy = false ∧ ∃ vf, (cfg.at "file_path").first = .ok vf ∧
          ((∃ path, vf = .str path ∧ path ≠ "" ∧ o.isFile path = true ∧ o.readCsv path = .ok c) ∨
           vf.truthy = false ∧ ∃ vg, (cfg.at "grid").first = .ok vg ∧ vg.truthy = true ∧ readGrid o (cfg.at "grid") = .ok c)) := by
  simp only [readCoords, View.truthy]
  rcases hp : (cfg.at "points").first with e | vp
  · simp [bind, Except.bind]
  · rcases ht : vp.truthy with _ | _
    · rcases hf : (cfg.at "file_path").first with e | vf
      · simp [bind, Except.bind, pure, Except.pure, ht]
      · rcases htf : vf.truthy with _ | _
        · rcases hg : (cfg.at "grid").first with e | vg
          · simp [bind, Except.bind, pure, Except.pure, ht, htf]
            rintro path rfl h; simp [Val.truthy, h] at htf
          · rcases htg : vg.truthy with _ | _
            · simp [bind, Except.bind, pure, Except.pure, ht, htf, htg]
              rintro path rfl h; simp [Val.truthy, h] at htf
            · simp [bind, Except.bind, pure, Except.pure, ht, htf, htg]
              rintro path rfl h; simp [Val.truthy, h] at htf
        · simp [bind, Except.bind, pure, Except.pure, ht, htf, View.getStr, hf]
          cases vf with
          | str s =>
            have : s ≠ "" := by simpa [Val.truthy] using htf
            by_cases hi : o.isFile s = true <;> simp [this, hi]
          | _ => simp
    · simp [bind, Except.bind, pure, Except.pure, ht]

/-- the three sources: points, a file, a grid (of which the missing keys must be there as null) -/
example : ∃ (cfg : View ℝ) (o : Outside ℝ), readCoords o cfg = .ok ⟨[⟨1, 2, 3⟩], false⟩ :=
  ⟨View.root [.dict [("points", .null), ("file_path", .str "a.csv")]], ⟨fun _ => true, fun _ => .ok ⟨[⟨1, 2, 3⟩], false⟩, fun _ => 0⟩,
    (C40_exact _ _ _).mpr ⟨.null, by simp [View.root, View.at, View.sub, resolveKey, Val.sub, assoc, View.first],
      .inr ⟨rfl, .str "a.csv", by simp [View.root, View.at, View.sub, resolveKey, Val.sub, assoc, View.first],
        .inl ⟨"a.csv", rfl, by simp, rfl, rfl⟩⟩⟩⟩

omit [Arith S] in
/-- **C43**, exactly: which vertical datum is read, for every configuration: a string that is in capitals ELLPS, EGM84, EGM96 or EGM08, and
nothing else; ellps if the key is absent or null. -/
theorem C43_exact (w : View S) (v : VDatum) :
    readVdatum w = .ok v ↔
      (∃ s, (w.at "vdatum").first = .ok (.str s) ∧
        (s.toUpper, v) ∈ [("ELLPS", VDatum.ELLPS), ("EGM84", .EGM84), ("EGM96", .EGM96), ("EGM08", .EGM08)]) ∨
      ((w.at "vdatum").first = .ok .null ∨ (w.at "vdatum").first = .error .configNotFoundError) ∧ v = .ELLPS := by
  have key : ∀ s : String, (match findMember s vdatumMembers with
      | some n => (Except.ok n : Except PyErr VDatum)
      | none => .error .configValueError) = .ok v ↔
      (s, v) ∈ [("ELLPS", VDatum.ELLPS), ("EGM84", .EGM84), ("EGM96", .EGM96), ("EGM08", .EGM08)] := by
    intro s
    by_cases h1 : s = "ELLPS"
    · subst h1; cases v <;> decide +kernel
    by_cases h2 : s = "EGM84"
    · subst h2; cases v <;> decide +kernel
    by_cases h3 : s = "EGM96"
    · subst h3; cases v <;> decide +kernel
    by_cases h4 : s = "EGM08"
    · subst h4; cases v <;> decide +kernel
    simp [findMember, vdatumMembers, h1, h2, h3, h4]
  have hd : findMember ("ellps").toUpper vdatumMembers = some VDatum.ELLPS := by decide +kernel
  simp only [readVdatum, View.getOptStr]
  rcases hf : (w.at "vdatum").first with e | x
  · by_cases he : e = .configNotFoundError
    · subst he; simp [bind, Except.bind, pure, Except.pure, hd, eq_comm]
    · cases e <;> first | exact absurd rfl he | simp [bind, Except.bind]
  · cases x with
    | str s =>
      refine (key s.toUpper).trans ?_
      simp
    | null => simp [bind, Except.bind, pure, Except.pure, hd, eq_comm]
    | _ => simp [bind, Except.bind]

/-- the documented name of the third geoid is refused, in every letter case -/
example (w : View S) (h : (w.at "vdatum").first = .ok (.str "egm2008")) (v : VDatum) : readVdatum w ≠ .ok v := by
  rw [Ne, C43_exact, h]
  have : ("egm2008" : String).toUpper = "EGM2008" := by decide +kernel
  simp [this]

/-- **C80**, exactly: whatever was done to an observer, its labels say degrees exactly for data that are not Cartesian, and metres exactly for Cartesian data; so they
describe the coordinates, degrees for geographic coordinates and metres otherwise, exactly for geographic and Cartesian data. -/
theorem C80_exact (g : Geodesy S) (ops : List (Op S)) {w : DsWorld S} (hw : w.Valid) {n : Nat} (hn : n < w.size) :
    let r := (newObserver w n).runAll g ops w
    (r.1.coordsUnit = (if (r.2.value n).crs.name = .ELLPS then ["(degree_east)", "(degree_north)", "(m)"] else ["(m)", "(m)", "(m)"])) ↔
      (r.2.value n).crs.name = .ELLPS ∨ (r.2.value n).crs.name = .CART := by
  intro r
  obtain ⟨k1, k2, k3⟩ := C80_labels g ops hw hn (ob := newObserver w n) rfl rfl rfl
  have : r.1.coordsUnit = (mkObserver (r.2.value n)).coordsUnit := by
    show ((newObserver w n).runAll g ops w).1.coordsUnit = _
    rw [k1]; exact k3
  rw [this]
  unfold mkObserver
  rcases (r.2.value n).crs.name <;> simp

/-- after `to_ecef` they are wrong -/
example : ((newObserver (twoSets 1 1) 0).runAll toyGeo [.ecef] (twoSets 1 1)).1.coordsUnit ≠ ["(m)", "(m)", "(m)"] := by
  have h1 : (((newObserver (twoSets 1 1) 0).runAll toyGeo [.ecef] (twoSets 1 1)).2.value 0).crs.name = .ECEF := by
    simp [ObserverObj.runAll, ObserverObj.call, newObserver, DsWorld.call, Op.fn, twoSets, DsWorld.value, ellpsToEcefH, convertH, mapRows, toyGeo, Heap.alloc,
      Heap.setCrs]
  have h := C80_exact toyGeo [.ecef] (w := twoSets 1 1) (twoSets_valid (by norm_num)) (n := 0) (by simp [twoSets])
  simp only [h1, reduceCtorEq, if_false, or_self, iff_false] at h
  exact h

/-- **C13, exactly when.**  For a station off the line of the edge, farther than `eps` from its start, and not exactly on the surface where the code
switches formulas: the value of the edge is the line integral if and only if the station is outside the thin tube. -/
theorem C13_exact {e : Edge ℝ} (he : e.Proper) {obs : V3 ℝ} (gr : Bool) (hx : cross (e.start.sub obs) e.vector ≠ V3.zeros)
    (hr : repsilon < vlen (e.start.sub obs)) (hsw : vlen (e.start.sub obs) + rdot (e.start.sub obs) e.vector / vlen e.vector ≠ repsilon) :
    (∃ d, edgeIntegral e obs gr = .ok (V3.smul (lineJ (e.start.sub obs) e.vector) e.vector, d)) ↔
    repsilon < vlen (e.start.sub obs) + rdot (e.start.sub obs) e.vector / vlen e.vector := by
  constructor
  · rintro ⟨d, hd⟩
    by_contra hcon
    obtain ⟨x, d', hx0, hv, hJ⟩ := C13_thin_tube he gr hx (lt_of_le_of_ne (not_lt.mp hcon) hsw) hr
    rw [hv] at hd
    have hL : e.vector ≠ V3.zeros := by rw [he.vector]; exact sub_ne_zeros he.ne
    have h1 : V3.smul x e.vector = V3.smul (lineJ (e.start.sub obs) e.vector) e.vector := congrArg (fun q => q.1) (Except.ok.inj hd)
    have h2 : x * rdot e.vector e.vector = lineJ (e.start.sub obs) e.vector * rdot e.vector e.vector := by
      rw [← smul_rdot, h1, smul_rdot]
    have := mul_right_cancel₀ (rdot_self_pos hL).ne' h2
    linarith
  · intro hc
    exact edgeIntegral_clear he (.inl (by rw [← he.vector]; exact ⟨hx, hc⟩)) gr

/-- C13: the edge from (1,0,0) to (0,0,0) seen from (2,3,5), which is outside the tube -/
example (gr : Bool) : ∃ d, edgeIntegral (⟨⟨1, 0, 0⟩, ⟨0, 0, 0⟩, (1, 0), ⟨-1, 0, 0⟩, 1, 1, none⟩ : Edge ℝ) ⟨2, 3, 5⟩ gr =
    .ok (V3.smul (lineJ ⟨-1, -3, -5⟩ ⟨-1, 0, 0⟩) ⟨-1, 0, 0⟩, d) := by
  have hR : (⟨1, 0, 0⟩ : V3 ℝ).sub ⟨2, 3, 5⟩ = ⟨-1, -3, -5⟩ := by refine V3.ext' ?_ ?_ ?_ <;> simp; norm_num
  have hL : vlen (⟨-1, 0, 0⟩ : V3 ℝ) = 1 := by simp [vlen, rdot]
  have h5 : (5 : ℝ) ≤ vlen ⟨-1, -3, -5⟩ := by apply Real.le_sqrt_of_sq_le; simp [rdot]; norm_num
  have e1 : repsilon < 1 := by unfold repsilon; norm_num
  have he : Edge.Proper (⟨⟨1, 0, 0⟩, ⟨0, 0, 0⟩, (1, 0), ⟨-1, 0, 0⟩, 1, 1, none⟩ : Edge ℝ) := ⟨by refine V3.ext' ?_ ?_ ?_ <;> simp, hL.symm, by intro h; have := congrArg V3.x h; simp at this⟩
  have hlt : repsilon < vlen ⟨-1, -3, -5⟩ + rdot (⟨-1, -3, -5⟩ : V3 ℝ) ⟨-1, 0, 0⟩ / vlen ⟨-1, 0, 0⟩ := by
    rw [hL]; simp [rdot]; linarith
  have := (C13_exact he gr (obs := ⟨2, 3, 5⟩) (by rw [hR]; intro h; have := congrArg V3.y h; simp at this) (by rw [hR]; linarith)
    (by rw [hR]; exact hlt.ne')).mpr (by rw [hR]; exact hlt)
  rwa [hR] at this

end
end Geec
