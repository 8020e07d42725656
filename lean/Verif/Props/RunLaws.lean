import Verif.Props.EndToEnd
/-
C97: how the table of `geec run` changes with the configuration.
-/
namespace Geec
open Arith

section
variable {S : Type} [Arith S]

/-- what `to_wgs84` makes of one point -/
def wgs84Point (g : Geodesy S) (crs : Crs S) (p : V3 S) : Except PyErr (V3 S) :=
  match crs.name with
  | .ENU => match crs.enu with
    | none => .error .attributeError
    | some e => g.enu2ecef crs.ellps e.lat0 e.lon0 e.alt0 p >>= g.ecef2geodetic
  | .ELLPS => if crs.enu.isNone && isWgs84 g crs.ellps then .ok p else g.geodetic2ecef crs.ellps p >>= g.ecef2geodetic
  | .ECEF => g.ecef2geodetic p
  | .CART => .ok p

omit [Arith S] in
theorem mapRows_ok_iff {f : V3 S → Except PyErr (V3 S)} {c c' : Coords S} :
    mapRows f c = .ok c' ↔ List.Forall₂ (fun p q => f p = .ok q) c.rows c'.rows ∧ c'.intDtype = false := by
  simp only [mapRows]
  constructor
  · intro h
    obtain ⟨rs, h1, h2⟩ := except_bind_ok h
    cases h2
    exact ⟨mapM_ok.mp h1, rfl⟩
  · rintro ⟨h1, h2⟩
    rw [mapM_ok.mpr h1]
    cases c'
    cases h2
    rfl

omit [Arith S] in
theorem forall₂_bind {f h : V3 S → Except PyErr (V3 S)} {a b c : List (V3 S)} (h1 : List.Forall₂ (fun p q => f p = .ok q) a b)
    (h2 : List.Forall₂ (fun p q => h p = .ok q) b c) : List.Forall₂ (fun p q => (f p >>= h) = .ok q) a c :=
  forall₂_comp (fun _ _ _ h1 h2 => by rw [h1]; exact h2) h1 h2

omit [Arith S] in
theorem forall₂_unbind {f h : V3 S → Except PyErr (V3 S)} {a c : List (V3 S)} (h1 : List.Forall₂ (fun p q => (f p >>= h) = .ok q) a c) :
    ∃ b, List.Forall₂ (fun p q => f p = .ok q) a b ∧ List.Forall₂ (fun p q => h p = .ok q) b c := by
  induction h1 with
  | nil => exact ⟨[], .nil, .nil⟩
  | cons h _ ih =>
    obtain ⟨b, h1, h2⟩ := ih
    obtain ⟨x, h3, h4⟩ := except_bind_ok h
    exact ⟨x :: b, .cons h3 h1, .cons h4 h2⟩

omit [Arith S] in
theorem then_ok_iff {f h : CrsFn S} {c c' : Coords S} {crs crs' : Crs S} : f.then h c crs = (.ok c', crs') ↔
    ∃ c1 crs1, f c crs = (.ok c1, crs1) ∧ h c1 crs1 = (.ok c', crs') := by
  simp only [CrsFn.then]
  constructor
  · intro k
    rcases hf : f c crs with ⟨e | c1, crs1⟩
    · rw [hf] at k; cases k
    · rw [hf] at k; exact ⟨c1, crs1, rfl, k⟩
  · rintro ⟨c1, crs1, h1, h2⟩
    rw [h1]; exact h2

theorem ecefToWgs84_ok_iff {g : Geodesy S} {c c' : Coords S} {crs crs' : Crs S} : ecefToWgs84 g c crs = (.ok c', crs') ↔
    (List.Forall₂ (fun p q => g.ecef2geodetic p = .ok q) c.rows c'.rows ∧ c'.intDtype = false) ∧
    crs' = { crs with name := .ELLPS, ellps := some (wgs84 g), enu := none } := by
  rw [← mapRows_ok_iff]
  simp only [ecefToWgs84]
  rcases mapRows g.ecef2geodetic c with e | c1
  · simp
  · simp [eq_comm]

/-- `to_wgs84` works on the points one by one -/
theorem toWgs84_points {g : Geodesy S} {d d' : Dataset S} (h : d.toWgs84 g = (.ok (), d')) :
    List.Forall₂ (fun p q => wgs84Point g d.crs p = .ok q) d.coords.rows d'.coords.rows := by
  have hid : ∀ l : List (V3 S), List.Forall₂ (fun p q => (Except.ok p : Except PyErr (V3 S)) = .ok q) l l :=
    fun l => List.forall₂_same.mpr fun _ _ => rfl
  simp only [Dataset.toWgs84] at h
  unfold wgs84Point
  cases hn : d.crs.name <;> simp only [hn, apply_ok] at h ⊢
  · rw [← Except.ok.inj (Prod.mk.inj h).1]; exact hid _
  · simp only [ellpsToWgs84] at h
    split at h
    · rename_i hc
      simp only [hc, if_true]
      rw [← Except.ok.inj (Prod.mk.inj h).1]; exact hid _
    · rename_i hc
      simp only [hc]
      obtain ⟨c1, crs1, h1, h2⟩ := then_ok_iff.mp h
      exact forall₂_bind (ellpsToEcef_ok h1).1 (ecefToWgs84_ok_iff.mp h2).1.1
  · obtain ⟨c1, crs1, h1, h2⟩ := then_ok_iff.mp h
    obtain ⟨e, he, h3, -⟩ := enuToEcef_ok h1
    simp only [he]
    exact forall₂_bind h3 (ecefToWgs84_ok_iff.mp h2).1.1
  · exact (ecefToWgs84_ok_iff.mp h).1.1

theorem toWgs84_of_points {g : Geodesy S} {d : Dataset S} {rows : List (V3 S)} (hne : d.crs.name = .ENU → d.crs.enu ≠ none)
    (h : List.Forall₂ (fun p q => wgs84Point g d.crs p = .ok q) d.coords.rows rows) :
    ∃ d', d.toWgs84 g = (.ok (), d') ∧ d'.coords.rows = rows := by
  have hid : ∀ a b : List (V3 S), List.Forall₂ (fun p q => (Except.ok p : Except PyErr (V3 S)) = .ok q) a b → a = b := by
    intro a b h
    induction h with
    | nil => rfl
    | cons h _ ih => cases h; rw [ih]
  simp only [Dataset.toWgs84]
  unfold wgs84Point at h
  cases hn : d.crs.name <;> simp only [hn, apply_ok] at h ⊢
  · exact ⟨d, rfl, hid _ _ h⟩
  · simp only [ellpsToWgs84]
    split
    · rename_i hc
      simp only [hc, if_true] at h
      exact ⟨d, rfl, hid _ _ h⟩
    · rename_i hc
      simp only [hc] at h
      obtain ⟨b, h1, h2⟩ := forall₂_unbind h
      refine ⟨⟨⟨rows, false⟩, _⟩, then_ok_iff.mpr ⟨⟨b, false⟩, { d.crs with name := .ECEF, ellps := none, enu := none }, ?_, ecefToWgs84_ok_iff.mpr ⟨⟨h2, rfl⟩, rfl⟩⟩, rfl⟩
      rw [ellpsToEcef, mapRows_ok_iff (c' := ⟨b, false⟩) |>.mpr ⟨h1, rfl⟩]
  · obtain ⟨e, he⟩ := Option.ne_none_iff_exists'.mp (hne hn)
    simp only [he] at h
    obtain ⟨b, h1, h2⟩ := forall₂_unbind h
    refine ⟨⟨⟨rows, false⟩, _⟩, then_ok_iff.mpr ⟨⟨b, false⟩, { d.crs with name := .ECEF, ellps := none, enu := none }, ?_, ecefToWgs84_ok_iff.mpr ⟨⟨h2, rfl⟩, rfl⟩⟩, rfl⟩
    simp only [enuToEcef, he]
    rw [mapRows_ok_iff (c' := ⟨b, false⟩) |>.mpr ⟨h1, rfl⟩]
  · exact ⟨⟨⟨rows, false⟩, _⟩, ecefToWgs84_ok_iff.mpr ⟨⟨h, rfl⟩, rfl⟩, rfl⟩

theorem enu_of_returns {g : Geodesy S} {d d' : Dataset S} (h : d.toWgs84 g = (.ok (), d')) (hn : d.crs.name = .ENU) : d.crs.enu ≠ none := by
  simp only [Dataset.toWgs84, hn, apply_ok] at h
  obtain ⟨c1, crs1, h1, h2⟩ := then_ok_iff.mp h
  obtain ⟨e, he, -⟩ := enuToEcef_ok h1
  rw [he]; simp

theorem forall₂_functional {α β : Type} {R : α → β → Prop} (hR : ∀ a b c, R a b → R a c → b = c) {l : List α} {m m' : List β}
    (h : List.Forall₂ R l m) (h' : List.Forall₂ R l m') : m = m' := by
  induction h generalizing m' with
  | nil => cases h'; rfl
  | cons h _ ih => cases h' with
    | cons k hs => rw [hR _ _ _ h k, ih hs]

/-- the bodies of a run are determined by what `get_masses` returns -/
theorem masses_det {g : Geodesy S} {o o' : Outside S} {lib : HullLib S} {cfg cfg' : View S} {r r' : RunData S} (h : r.Of g o lib cfg)
    (h' : r'.Of g o' lib cfg') (hc : r.configured = r'.configured) : r.masses = r'.masses ∧ r.polys = r'.polys := by
  have h1 : r.masses = r'.masses := by
    refine forall₂_functional ?_ h.masses (hc ▸ h'.masses)
    rintro m ⟨a, b, c⟩ ⟨a', b', c'⟩ ⟨rfl, rfl, h1⟩ ⟨rfl, rfl, h2⟩
    rw [h1] at h2
    cases h2
    rfl
  exact ⟨h1, forall₂_functional (fun m p q h1 h2 => Except.ok.inj (h1.symm.trans h2)) h.polys (h1 ▸ h'.polys)⟩

/-- **C97** The line of an observation point depends on the point, its coordinate system and the bodies, not on the other observation points, their
number or their order, nor on how the configuration is written. -/
theorem C97_rows (g : Geodesy S) (lib : HullLib S) (o o' : Outside S) (cfg cfg' : View S) (gr : Bool) (t t' : Table S)
    (h : runTable g o lib cfg gr = .ok t) (h' : runTable g o' lib cfg' gr = .ok t') (ms : List (Mass S)) (hm : getMasses g o cfg = .ok ms)
    (hm' : getMasses g o' cfg' = .ok ms) (ob ob' : Observer S) (hob : getObserver g o cfg = .ok ob) (hob' : getObserver g o' cfg' = .ok ob')
    (hcrs : ob.dataset.crs = ob'.dataset.crs) (i j : Nat) (p : V3 S) (hi : ob.dataset.coords.rows[i]? = some p)
    (hj : ob'.dataset.coords.rows[j]? = some p) : ∃ row, t.rows[i]? = some row ∧ t'.rows[j]? = some row := by
  obtain ⟨r, -, -, hr, -⟩ := runTable_ok h
  obtain ⟨r', -, -, hr', -⟩ := runTable_ok h'
  obtain rfl : ob = r.observer := Except.ok.inj (hob.symm.trans hr.observer)
  obtain rfl : ob' = r'.observer := Except.ok.inj (hob'.symm.trans hr'.observer)
  have e : r.configured = r'.configured :=
    (Except.ok.inj (hm.symm.trans hr.configured)).symm.trans (Except.ok.inj (hm'.symm.trans hr'.configured))
  obtain ⟨e1, e2⟩ := masses_det hr hr' e
  obtain ⟨first, rest, hf, hrow⟩ := C37_first_density g o lib cfg gr t r h hr
  obtain ⟨first', rest', hf', hrow'⟩ := C37_first_density g o' lib cfg' gr t' r' h' hr'
  obtain ⟨rfl, -⟩ := List.cons.inj (hf.symm.trans (e1.trans hf'))
  obtain ⟨q, hq, k1⟩ := forall₂_get (toWgs84_points hr.stations) hi
  obtain ⟨q', hq', k2⟩ := forall₂_get (toWgs84_points hr'.stations) hj
  rw [hcrs, k2] at k1
  cases k1
  obtain ⟨as, h1, h2⟩ := hrow i q hq
  obtain ⟨as', h3, h4⟩ := hrow' j q hq'
  rw [e2, h3] at h1
  obtain rfl : as' = as := List.map_injective_iff.mpr (fun _ _ h => Except.ok.inj h) h1
  exact ⟨_, h2, h4⟩

theorem runData_given {g : Geodesy S} {o : Outside S} {lib : HullLib S} {cfg : View S} {r : RunData S} (hr : r.Of g o lib cfg) {ms : List (Mass S)}
    (hm : getMasses g o cfg = .ok ms) {ob : Observer S} (hob : getObserver g o cfg = .ok ob) : r.configured = ms ∧ r.observer = ob :=
  ⟨Except.ok.inj (hr.configured.symm.trans hm), Except.ok.inj (hr.observer.symm.trans hob)⟩

theorem run_shows {g : Geodesy S} {o : Outside S} {lib : HullLib S} {cfg : View S} {gr : Bool} {t : Table S}
    (h : runTable g o lib cfg gr = .ok t) : configShow cfg = .ok () := by
  rcases hc : configShow cfg with e | ⟨⟨⟩⟩
  · rw [runTable, hc] at h; cases h
  · rfl

/-- a run with the bodies of other runs, observation points that these runs have -/
theorem run_from {g : Geodesy S} {o o' : Outside S} {lib : HullLib S} {cfg cfg' : View S} {gr : Bool} {r : RunData S}
    (hr : r.Of g o lib cfg) (hne : r.configured ≠ []) (hshow : configShow cfg' = .ok ()) (hm' : getMasses g o' cfg' = .ok r.configured) {ob : Observer S}
    (hob : getObserver g o' cfg' = .ok ob) {rows : List (V3 S)} (henu : ob.dataset.crs.name = .ENU → ob.dataset.crs.enu ≠ none)
    (hpts : List.Forall₂ (fun p q => wgs84Point g ob.dataset.crs p = .ok q) ob.dataset.coords.rows rows) (hne' : rows ≠ [])
    (hans : ∀ first, r.masses.head? = some first → ∀ q ∈ r.polys, ∀ p ∈ rows,
      ∃ a, (Call.mk p first.density first.gravityConstant gr).onNew q = .ok a) :
    ∃ t, runTable g o' lib cfg' gr = .ok t := by
  obtain ⟨d', h1, rfl⟩ := toWgs84_of_points henu hpts
  exact run_returns_polys (r := ⟨r.configured, r.masses, r.polys, ob, d'⟩) ⟨hm', hr.masses, hr.polys, hob, h1⟩ hshow hne hne' hans

/-- **C97** Splitting the observation points: if the runs for two lists of observation points return, the run for both lists together returns (if its
parameters can be shown), and its lines are those of the two runs, one after the other. -/
theorem C97_split (g : Geodesy S) (lib : HullLib S) (o₁ o₂ o : Outside S) (cfg₁ cfg₂ cfg : View S) (gr : Bool) (t₁ t₂ : Table S)
    (h₁ : runTable g o₁ lib cfg₁ gr = .ok t₁) (h₂ : runTable g o₂ lib cfg₂ gr = .ok t₂) (hshow : configShow cfg = .ok ()) (ms : List (Mass S))
    (hm₁ : getMasses g o₁ cfg₁ = .ok ms) (hm₂ : getMasses g o₂ cfg₂ = .ok ms) (hm : getMasses g o cfg = .ok ms) (ob₁ ob₂ ob : Observer S)
    (hob₁ : getObserver g o₁ cfg₁ = .ok ob₁) (hob₂ : getObserver g o₂ cfg₂ = .ok ob₂) (hob : getObserver g o cfg = .ok ob)
    (hc₁ : ob₁.dataset.crs = ob.dataset.crs) (hc₂ : ob₂.dataset.crs = ob.dataset.crs)
    (hrows : ob.dataset.coords.rows = ob₁.dataset.coords.rows ++ ob₂.dataset.coords.rows) :
    ∃ t, runTable g o lib cfg gr = .ok t ∧ t.rows = t₁.rows ++ t₂.rows ∧ t.columns = t₁.columns := by
  obtain ⟨r₁, f₁, rest₁, hr₁, hf₁, hne₁, hcol₁, hl₁⟩ := runTable_ok h₁
  obtain ⟨r₂, f₂, rest₂, hr₂, hf₂, hne₂, hcol₂, hl₂⟩ := runTable_ok h₂
  obtain ⟨e₁, rfl⟩ := runData_given hr₁ hm₁ hob₁
  obtain ⟨e₂, rfl⟩ := runData_given hr₂ hm₂ hob₂
  obtain ⟨em, ep⟩ := masses_det hr₁ hr₂ (e₁.trans e₂.symm)
  obtain ⟨g₁, s₁, hg₁, hrow₁⟩ := C37_first_density g o₁ lib cfg₁ gr t₁ r₁ h₁ hr₁
  obtain ⟨g₂, s₂, hg₂, hrow₂⟩ := C37_first_density g o₂ lib cfg₂ gr t₂ r₂ h₂ hr₂
  have k₁ := toWgs84_points hr₁.stations
  have k₂ := toWgs84_points hr₂.stations
  rw [hc₁] at k₁
  rw [hc₂] at k₂
  have hpts : List.Forall₂ (fun p q => wgs84Point g ob.dataset.crs p = .ok q) ob.dataset.coords.rows (r₁.stations.coords.rows ++ r₂.stations.coords.rows) := by
    rw [hrows]; exact List.rel_append k₁ k₂
  have answers : ∀ (as : List (V3 S × M3 S)) (ps : List (Poly S)) (c : Call S), ps.map c.onNew = as.map .ok → ∀ q ∈ ps, ∃ a, c.onNew q = .ok a := by
    intro as ps c h q hq
    have : c.onNew q ∈ as.map .ok := h ▸ List.mem_map_of_mem hq
    obtain ⟨a, -, ha⟩ := List.mem_map.mp this
    exact ⟨a, ha.symm⟩
  obtain ⟨t, ht⟩ : ∃ t, runTable g o lib cfg gr = .ok t := by
    refine run_from hr₁ ?_ hshow (e₁ ▸ hm) hob (fun h => hc₁ ▸ enu_of_returns hr₁.stations (hc₁ ▸ h)) hpts (by simp [hne₁]) ?_
    · intro h0
      have := hr₁.masses
      rw [h0, hf₁] at this
      cases this
    · intro first hfirst q hq p hp
      rcases List.mem_append.mp hp with hp | hp
      · obtain ⟨i, hi⟩ := List.getElem?_of_mem hp
        obtain ⟨as, has, -⟩ := hrow₁ i p hi
        rw [hg₁] at hfirst
        cases hfirst
        exact answers as _ _ has q hq
      · obtain ⟨i, hi⟩ := List.getElem?_of_mem hp
        obtain ⟨as, has, -⟩ := hrow₂ i p hi
        rw [em, hg₂] at hfirst
        cases hfirst
        exact answers as _ _ has q (ep ▸ hq)
  obtain ⟨r, f, rest, hr, hf, hne, hcol, hl⟩ := runTable_ok ht
  obtain ⟨e, rfl⟩ := runData_given hr hm hob
  refine ⟨t, ht, ?_, ?_⟩
  · have n₁ := hl₁.length_eq.symm.trans k₁.length_eq.symm
    have n₂ := hl₂.length_eq.symm.trans k₂.length_eq.symm
    have n := hl.length_eq.symm.trans (toWgs84_points hr.stations).length_eq.symm
    apply List.ext_getElem?
    intro i
    have hlook := List.getElem?_append (l₁ := r₁.observer.dataset.coords.rows) (l₂ := r₂.observer.dataset.coords.rows) (i := i)
    rw [List.getElem?_append, n₁]
    split
    · rename_i hi
      obtain ⟨p, hp⟩ : ∃ p, r₁.observer.dataset.coords.rows[i]? = some p := ⟨_, List.getElem?_eq_getElem hi⟩
      obtain ⟨row, k3, k4⟩ := C97_rows g lib o o₁ cfg cfg₁ gr t t₁ ht h₁ ms hm hm₁ _ _ hob hob₁ hc₁.symm i i p
        (by rw [hrows, hlook, if_pos hi, hp]) hp
      rw [k3, k4]
    · rename_i hi
      cases hp : r₂.observer.dataset.coords.rows[i - r₁.observer.dataset.coords.rows.length]? with
      | some p =>
        obtain ⟨row, k3, k4⟩ := C97_rows g lib o o₂ cfg cfg₂ gr t t₂ ht h₂ ms hm hm₂ _ _ hob hob₂ hc₂.symm i _ p
          (by rw [hrows, hlook, if_neg hi, hp]) hp
        rw [k3, k4]
      | none =>
        rw [List.getElem?_eq_none_iff] at hp
        rw [List.getElem?_eq_none, List.getElem?_eq_none]
        · rw [n₂]; exact hp
        · rw [n, hrows, List.length_append]; omega
  · rw [hcol, hcol₁, getObserver_is hob, getObserver_is hob₁, observer_labels, observer_labels, hc₁]

end

/-! ### bodies add up, the density is a factor -/

theorem accumulate_from (as : List (V3 ℝ × M3 ℝ)) (s : Station ℝ) (p : V3 ℝ) : accumulate s as =
    ⟨s.coord, s.G.add (accumulate (Station.new p) as).G, s.T.add (accumulate (Station.new p) as).T⟩ := by
  induction as generalizing s p with
  | nil =>
    obtain ⟨c, G, T⟩ := s
    simp only [accumulate, Station.new, Station.mk.injEq, true_and]
    exact ⟨V3.ext' (by simp) (by simp) (by simp), M3.ext' (V3.ext' (by simp [M3.zeros, M3.add]) (by simp [M3.zeros, M3.add]) (by simp [M3.zeros, M3.add]))
      (V3.ext' (by simp [M3.zeros, M3.add]) (by simp [M3.zeros, M3.add]) (by simp [M3.zeros, M3.add])) (V3.ext' (by simp [M3.zeros, M3.add]) (by simp [M3.zeros, M3.add]) (by simp [M3.zeros, M3.add]))⟩
  | cons a as ih =>
    obtain ⟨G, T⟩ := a
    simp only [accumulate]
    rw [ih _ p, ih { (Station.new p) with G := (Station.new p).G.add G, T := (Station.new p).T.add T } p]
    simp only [Station.new, Station.mk.injEq, true_and]
    constructor
    · refine V3.ext' ?_ ?_ ?_ <;> simp <;> ring
    · refine M3.ext' (V3.ext' ?_ ?_ ?_) (V3.ext' ?_ ?_ ?_) (V3.ext' ?_ ?_ ?_) <;> simp [M3.zeros, M3.add] <;> ring

theorem accumulate_append {S : Type} [Arith S] (as bs : List (V3 S × M3 S)) (s : Station S) : accumulate s (as ++ bs) = accumulate (accumulate s as) bs := by
  induction as generalizing s with
  | nil => rfl
  | cons a as ih => exact ih _

theorem line_append (as bs : List (V3 ℝ × M3 ℝ)) (p : V3 ℝ) : lineOf (accumulate (Station.new p) (as ++ bs)) =
    (lineOf (accumulate (Station.new p) as)).take 3 ++
      List.zipWith (· + ·) ((lineOf (accumulate (Station.new p) as)).drop 3) ((lineOf (accumulate (Station.new p) bs)).drop 3) := by
  rw [accumulate_append, accumulate_from bs _ p]
  simp [lineOf, M3.add]

theorem line_scale (k : ℝ) (as : List (V3 ℝ × M3 ℝ)) (p : V3 ℝ) : lineOf (accumulate (Station.new p) (as.map (scaleField k))) =
    (lineOf (accumulate (Station.new p) as)).take 3 ++ ((lineOf (accumulate (Station.new p) as)).drop 3).map (k * ·) := by
  have h : accumulate (Station.new p) (as.map (scaleField k)) = ⟨p, V3.smul k (accumulate (Station.new p) as).G,
      ⟨V3.smul k (accumulate (Station.new p) as).T.r0, V3.smul k (accumulate (Station.new p) as).T.r1, V3.smul k (accumulate (Station.new p) as).T.r2⟩⟩ := by
    induction as with
    | nil =>
      simp only [accumulate, Station.new, List.map_nil, Station.mk.injEq, true_and]
      exact ⟨V3.ext' (by simp) (by simp) (by simp), M3.ext' (V3.ext' (by simp [M3.zeros]) (by simp [M3.zeros]) (by simp [M3.zeros]))
        (V3.ext' (by simp [M3.zeros]) (by simp [M3.zeros]) (by simp [M3.zeros])) (V3.ext' (by simp [M3.zeros]) (by simp [M3.zeros]) (by simp [M3.zeros]))⟩
    | cons a as ih =>
      obtain ⟨G, T⟩ := a
      simp only [List.map_cons, scaleField, accumulate]
      rw [accumulate_from _ _ p, ih, accumulate_from as { (Station.new p) with G := (Station.new p).G.add G, T := (Station.new p).T.add T } p]
      simp only [Station.new, Station.mk.injEq, true_and]
      constructor
      · refine V3.ext' ?_ ?_ ?_ <;> simp <;> ring
      · refine M3.ext' (V3.ext' ?_ ?_ ?_) (V3.ext' ?_ ?_ ?_) (V3.ext' ?_ ?_ ?_) <;> simp [M3.zeros, M3.add] <;> ring
  have hc : (accumulate (Station.new p) as).coord = p := by rw [accumulate_from as _ p]; rfl
  rw [h]
  simp [lineOf, hc]

theorem configured_ne {S : Type} [Arith S] {g : Geodesy S} {o : Outside S} {lib : HullLib S} {cfg : View S} {r : RunData S} (hr : r.Of g o lib cfg)
    {f : Mass S} {rest : List (Mass S)} (hf : r.masses = f :: rest) : ∃ m ms, r.configured = m :: ms ∧ f.density = m.density ∧ f.gravityConstant = m.gravityConstant := by
  have := hr.masses
  rw [hf] at this
  cases hc : r.configured with
  | nil => rw [hc] at this; cases this
  | cons m ms =>
    rw [hc] at this
    cases this with
    | cons h _ => exact ⟨m, ms, rfl, h.1, h.2.1⟩

/-- **C97** The bodies add up: with the same observers, and the first body of both runs having the same density and constant, the run with the bodies of
two runs returns (if its parameters can be shown); each line starts with the coordinates, and its fields are the sums of the fields of the two runs. -/
theorem C97_bodies (g : Geodesy ℝ) (lib : HullLib ℝ) (o₁ o₂ o : Outside ℝ) (cfg₁ cfg₂ cfg : View ℝ) (gr : Bool) (t₁ t₂ : Table ℝ)
    (h₁ : runTable g o₁ lib cfg₁ gr = .ok t₁) (h₂ : runTable g o₂ lib cfg₂ gr = .ok t₂) (hshow : configShow cfg = .ok ()) (ms₁ ms₂ : List (Mass ℝ))
    (hm₁ : getMasses g o₁ cfg₁ = .ok ms₁) (hm₂ : getMasses g o₂ cfg₂ = .ok ms₂) (hm : getMasses g o cfg = .ok (ms₁ ++ ms₂)) (ob : Observer ℝ)
    (hob₁ : getObserver g o₁ cfg₁ = .ok ob) (hob₂ : getObserver g o₂ cfg₂ = .ok ob) (hob : getObserver g o cfg = .ok ob)
    (hd : ∀ m₁ m₂, ms₁.head? = some m₁ → ms₂.head? = some m₂ → m₁.density = m₂.density ∧ m₁.gravityConstant = m₂.gravityConstant) :
    ∃ t, runTable g o lib cfg gr = .ok t ∧ t.columns = t₁.columns ∧ t.rows.length = t₁.rows.length ∧
      ∀ (i : Nat) (row₁ row₂ : List ℝ), t₁.rows[i]? = some row₁ → t₂.rows[i]? = some row₂ →
        t.rows[i]? = some (row₁.take 3 ++ List.zipWith (· + ·) (row₁.drop 3) (row₂.drop 3)) := by
  obtain ⟨r₁, f₁, rest₁, hr₁, hf₁, hne₁, hcol₁, hl₁⟩ := runTable_ok h₁
  obtain ⟨r₂, f₂, rest₂, hr₂, hf₂, hne₂, hcol₂, hl₂⟩ := runTable_ok h₂
  obtain ⟨rfl, rfl⟩ := runData_given hr₁ hm₁ hob₁
  obtain ⟨rfl, e₂⟩ := runData_given hr₂ hm₂ hob₂
  obtain ⟨c₁, l₁, hc₁, hd₁, hg₁⟩ := configured_ne hr₁ hf₁
  obtain ⟨c₂, l₂, hc₂, hd₂, hg₂⟩ := configured_ne hr₂ hf₂
  obtain ⟨ed, eg⟩ := hd c₁ c₂ (by rw [hc₁]; rfl) (by rw [hc₂]; rfl)
  have es : r₂.stations = r₁.stations := by
    have := hr₂.stations
    rw [e₂, hr₁.stations] at this
    exact ((Prod.mk.inj this).2).symm
  have hr : (RunData.mk (r₁.configured ++ r₂.configured) (r₁.masses ++ r₂.masses) (r₁.polys ++ r₂.polys) r₁.observer r₁.stations).Of g o lib cfg :=
    ⟨hm, List.rel_append hr₁.masses hr₂.masses, List.rel_append hr₁.polys hr₂.polys, hob, hr₁.stations⟩
  obtain ⟨f₁', rest₁', hf₁', hrow₁⟩ := C37_first_density g o₁ lib cfg₁ gr t₁ r₁ h₁ hr₁
  obtain ⟨f₂', rest₂', hf₂', hrow₂⟩ := C37_first_density g o₂ lib cfg₂ gr t₂ r₂ h₂ hr₂
  obtain ⟨rfl, -⟩ := List.cons.inj (hf₁.symm.trans hf₁')
  obtain ⟨rfl, -⟩ := List.cons.inj (hf₂.symm.trans hf₂')
  have ed' : f₂.density = f₁.density := by rw [hd₂, hd₁, ed]
  have eg' : f₂.gravityConstant = f₁.gravityConstant := by rw [hg₂, hg₁, eg]
  have answers : ∀ (as : List (V3 ℝ × M3 ℝ)) (ps : List (Poly ℝ)) (c : Call ℝ), ps.map c.onNew = as.map .ok → ∀ q ∈ ps, ∃ a, c.onNew q = .ok a := by
    intro as ps c h q hq
    have : c.onNew q ∈ as.map .ok := h ▸ List.mem_map_of_mem hq
    obtain ⟨a, -, ha⟩ := List.mem_map.mp this
    exact ⟨a, ha.symm⟩
  obtain ⟨t, ht⟩ : ∃ t, runTable g o lib cfg gr = .ok t := by
    refine run_returns_polys hr hshow (by simp [hc₁]) hne₁ ?_
    intro first hfirst q hq p hp
    simp only [hf₁, List.cons_append, List.head?_cons, Option.some.injEq] at hfirst
    subst hfirst
    obtain ⟨i, hi⟩ := List.getElem?_of_mem hp
    rcases List.mem_append.mp hq with hq | hq
    · obtain ⟨as, has, -⟩ := hrow₁ i p hi
      exact answers as _ _ has q hq
    · obtain ⟨as, has, -⟩ := hrow₂ i p (by rw [es]; exact hi)
      rw [ed', eg'] at has
      exact answers as _ _ has q hq
  obtain ⟨f, rest, hf, hrow⟩ := C37_first_density g o lib cfg gr t _ ht hr
  obtain ⟨r', _, _, hr', _, _, hcol, hl⟩ := runTable_ok ht
  obtain rfl := hr'.unique hr
  simp only [hf₁, List.cons_append] at hf
  obtain ⟨rfl, -⟩ := List.cons.inj hf
  have n : t.rows.length = t₁.rows.length := hl.length_eq.symm.trans hl₁.length_eq
  refine ⟨t, ht, hcol.trans hcol₁.symm, n, fun i row₁ row₂ k₁ k₂ => ?_⟩
  obtain ⟨p, hp, -⟩ := forall₂_get hl₁.flip k₁
  obtain ⟨as, has, j⟩ := hrow i p hp
  obtain ⟨as₁, has₁, j₁⟩ := hrow₁ i p hp
  obtain ⟨as₂, has₂, j₂⟩ := hrow₂ i p (by rw [es]; exact hp)
  rw [ed', eg'] at has₂
  rw [List.map_append, has₁, has₂, ← List.map_append] at has
  obtain rfl : as₁ ++ as₂ = as := List.map_injective_iff.mpr (fun _ _ h => Except.ok.inj h) has
  rw [k₁] at j₁
  rw [k₂] at j₂
  cases j₁
  cases j₂
  rw [j, line_append]

/-- **C97** The density is a factor: with the same bodies and observers, if density times constant of the first body is `k` times that of another run, the
run returns (if its parameters can be shown) and its fields are `k` times the fields of the other run.  (The densities of the other bodies do not matter.) -/
theorem C97_density (g : Geodesy ℝ) (lib : HullLib ℝ) (hlib : lib.Honest) (o o' : Outside ℝ) (cfg cfg' : View ℝ) (gr : Bool) (t : Table ℝ)
    (h : runTable g o lib cfg gr = .ok t) (hshow : configShow cfg' = .ok ()) (ms ms' : List (Mass ℝ)) (hm : getMasses g o cfg = .ok ms)
    (hm' : getMasses g o' cfg' = .ok ms') (hbodies : ms'.map (·.dataset) = ms.map (·.dataset)) (ob : Observer ℝ)
    (hob : getObserver g o cfg = .ok ob) (hob' : getObserver g o' cfg' = .ok ob) (k : ℝ)
    (hk : ∀ m m', ms.head? = some m → ms'.head? = some m' → m'.density * m'.gravityConstant = k * (m.density * m.gravityConstant)) :
    ∃ t', runTable g o' lib cfg' gr = .ok t' ∧ t'.columns = t.columns ∧ t'.rows = t.rows.map fun row => row.take 3 ++ (row.drop 3).map (k * ·) := by
  obtain ⟨r, f, rest, hr, hf, hne, hcol, hl⟩ := runTable_ok h
  obtain ⟨rfl, rfl⟩ := runData_given hr hm hob
  have key : ∀ (ms' ms : List (Mass ℝ)) (ds : List (Mass ℝ)), ms'.map (·.dataset) = ms.map (·.dataset) →
      List.Forall₂ (fun m m' => m'.density = m.density ∧ m'.gravityConstant = m.gravityConstant ∧
        runOps g [.lon180, .height, .ecef] m.dataset = (.ok (), m'.dataset)) ms ds →
      ∃ ds' : List (Mass ℝ), List.Forall₂ (fun m m' => m'.density = m.density ∧ m'.gravityConstant = m.gravityConstant ∧
        runOps g [.lon180, .height, .ecef] m.dataset = (.ok (), m'.dataset)) ms' ds' ∧ ds'.map (·.dataset) = ds.map (·.dataset) := by
    intro ms' ms ds he hF
    induction hF generalizing ms' with
    | nil =>
      cases ms' with
      | nil => exact ⟨[], .nil, rfl⟩
      | cons m ms' => simp at he
    | @cons a b _ _ h _ ih =>
      cases ms' with
      | nil => simp at he
      | cons m ms' =>
        simp only [List.map_cons, List.cons.injEq] at he
        obtain ⟨ds', k1, k2⟩ := ih ms' he.2
        exact ⟨⟨m.density, m.gravityConstant, b.dataset⟩ :: ds', .cons ⟨rfl, rfl, by rw [he.1]; exact h.2.2⟩ k1, by simp only [List.map_cons, k2]⟩
  obtain ⟨ds', hds, heq⟩ := key ms' r.configured r.masses hbodies hr.masses
  have hps : List.Forall₂ (fun (m : Mass ℝ) p => polyhedronOf lib m.dataset.coords.rows = .ok p) ds' r.polys := by
    have := hr.polys
    rw [← List.forall₂_map_left_iff (f := fun m : Mass ℝ => m.dataset) (R := fun d p => polyhedronOf lib d.coords.rows = .ok p)] at this ⊢
    rw [heq]; exact this
  have hr' : (RunData.mk ms' ds' r.polys r.observer r.stations).Of g o' lib cfg' := ⟨hm', hds, hps, hob', hr.stations⟩
  obtain ⟨f', rest', hf', hrow⟩ := C37_first_density g o lib cfg gr t r h hr
  obtain ⟨rfl, -⟩ := List.cons.inj (hf.symm.trans hf')
  obtain ⟨m, l, hc, hd, hg⟩ := configured_ne hr hf
  obtain ⟨d, rest'', hd'⟩ : ∃ d rest'', ds' = d :: rest'' := by
    cases hds' : ds' with
    | nil => rw [hds', hf] at heq; cases heq
    | cons d rest'' => exact ⟨d, rest'', rfl⟩
  obtain ⟨m', l', hc', hdd, hdg⟩ := configured_ne hr' hd'
  have hkk : d.density * d.gravityConstant = k * (f.density * f.gravityConstant) := by
    rw [hdd, hdg, hd, hg]
    exact hk m m' (by rw [hc]; rfl) (by simp only at hc'; rw [hc']; rfl)
  have hw : ∀ q ∈ r.polys, q.WellTwinned := by
    intro q hq
    obtain ⟨i, hi⟩ := List.getElem?_of_mem hq
    obtain ⟨x, hx, hxq⟩ := forall₂_get hr.polys.flip hi
    obtain ⟨H, hH, hq'⟩ := except_bind_ok hxq
    exact wellTwinned_of_hull (hlib _ _ hH).2 hq'
  have hscale : ∀ p : V3 ℝ, ∀ q ∈ r.polys, (Call.mk p d.density d.gravityConstant gr).onNew q =
      ((Call.mk p f.density f.gravityConstant gr).onNew q).map (scaleField k) := by
    intro p q hq
    rw [onNew_scale (hw q hq), onNew_scale (hw q hq) p f.density, hkk]
    rcases Call.onNew q ⟨p, 1, 1, gr⟩ with x | v
    · rfl
    · simp only [Except.map, Except.ok.injEq, scaleField]
      refine Prod.ext (V3.ext' ?_ ?_ ?_) (M3.ext' (V3.ext' ?_ ?_ ?_) (V3.ext' ?_ ?_ ?_) (V3.ext' ?_ ?_ ?_)) <;> simp <;> ring
  have hscale' : ∀ (p : V3 ℝ) (as : List (V3 ℝ × M3 ℝ)), r.polys.map (Call.mk p f.density f.gravityConstant gr).onNew = as.map .ok →
      r.polys.map (Call.mk p d.density d.gravityConstant gr).onNew = (as.map (scaleField k)).map .ok := by
    intro p as has
    rw [List.map_congr_left (hscale p), List.map_map]
    have := congrArg (List.map (Except.map (ε := PyErr) (scaleField k))) has
    simpa [List.map_map, Function.comp_def, Except.map] using this
  obtain ⟨t', ht'⟩ : ∃ t', runTable g o' lib cfg' gr = .ok t' := by
    refine run_returns_polys hr' hshow (by simp only at hc'; simp [hc']) hne ?_
    intro first hfirst q hq p hp
    simp only [hd', List.head?_cons, Option.some.injEq] at hfirst
    subst hfirst
    obtain ⟨i, hi⟩ := List.getElem?_of_mem hp
    obtain ⟨as, has, -⟩ := hrow i p hi
    have : (Call.mk p d.density d.gravityConstant gr).onNew q ∈ (as.map (scaleField k)).map .ok := hscale' p as has ▸ List.mem_map_of_mem hq
    obtain ⟨a, -, ha⟩ := List.mem_map.mp this
    exact ⟨a, ha.symm⟩
  obtain ⟨f', rest', hf', hrow'⟩ := C37_first_density g o' lib cfg' gr t' _ ht' hr'
  obtain ⟨r', _, _, hr'', _, _, hcol', hl'⟩ := runTable_ok ht'
  obtain rfl := hr''.unique hr'
  simp only [hd'] at hf'
  obtain ⟨rfl, -⟩ := List.cons.inj hf'
  have n : t'.rows.length = t.rows.length := hl'.length_eq.symm.trans hl.length_eq
  refine ⟨t', ht', hcol'.trans hcol.symm, List.ext_getElem? fun i => ?_⟩
  rw [List.getElem?_map]
  cases hi : t.rows[i]? with
  | none =>
    rw [List.getElem?_eq_none_iff] at hi
    rw [List.getElem?_eq_none (by omega)]
    rfl
  | some row =>
    obtain ⟨p, hp, -⟩ := forall₂_get hl.flip hi
    obtain ⟨as, has, j⟩ := hrow i p hp
    obtain ⟨as', has', j'⟩ := hrow' i p hp
    simp only at has'
    rw [hscale' p as has] at has'
    obtain rfl : as.map (scaleField k) = as' := List.map_injective_iff.mpr (fun _ _ h => Except.ok.inj h) has'
    rw [hi] at j
    cases j
    rw [j', line_scale]
    rfl

/-- a permutation of a list that is related to another one -/
theorem forall₂_perm {α β : Type} {R : α → β → Prop} {l l' : List α} (hp : l.Perm l') : ∀ {m : List β}, List.Forall₂ R l m →
    ∃ m', List.Forall₂ R l' m' ∧ m.Perm m' := by
  induction hp with
  | nil => intro m h; exact ⟨m, h, .refl _⟩
  | cons x _ ih =>
    intro m h
    cases h with
    | cons h hs =>
      obtain ⟨m', h1, h2⟩ := ih hs
      exact ⟨_ :: m', .cons h h1, h2.cons _⟩
  | swap x y l =>
    intro m h
    cases h with
    | cons h hs => cases hs with
      | cons k ks => exact ⟨_, .cons k (.cons h ks), .swap _ _ _⟩
  | trans _ _ ih1 ih2 =>
    intro m h
    obtain ⟨m1, h1, h2⟩ := ih1 h
    obtain ⟨m2, h3, h4⟩ := ih2 h1
    exact ⟨m2, h3, h2.trans h4⟩

/-- **C97** The order of the bodies does not matter: with the same observers and the same bodies in another order, if the first bodies have the same density and
constant, the run returns (if its parameters can be shown) with the same table. -/
theorem C97_order (g : Geodesy ℝ) (lib : HullLib ℝ) (o o' : Outside ℝ) (cfg cfg' : View ℝ) (gr : Bool) (t : Table ℝ)
    (h : runTable g o lib cfg gr = .ok t) (hshow : configShow cfg' = .ok ()) (ms ms' : List (Mass ℝ)) (hm : getMasses g o cfg = .ok ms)
    (hm' : getMasses g o' cfg' = .ok ms') (hperm : ms.Perm ms') (ob : Observer ℝ)
    (hob : getObserver g o cfg = .ok ob) (hob' : getObserver g o' cfg' = .ok ob)
    (hd : ∀ m m', ms.head? = some m → ms'.head? = some m' → m'.density = m.density ∧ m'.gravityConstant = m.gravityConstant) :
    runTable g o' lib cfg' gr = .ok t := by
  obtain ⟨r, f, rest, hr, hf, hne, hcol, hl⟩ := runTable_ok h
  obtain ⟨rfl, rfl⟩ := runData_given hr hm hob
  obtain ⟨ds', hds, hpd⟩ := forall₂_perm hperm hr.masses
  obtain ⟨ps', hps, hpp⟩ := forall₂_perm hpd hr.polys
  have hr' : (RunData.mk ms' ds' ps' r.observer r.stations).Of g o' lib cfg' := ⟨hm', hds, hps, hob', hr.stations⟩
  obtain ⟨f', rest', hf', hrow⟩ := C37_first_density g o lib cfg gr t r h hr
  obtain ⟨rfl, -⟩ := List.cons.inj (hf.symm.trans hf')
  obtain ⟨m, l, hc, hdm, hgm⟩ := configured_ne hr hf
  obtain ⟨d, rest'', hd'⟩ : ∃ d rest'', ds' = d :: rest'' := by
    cases hds' : ds' with
    | nil => rw [hds', hf] at hpd; exact absurd hpd.length_eq (by simp)
    | cons d rest'' => exact ⟨d, rest'', rfl⟩
  obtain ⟨m', l', hc', hdd, hdg⟩ := configured_ne hr' hd'
  obtain ⟨e1, e2⟩ := hd m m' (by rw [hc]; rfl) (by simp only at hc'; rw [hc']; rfl)
  have ed : d.density = f.density := by rw [hdd, e1, hdm]
  have eg : d.gravityConstant = f.gravityConstant := by rw [hdg, e2, hgm]
  obtain ⟨t', ht'⟩ : ∃ t', runTable g o' lib cfg' gr = .ok t' := by
    refine run_returns_polys hr' hshow (by simp only at hc'; simp [hc']) hne ?_
    intro first hfirst q hq p hp
    simp only [hd', List.head?_cons, Option.some.injEq] at hfirst
    subst hfirst
    obtain ⟨i, hi⟩ := List.getElem?_of_mem hp
    obtain ⟨as, has, -⟩ := hrow i p hi
    have : (Call.mk p f.density f.gravityConstant gr).onNew q ∈ as.map .ok := has ▸ List.mem_map_of_mem (hpp.mem_iff.mpr hq)
    obtain ⟨a, -, ha⟩ := List.mem_map.mp this
    rw [ed, eg]
    exact ⟨a, ha.symm⟩
  obtain ⟨f', rest', hf', hrow'⟩ := C37_first_density g o' lib cfg' gr t' _ ht' hr'
  obtain ⟨r', _, _, hr'', _, _, hcol', hl'⟩ := runTable_ok ht'
  obtain rfl := hr''.unique hr'
  simp only [hd'] at hf'
  obtain ⟨rfl, -⟩ := List.cons.inj hf'
  have n : t'.rows.length = t.rows.length := hl'.length_eq.symm.trans hl.length_eq
  have hrows : t'.rows = t.rows := by
    refine List.ext_getElem? fun i => ?_
    cases hi : t.rows[i]? with
    | none =>
      rw [List.getElem?_eq_none_iff] at hi
      exact List.getElem?_eq_none (by omega)
    | some row =>
      obtain ⟨p, hp, -⟩ := forall₂_get hl.flip hi
      obtain ⟨as, has, j⟩ := hrow i p hp
      obtain ⟨as', has', j'⟩ := hrow' i p hp
      obtain ⟨as'', hpa, has''⟩ := ok_of_perm hpp has
      simp only [ed, eg] at has'
      obtain rfl : as' = as'' := List.map_injective_iff.mpr (fun _ _ h => Except.ok.inj h) (has'.symm.trans has'')
      rw [hi] at j
      rw [j, j', accumulate_swap (fun a b : ℝ => add_comm a b) (fun a b c : ℝ => add_assoc a b c) hpa]
  rw [ht']
  obtain ⟨c, rs⟩ := t
  obtain ⟨c', rs'⟩ := t'
  simp only at hrows hcol hcol'
  rw [hrows, hcol', hcol]

/-! ### examples -/

section
attribute [local instance] toyArith

/-- a configuration with two bodies and a list of observation points -/
def Toy.pointsConfig (pts : List (Val Rat)) : View Rat := View.root [.dict [
  ("masses", .list [Toy.massSection "ecef" 2 0, Toy.massSection "ecef" 5 10]),
  ("observers", .dict [("points", .list pts), ("file_path", .null),
    ("grid", .dict [("xstart_xend_xstep", .null), ("ystart_yend_ystep", .null), ("zstart_zend_zstep", .null)]),
    ("crs", Toy.crsSection "ellps" "ellps")])]]

/-- C97: two observation points together, and one by one -/
example : ∃ t₁ t₂ t, runTable Toy.geo Toy.outside Toy.hullLib (Toy.pointsConfig [Toy.point 3 5 7]) true = .ok t₁ ∧
    runTable Toy.geo Toy.outside Toy.hullLib (Toy.pointsConfig [Toy.point 4 6 9]) true = .ok t₂ ∧
    runTable Toy.geo Toy.outside Toy.hullLib (Toy.pointsConfig [Toy.point 3 5 7, Toy.point 4 6 9]) true = .ok t ∧
    t.rows = t₁.rows ++ t₂.rows := by
  have ret : ∀ {α : Type} {x : Except PyErr α}, isOkB x = true → ∃ y, x = .ok y := by
    intro α x h
    cases x with
    | ok y => exact ⟨y, rfl⟩
    | error e => cases h
  obtain ⟨t₁, h₁⟩ := ret (x := runTable Toy.geo Toy.outside Toy.hullLib (Toy.pointsConfig [Toy.point 3 5 7]) true) (by decide +kernel)
  obtain ⟨t₂, h₂⟩ := ret (x := runTable Toy.geo Toy.outside Toy.hullLib (Toy.pointsConfig [Toy.point 4 6 9]) true) (by decide +kernel)
  obtain ⟨ms, hm⟩ := ret (x := getMasses Toy.geo Toy.outside (Toy.pointsConfig [Toy.point 3 5 7])) (by decide +kernel)
  obtain ⟨c, hc⟩ := ret (x := getCrs Toy.geo ⟨[.ok (Toy.crsSection "ellps" "ellps")]⟩) (by decide +kernel)
  have ob : ∀ pts cs, readCoords Toy.outside ((Toy.pointsConfig pts).at "observers") = .ok cs →
      getObserver Toy.geo Toy.outside (Toy.pointsConfig pts) = .ok (mkObserver ⟨cs, c⟩) := by
    intro pts cs h
    have h5 : ((Toy.pointsConfig pts).at "observers").at "crs" = ⟨[.ok (Toy.crsSection "ellps" "ellps")]⟩ := rfl
    simp only [getObserver, getDataset, h, h5, hc, bind, Except.bind]
    rfl
  have hds : ∀ d : Dataset Rat, (mkObserver d).dataset = d := by
    intro d; simp only [mkObserver]; cases d.crs.name <;> rfl
  obtain ⟨t, ht, hrows, -⟩ := C97_split Toy.geo Toy.hullLib Toy.outside Toy.outside Toy.outside _ _
    (Toy.pointsConfig [Toy.point 3 5 7, Toy.point 4 6 9]) true t₁ t₂ h₁ h₂ rfl ms hm hm hm _ _ _
    (ob _ ⟨[⟨3, 5, 7⟩], false⟩ rfl) (ob _ ⟨[⟨4, 6, 9⟩], false⟩ rfl) (ob _ ⟨[⟨3, 5, 7⟩, ⟨4, 6, 9⟩], false⟩ rfl)
    (by rw [hds, hds]) (by rw [hds, hds]) (by rw [hds, hds, hds]; rfl)
  exact ⟨t₁, t₂, t, h₁, h₂, ht, hrows⟩
end

section

/-- a Cartesian configuration with bodies of four points and one observation point -/
def fewBodies (l : List (ℝ × V3 ℝ × V3 ℝ × V3 ℝ × V3 ℝ)) : View ℝ := View.root [.dict [
  ("masses", .list (l.map fun x => massVal "cart" x.1 x.2.1 x.2.2.1 x.2.2.2.1 x.2.2.2.2)), ("observers", observersVal "cart" "ellps" ⟨2, 3, 5⟩)]]

/-- the two halves of the tetrahedron, with a density -/
noncomputable def firstHalf (ρ : ℝ) : ℝ × V3 ℝ × V3 ℝ × V3 ℝ × V3 ℝ := (ρ, ⟨0, 0, 0⟩, ⟨1, 0, 0⟩, ⟨1 / 2, 1 / 2, 0⟩, ⟨0, 0, 1⟩)
noncomputable def secondHalf (ρ : ℝ) : ℝ × V3 ℝ × V3 ℝ × V3 ℝ × V3 ℝ := (ρ, ⟨0, 0, 0⟩, ⟨1 / 2, 1 / 2, 0⟩, ⟨0, 1, 0⟩, ⟨0, 0, 1⟩)

/-- a body as read -/
def readBody (x : ℝ × V3 ℝ × V3 ℝ × V3 ℝ × V3 ℝ) : Mass ℝ :=
  ⟨x.1, 1, ⟨⟨[x.2.1, x.2.2.1, x.2.2.2.1, x.2.2.2.2], false⟩, ⟨.CART, none, none, .ELLPS⟩⟩⟩

theorem fewBodies_mass (x : ℝ × V3 ℝ × V3 ℝ × V3 ℝ × V3 ℝ) :
    getMass toyGeo noFiles ⟨[.ok (massVal "cart" x.1 x.2.1 x.2.2.1 x.2.2.2.1 x.2.2.2.2)]⟩ = .ok (readBody x) := by
  obtain ⟨ρ, a, b, c, d⟩ := x
  have h4 : readCoords noFiles ⟨[.ok (massVal "cart" ρ a b c d)]⟩ = .ok ⟨[a, b, c, d], false⟩ := rfl
  have h5 : (⟨[.ok (massVal "cart" ρ a b c d)]⟩ : View ℝ).at "crs" = ⟨[.ok (crsVal "cart" "ellps")]⟩ := rfl
  simp only [getMass, getDataset, h4, h5, getCrs_plain findMember_cart (.inl rfl), bind, Except.bind]
  rfl

theorem fewBodies_one (x : ℝ × V3 ℝ × V3 ℝ × V3 ℝ × V3 ℝ) : getMasses toyGeo noFiles (fewBodies [x]) = .ok [readBody x] := by
  have h2 : ((fewBodies [x]).at "masses").iter = .ok [⟨[.ok (massVal "cart" x.1 x.2.1 x.2.2.1 x.2.2.2.1 x.2.2.2.2)]⟩] := rfl
  simp only [getMasses, h2, bind, Except.bind, List.mapM_cons, List.mapM_nil, fewBodies_mass]
  rfl

theorem fewBodies_two (x y : ℝ × V3 ℝ × V3 ℝ × V3 ℝ × V3 ℝ) : getMasses toyGeo noFiles (fewBodies [x, y]) = .ok [readBody x, readBody y] := by
  have h2 : ((fewBodies [x, y]).at "masses").iter = .ok [⟨[.ok (massVal "cart" x.1 x.2.1 x.2.2.1 x.2.2.2.1 x.2.2.2.2)]⟩,
    ⟨[.ok (massVal "cart" y.1 y.2.1 y.2.2.1 y.2.2.2.1 y.2.2.2.2)]⟩] := rfl
  simp only [getMasses, h2, bind, Except.bind, List.mapM_cons, List.mapM_nil, fewBodies_mass]
  rfl

theorem fewBodies_observer (l : List (ℝ × V3 ℝ × V3 ℝ × V3 ℝ × V3 ℝ)) :
    getObserver toyGeo noFiles (fewBodies l) = .ok (mkObserver ⟨⟨[⟨2, 3, 5⟩], false⟩, ⟨.CART, none, none, .ELLPS⟩⟩) := by
  have h4 : readCoords noFiles ((fewBodies l).at "observers") = .ok ⟨[⟨2, 3, 5⟩], false⟩ := rfl
  have h5 : ((fewBodies l).at "observers").at "crs" = ⟨[.ok (crsVal "cart" "ellps")]⟩ := rfl
  simp only [getObserver, getDataset, h4, h5, getCrs_plain findMember_cart (.inl rfl), bind, Except.bind]
  rfl

theorem half_returns (x : ℝ × V3 ℝ × V3 ℝ × V3 ℝ × V3 ℝ) (hx : (∃ ρ, x = firstHalf ρ) ∨ ∃ ρ, x = secondHalf ρ) :
    ∃ t, runTable toyGeo noFiles fourPoints (fewBodies [x]) false = .ok t := by
  refine (C69_returns toyGeo noFiles fourPoints fourPoints_honest (fewBodies [x]) rfl [readBody x] (fewBodies_one x) (by simp) ?_ ?_ _
    (fewBodies_observer [x]) rfl (by simp [mkObserver]) ?_).1
  · intro m hm; rw [List.mem_singleton] at hm; subst hm; rfl
  · intro m hm
    rw [List.mem_singleton] at hm
    subst hm
    rcases hx with ⟨ρ, rfl⟩ | ⟨ρ, rfl⟩
    · exact ⟨_, fourPoints_A⟩
    · exact ⟨_, fourPoints_B⟩
  · intro p hp m hm
    rw [List.mem_singleton] at hm
    subst hm
    simp only [mkObserver, List.mem_singleton] at hp
    subst hp
    rcases hx with ⟨ρ, rfl⟩ | ⟨ρ, rfl⟩ <;> simp [readBody, firstHalf, secondHalf]

/-- C97: the run of two bodies from the runs of each, the run with another density, the run in another order -/
example : ∃ t₁ t₂ t t' : Table ℝ, runTable toyGeo noFiles fourPoints (fewBodies [firstHalf 2]) false = .ok t₁ ∧
    runTable toyGeo noFiles fourPoints (fewBodies [secondHalf 2]) false = .ok t₂ ∧
    runTable toyGeo noFiles fourPoints (fewBodies [firstHalf 2, secondHalf 2]) false = .ok t ∧
    runTable toyGeo noFiles fourPoints (fewBodies [secondHalf 2, firstHalf 2]) false = .ok t ∧
    runTable toyGeo noFiles fourPoints (fewBodies [firstHalf 6, secondHalf 5]) false = .ok t' ∧
    (∀ row₁ row₂, t₁.rows[0]? = some row₁ → t₂.rows[0]? = some row₂ →
      t.rows[0]? = some (row₁.take 3 ++ List.zipWith (· + ·) (row₁.drop 3) (row₂.drop 3))) ∧
    t'.rows = t.rows.map fun row => row.take 3 ++ (row.drop 3).map (3 * ·) := by
  obtain ⟨t₁, h₁⟩ := half_returns (firstHalf 2) (.inl ⟨2, rfl⟩)
  obtain ⟨t₂, h₂⟩ := half_returns (secondHalf 2) (.inr ⟨2, rfl⟩)
  obtain ⟨t, ht, -, -, hadd⟩ := C97_bodies toyGeo fourPoints noFiles noFiles noFiles _ _ (fewBodies [firstHalf 2, secondHalf 2]) false t₁ t₂ h₁ h₂ rfl _ _
    (fewBodies_one _) (fewBodies_one _) (fewBodies_two _ _) _ (fewBodies_observer _) (fewBodies_observer _) (fewBodies_observer _) (by
      intro m₁ m₂ e₁ e₂
      simp only [List.head?_cons, Option.some.injEq] at e₁ e₂
      subst e₁; subst e₂
      exact ⟨rfl, rfl⟩)
  have ho := C97_order toyGeo fourPoints noFiles noFiles _ (fewBodies [secondHalf 2, firstHalf 2]) false t ht rfl _ _ (fewBodies_two _ _)
    (fewBodies_two _ _) (.swap _ _ _) _ (fewBodies_observer _) (fewBodies_observer _) (by
      intro m₁ m₂ e₁ e₂
      simp only [List.head?_cons, Option.some.injEq] at e₁ e₂
      subst e₁; subst e₂
      exact ⟨rfl, rfl⟩)
  obtain ⟨t', ht', -, hk⟩ := C97_density toyGeo fourPoints fourPoints_honest noFiles noFiles _ (fewBodies [firstHalf 6, secondHalf 5]) false t ht rfl _ _
    (fewBodies_two _ _) (fewBodies_two _ _) rfl _ (fewBodies_observer _) (fewBodies_observer _) 3 (by
      intro m₁ m₂ e₁ e₂
      simp only [List.head?_cons, Option.some.injEq] at e₁ e₂
      subst e₁; subst e₂
      norm_num [readBody, firstHalf])
  exact ⟨t₁, t₂, t, t', h₁, h₂, ht, ho, ht', fun row₁ row₂ e₁ e₂ => hadd 0 row₁ row₂ e₁ e₂, hk⟩
end

end Geec
