import Verif.Model.Start
import Verif.Props.InputFiles
/-
C111: the geoid files.
-/
namespace Geec
open Arith

/-- the three grids are installed -/
def GridsInstalled (grid : List Char → Bool) (i : Install) (d : Disk) : Prop :=
  ∀ n ∈ ["egm2008-2_5.pgm".toList, "egm96-5.pgm".toList, "egm84-15.pgm".toList],
    ∃ c, d (i.base ++ ["geec".toList, "data".toList, "geoids".toList, n]) = some (.text c) ∧ grid c = true

theorem openGeoid_ok {grid : List Char → Bool} {p : Path} {d : Disk} : openGeoid grid p d = .ok () ↔ ∃ c, d p = some (.text c) ∧ grid c = true := by
  unfold openGeoid readText
  rcases h : d p with _ | ⟨_ | c⟩
  · simp
  · simp
  · by_cases hc : grid c = true <;> simp [hc]

theorem openGeoid_or {grid : List Char → Bool} {p : Path} {d : Disk} : openGeoid grid p d = .ok () ∨ openGeoid grid p d = .error .valueError := by
  unfold openGeoid
  rcases readText p d with e | c
  · exact .inr rfl
  · by_cases hc : grid c = true
    · exact .inl (by simp [hc])
    · exact .inr (by simp [hc])

theorem importCrs_spec (grid : List Char → Bool) (i : Install) (d : Disk) :
    (GridsInstalled grid i d → importCrs grid i d = .ok ()) ∧ (¬ GridsInstalled grid i d → importCrs grid i d = .error .valueError) := by
  have e : GridsInstalled grid i d ↔ ∀ n ∈ geoidNames, ∃ c, d (i.geoids ++ [n]) = some (.text c) ∧ grid c = true := by
    unfold GridsInstalled geoidNames Install.geoids
    simp only [List.append_assoc, List.cons_append, List.nil_append]
  rw [e]
  unfold importCrs
  generalize geoidNames = l
  induction l with
  | nil => exact ⟨fun _ => rfl, fun h => absurd (fun _ h => by cases h) h⟩
  | cons n l ih =>
    rw [show ∀ f : List Char → Except PyErr Unit, (n :: l).forM f = (f n >>= fun _ => l.forM f) from fun _ => rfl]
    rcases openGeoid_or (grid := grid) (p := i.geoids ++ [n]) (d := d) with h | h
    · rw [h]
      constructor
      · intro hall; exact ih.1 fun m hm => hall m (by simp [hm])
      · intro hall
        refine ih.2 fun hl => hall fun m hm => ?_
        rcases List.mem_cons.mp hm with rfl | hm
        · exact openGeoid_ok.mp h
        · exact hl m hm
    · rw [h]
      constructor
      · intro hall
        have := openGeoid_ok.mpr (hall n (by simp))
        rw [h] at this; cases this
      · intro _; rfl

/-- **C111** With the three grids installed, every invocation does what `geecMain` does (C83). -/
theorem C111_partial {grid : List Char → Bool} {i : Install} {d : Disk} (h : GridsInstalled grid i d) (opts : List AppOption) (sub : Option Sub2) :
    geecProcess grid i opts sub d = geecMain i opts sub d := by
  unfold geecProcess
  rw [(importCrs_spec grid i d).1 h]

/-- **C111**, each of the grids is needed by every command: without one of them (or with a file that is no grid) every invocation, `--version` and `config` included, raises
`ValueError`, and changes nothing on the disk. -/
theorem C111_needed {grid : List Char → Bool} {i : Install} {d : Disk} (h : ¬ GridsInstalled grid i d) (opts : List AppOption) (sub : Option Sub2) :
    geecProcess grid i opts sub d = (.raised .valueError, d) := by
  unfold geecProcess
  rw [(importCrs_spec grid i d).2 h]

/-- **C111**, as shipped: /repo/geec/data/geoids holds `egm84-15.pgm` only (the other two have to be fetched, see its readme): until this is done every
invocation raises. -/
theorem C111_shipped (grid : List Char → Bool) (i : Install) (d : Disk) (h : ∀ n, d (i.base ++ ["geec".toList, "data".toList, "geoids".toList, n]) ≠ none → n ∈ ["egm2008-2_5.pgm.aux.xml".toList, "egm2008-2_5.wld".toList,
      "egm84-15.pgm".toList, "egm84-15.pgm.aux.xml".toList, "egm84-15.wld".toList, "egm96-5.pgm.aux.xml".toList, "egm96-5.wld".toList, "readme".toList])
    (opts : List AppOption) (sub : Option Sub2) : geecProcess grid i opts sub d = (.raised .valueError, d) := by
  refine C111_needed (fun hall => ?_) opts sub
  obtain ⟨c, hc, -⟩ := hall "egm96-5.pgm".toList (by decide +kernel)
  exact absurd (h _ (by rw [hc]; simp)) (by decide +kernel)

/-- the version of the program, with the EGM84 grid only -/
def egm84Disk : Disk := fun p =>
  if p = ["a".toList, "geec".toList, "data".toList, "geoids".toList, "egm84-15.pgm".toList] then some (.text "P5 1 1 65535".toList)
  else if p.isPrefixOf ["a".toList, "geec".toList, "data".toList, "geoids".toList] then some .dir else none

def aInstall : Install := ⟨["a".toList], "geec.log".toList, [], ["a".toList, "geec".toList, "cfg".toList], ["a".toList], fun _ => false⟩

theorem egm84_only (n : List Char) (h : egm84Disk (aInstall.base ++ ["geec".toList, "data".toList, "geoids".toList, n]) ≠ none) : n = "egm84-15.pgm".toList := by
  unfold egm84Disk at h
  by_cases h1 : aInstall.base ++ ["geec".toList, "data".toList, "geoids".toList, n] = ["a".toList, "geec".toList, "data".toList, "geoids".toList, "egm84-15.pgm".toList]
  · simpa [aInstall] using h1
  · rw [if_neg h1, if_neg] at h
    · exact absurd rfl h
    · intro hp
      have := (List.isPrefixOf_iff_prefix.mp hp).length_le
      simp [aInstall] at this

/-- **C111 refuted**: `geec --version` needs the geoid files. -/
theorem C111_false : ¬ ∀ (grid : List Char → Bool) (i : Install) (d : Disk), (geecProcess grid i [.version] none d).1 = .exit := by
  intro h
  have := h (fun _ => true) aInstall egm84Disk
  rw [C111_shipped _ _ _ (fun n hn => by rw [egm84_only n hn]; decide +kernel)] at this
  cases this

/-- C111_partial: an installation with three grids -/
example : ∃ d : Disk, GridsInstalled (fun c => c.take 2 == "P5".toList) aInstall d ∧ (geecProcess (fun c => c.take 2 == "P5".toList) aInstall [.version] none d).1 = .exit := by
  have hi : GridsInstalled (fun c => c.take 2 == "P5".toList) aInstall (fun p => if p.dropLast = ["a".toList, "geec".toList, "data".toList, "geoids".toList] then some (.text "P5 1 1 65535".toList) else some .dir) := by
    intro n _
    exact ⟨_, if_pos rfl, by decide +kernel⟩
  exact ⟨_, hi, by rw [C111_partial hi]; rfl⟩

/-! ### what the grids are used for -/

variable {S : Type} [Arith S]

/-- other geoid heights -/
def Geodesy.withGeoid (g : Geodesy S) (h : VDatum → S → S → S) : Geodesy S := { g with geoid := h }

theorem toEllipsoidHeight_unused (g : Geodesy S) (h : VDatum → S → S → S) {d : Dataset S} (hd : d.crs.name = .ECEF ∨ d.crs.name = .CART ∨ d.crs.vdatum = .ELLPS) :
    Dataset.toEllipsoidHeight (g.withGeoid h) d = Dataset.toEllipsoidHeight g d := by
  have hl : ∀ l, latLonErrs (g.withGeoid h) l = latLonErrs g l := by
    intro l
    induction l with
    | nil => rfl
    | cons p l ih => unfold latLonErrs; rw [ih]; rfl
  have he : d.crs.vdatum = .ELLPS → ellipsoidHeight (g.withGeoid h) d.coords d.crs = ellipsoidHeight g d.coords d.crs := by
    intro hv
    unfold ellipsoidHeight
    rw [hl, hv]
    rfl
  unfold Dataset.toEllipsoidHeight
  rcases hn : d.crs.name with _ | _ | _ | _
  · rfl
  · have hv : d.crs.vdatum = .ELLPS := by rw [hn] at hd; simpa using hd
    simp only [Dataset.apply, he hv]
  · have hv : d.crs.vdatum = .ELLPS := by rw [hn] at hd; simpa using hd
    simp only [Dataset.apply, he hv]
  · rfl

/-- **C111**, the grids are not used: if the heights of all bodies refer to the ellipsoid (or the bodies are in Cartesian or geocentric coordinates), the table of a run is
the same whatever is in the grids; the vertical datum of the observation points does not matter. -/
theorem C111_unused (g : Geodesy S) (h : VDatum → S → S → S) (o : Outside S) (lib : HullLib S) (cfg : View S) (gr : Bool)
    (hm : ∀ ms, getMasses g o cfg = .ok ms → ∀ m ∈ ms, m.dataset.crs.name = .ECEF ∨ m.dataset.crs.name = .CART ∨ m.dataset.crs.vdatum = .ELLPS) :
    runTable (g.withGeoid h) o lib cfg gr = runTable g o lib cfg gr := by
  have h1 : getMasses (g.withGeoid h) o cfg = getMasses g o cfg := rfl
  have h2 : getObserver (g.withGeoid h) o cfg = getObserver g o cfg := rfl
  have h3 : Dataset.toEcef (g.withGeoid h) = Dataset.toEcef g := rfl
  have h4 : Dataset.toWgs84 (g.withGeoid h) = Dataset.toWgs84 g := rfl
  unfold runTable
  rw [h1, h2, h3, h4]
  rcases hs : configShow cfg with e | u
  · rfl
  rcases hms : getMasses g o cfg with e | ms
  · rfl
  rcases hms1 : massesMap (fun d => (.ok (), d.toLon180)) ms with e | ms1
  · simp only [Bind.bind, Except.bind, hms1]
  have h5 : massesMap (Dataset.toEllipsoidHeight (g.withGeoid h)) ms1 = massesMap (Dataset.toEllipsoidHeight g) ms1 := by
    have hmem : ∀ m ∈ ms1, m.dataset.crs.name = .ECEF ∨ m.dataset.crs.name = .CART ∨ m.dataset.crs.vdatum = .ELLPS := by
      intro m1 hm1
      obtain ⟨n, hn⟩ := List.getElem?_of_mem hm1
      obtain ⟨m, hm0, he⟩ := forall₂_get (mapM_ok.mp hms1).flip hn
      have := hm ms hms m (List.mem_of_getElem? hm0)
      have he : ({ m with dataset := m.dataset.toLon180 } : Mass S) = m1 := Except.ok.inj he
      have hc : m.dataset.toLon180.crs = m.dataset.crs := by
        unfold Dataset.toLon180
        rcases m.dataset.crs.name with _ | _ | _ | _ <;> rfl
      rw [← he]
      dsimp only
      rw [hc]
      exact this
    unfold massesMap
    clear hms1
    induction ms1 with
    | nil => rfl
    | cons m l ih =>
      rw [List.mapM_cons, List.mapM_cons, toEllipsoidHeight_unused g h (hmem m (by simp)), ih fun m' hm' => hmem m' (by simp [hm'])]
  simp only [Bind.bind, Except.bind, hms1, h5]

section
attribute [local instance] toyArith
/-- C111_unused: a geographic body with ellipsoidal heights, and an observation point above the geoid -/
example (h : VDatum → Rat → Rat → Rat) : runTable (Toy.geo.withGeoid h) Toy.outside Toy.hullLib (Toy.config "ellps" "ellps" "egm96") true
    = runTable Toy.geo Toy.outside Toy.hullLib (Toy.config "ellps" "ellps" "egm96") true := by
  refine C111_unused _ _ _ _ _ _ fun ms hms m hm => ?_
  have h1 : (match getMasses Toy.geo Toy.outside (Toy.config "ellps" "ellps" "egm96") with
    | .ok ms => ms.all fun m => decide (m.dataset.crs.name = .ELLPS ∧ m.dataset.crs.vdatum = .ELLPS)
    | .error _ => false) = true := by decide +kernel
  rw [hms] at h1
  exact .inr (.inr (of_decide_eq_true (List.all_eq_true.mp h1 m hm)).2)

end

end Geec
