import Verif.Props.Defined
import Verif.Props.EndToEnd
/-
C106 for whole runs: the table of `geec run` does not depend on what the arithmetic makes of undefined operations.
-/
namespace Geec
open Arith

section
variable {S : Type} [Arith S] {ι : ℝ → S}

/-- a station, entry by entry -/
def Station.map {S S' : Type} (f : S → S') (s : Station S) : Station S' := ⟨s.coord.map f, s.G.map f, s.T.map f⟩

theorem Extends.accumulate (E : Extends ι) (as : List (V3 ℝ × M3 ℝ)) : ∀ s : Station ℝ,
    Geec.accumulate (s.map ι) (as.map (answerMap ι)) = (Geec.accumulate s as).map ι := by
  induction as with
  | nil => intro s; rfl
  | cons a as ih =>
    obtain ⟨G, T⟩ := a
    intro s
    have e := ih { s with G := s.G.add G, T := s.T.add T }
    show Geec.accumulate ⟨s.coord.map ι, (s.G.map ι).add (G.map ι), (s.T.map ι).add (T.map ι)⟩ (as.map (answerMap ι)) = _
    rw [E.vadd, E.madd]
    exact e

theorem Extends.stationNew (E : Extends ι) (s : V3 ℝ) : Station.new (s.map ι) = (Station.new s).map ι := by
  simp only [Station.new, Station.map]
  rw [E.vzeros, E.mzeros]

/-- a station away from the corners of a body and, for a run without gradient, from the exceptional places -/
structure StationClear (h : Hull ℝ) (gr : Bool) (s : V3 ℝ) : Prop where
  corners : ∀ t ∈ h.simplices, ∀ i, Corner t i → h.pt i ≠ s
  tame : gr = false → h.Tame s

/-- **C106**, runs: let the bodies of a run, in any arithmetic that agrees with the real numbers where the operations are defined,
be images of real ones.  A line of the table whose station is the image of a real one, away from the exceptional places, consists
of the images of the real numbers of the line. -/
theorem C106_run (E : Extends ι) (g : Geodesy S) (o : Outside S) (lib : HullLib S) (cfg : View S) (gr : Bool) (t : Table S) (r : RunData S)
    (h : runTable g o lib cfg gr = .ok t) (hr : r.Of g o lib cfg) {hs : List (Hull ℝ)}
    (hh : List.Forall₂ (fun (m : Mass S) (h : Hull ℝ) => lib.convexHull m.dataset.coords.rows = .ok (h.map ι) ∧ h.IsHull) r.masses hs)
    {ρ Gc : ℝ} (hd : ∀ m ∈ r.configured, m.density = ι ρ ∧ m.gravityConstant = ι Gc) (i : Nat) (s : V3 ℝ)
    (hp : r.stations.coords.rows[i]? = some (s.map ι)) (hc : ∀ h ∈ hs, StationClear h gr s) :
    ∃ as : List (V3 ℝ × M3 ℝ), List.Forall₂ (fun (h : Hull ℝ) a => ∃ p, mkPoly h (fun _ => true) = .ok p ∧ (Call.mk s ρ Gc gr).onNew p = .ok a) hs as ∧
      t.rows[i]? = some ((lineOf (accumulate (Station.new s) as)).map ι) := by
  obtain ⟨first, rest, hfirst, hrows⟩ := C37_first_density g o lib cfg gr t r h hr
  obtain ⟨bs, hbs, hrow⟩ := hrows i _ hp
  have hfd : first.density = ι ρ ∧ first.gravityConstant = ι Gc := by
    have hm := hr.masses
    rw [hfirst] at hm
    generalize hc : r.configured = conf at hm hd
    cases hm with
    | cons h1 _ => have := hd _ List.mem_cons_self; exact ⟨h1.1.trans this.1, h1.2.1.trans this.2⟩
  rw [hfd.1, hfd.2] at hbs
  have key : ∀ (ms : List (Mass S)) (hs : List (Hull ℝ)) (ps : List (Poly S)) (bs : List (V3 S × M3 S)),
      List.Forall₂ (fun (m : Mass S) (h : Hull ℝ) => lib.convexHull m.dataset.coords.rows = .ok (h.map ι) ∧ h.IsHull) ms hs →
      List.Forall₂ (fun m p => polyhedronOf lib m.dataset.coords.rows = .ok p) ms ps → (∀ h ∈ hs, StationClear h gr s) →
      ps.map (Call.mk (s.map ι) (ι ρ) (ι Gc) gr).onNew = bs.map .ok →
      ∃ as : List (V3 ℝ × M3 ℝ), List.Forall₂ (fun (h : Hull ℝ) a => ∃ p, mkPoly h (fun _ => true) = .ok p ∧ (Call.mk s ρ Gc gr).onNew p = .ok a) hs as ∧
        bs = as.map (answerMap ι) := by
    intro ms hs ps bs h1
    induction h1 generalizing ps bs with
    | nil =>
      intro h2 _ h3
      cases h2
      cases bs with
      | nil => exact ⟨[], .nil, rfl⟩
      | cons b bs => simp at h3
    | @cons m hl ms hs hm h1 ih =>
      intro h2 hcl h3
      cases h2 with
      | @cons _ q _ ps hq h2 =>
      cases bs with
      | nil => simp at h3
      | cons b bs =>
      simp only [List.map_cons, List.cons.injEq] at h3
      obtain ⟨as, has, hbs⟩ := ih ps bs h2 (fun h hh => hcl h (List.mem_cons_of_mem _ hh)) h3.2
      obtain ⟨p, hp⟩ := hull_mkPoly_ok hm.2 (fun _ => true)
      have e := C106_constructs E hm.2 hp (lib.inHull m.dataset.coords.rows)
      simp only [polyhedronOf, hm.1] at hq
      have hq : mkPoly (hl.map ι) (lib.inHull m.dataset.coords.rows) = .ok q := hq
      rw [e] at hq
      cases hq
      have hcl := hcl hl List.mem_cons_self
      have k := C106_partial E hm.2 hp ⟨s, ρ, Gc, gr⟩ hcl.corners hcl.tame
      have h3 := h3.1
      rcases ha : (Call.mk s ρ Gc gr).onNew p with x | a <;> rw [ha] at k
      · have k : (Call.mk (s.map ι) (ι ρ) (ι Gc) gr).onNew (p.map ι) = .error x := k
        rw [k] at h3
        cases h3
      · have k : (Call.mk (s.map ι) (ι ρ) (ι Gc) gr).onNew (p.map ι) = .ok (answerMap ι a) := k
        rw [k] at h3
        cases h3
        exact ⟨a :: as, .cons ⟨p, hp, ha⟩ has, by rw [hbs]; rfl⟩
  obtain ⟨as, has, rfl⟩ := key _ _ _ _ hh hr.polys hc hbs
  refine ⟨as, has, ?_⟩
  rw [hrow, E.stationNew, E.accumulate]
  rfl

theorem accumulate_sum {hs : List (Hull ℝ)} {as : List (V3 ℝ × M3 ℝ)} {s : V3 ℝ} {k : ℝ}
    (h : List.Forall₂ (fun (h : Hull ℝ) (a : V3 ℝ × M3 ℝ) => a.1 = V3.smul k (attraction h.body s)) hs as) : ∀ st : Station ℝ,
    (accumulate st as).coord = st.coord ∧ (accumulate st as).G.x = st.G.x + k * (hs.map fun h => (attraction h.body s).x).sum ∧
      (accumulate st as).G.y = st.G.y + k * (hs.map fun h => (attraction h.body s).y).sum ∧
      (accumulate st as).G.z = st.G.z + k * (hs.map fun h => (attraction h.body s).z).sum := by
  induction h with
  | nil => intro st; simp [accumulate]
  | @cons h a hs as h1 _ ih =>
    intro st
    obtain ⟨G, T⟩ := a
    simp only at h1
    subst h1
    rw [accumulate]
    obtain ⟨e0, e1, e2, e3⟩ := ih { st with G := st.G.add (V3.smul k (attraction h.body s)), T := st.T.add T }
    refine ⟨e0, ?_, ?_, ?_⟩
    · rw [e1]; simp only [List.map_cons, List.sum_cons]
      show st.G.x + k * _ + _ = _
      ring
    · rw [e2]; simp only [List.map_cons, List.sum_cons]
      show st.G.y + k * _ + _ = _
      ring
    · rw [e3]; simp only [List.map_cons, List.sum_cons]
      show st.G.z + k * _ + _ = _
      ring

/-- **C106**, runs and Newton's law: such a line holds the coordinates of the station and the sum of the attractions of the bodies. -/
theorem C106_run_newton (E : Extends ι) (g : Geodesy S) (o : Outside S) (lib : HullLib S) (cfg : View S) (gr : Bool) (t : Table S) (r : RunData S)
    (h : runTable g o lib cfg gr = .ok t) (hr : r.Of g o lib cfg) {hs : List (Hull ℝ)}
    (hh : List.Forall₂ (fun (m : Mass S) (h : Hull ℝ) => lib.convexHull m.dataset.coords.rows = .ok (h.map ι) ∧ h.IsHull) r.masses hs)
    {ρ Gc : ℝ} (hd : ∀ m ∈ r.configured, m.density = ι ρ ∧ m.gravityConstant = ι Gc) (i : Nat) (s : V3 ℝ)
    (hp : r.stations.coords.rows[i]? = some (s.map ι)) (hc : ∀ h ∈ hs, StationClear h gr s) (hreg : ∀ h ∈ hs, h.Regular s) :
    ∃ row, t.rows[i]? = some row ∧ row.length = 12 ∧ row.take 6 = [ι s.x, ι s.y, ι s.z,
      ι (100000 * Gc * ρ * (hs.map fun h => (attraction h.body s).x).sum),
      ι (100000 * Gc * ρ * (hs.map fun h => (attraction h.body s).y).sum),
      ι (100000 * Gc * ρ * (hs.map fun h => (attraction h.body s).z).sum)] ∧ ∀ x ∈ row, ∃ y, x = ι y := by
  obtain ⟨as, has, hrow⟩ := C106_run E g o lib cfg gr t r h hr hh hd i s hp hc
  refine ⟨_, hrow, by simp [lineOf], ?_, fun x hx => ?_⟩
  · have hall : ∀ h ∈ hs, h.IsHull := by
      intro h hh'
      obtain ⟨j, hj⟩ := List.getElem?_of_mem hh'
      obtain ⟨m, -, hm⟩ := forall₂_get hh.flip hj
      exact hm.2
    have hsum : List.Forall₂ (fun (h : Hull ℝ) (a : V3 ℝ × M3 ℝ) => a.1 = V3.smul (100000 * Gc * ρ) (attraction h.body s)) hs as := by
      clear hrow hh hc
      induction has with
      | nil => exact .nil
      | @cons h a hs as h1 _ ih =>
        obtain ⟨p, hp, ha⟩ := h1
        refine .cons ?_ (ih (fun h hh => hreg h (List.mem_cons_of_mem _ hh)) (fun h hh => hall h (List.mem_cons_of_mem _ hh)))
        obtain ⟨G, T⟩ := a
        exact (C16_newton (hall h List.mem_cons_self) hp (hreg h List.mem_cons_self) ha).1
    obtain ⟨e0, e1, e2, e3⟩ := accumulate_sum hsum (Station.new s)
    simp only [lineOf, List.map_cons, List.take_succ_cons, List.take_zero, e0, e1, e2, e3]
    have z : ∀ x : ℝ, (Arith.zero : ℝ) + x = x := zero_add
    simp only [Station.new, V3.zeros, z]
  · obtain ⟨y, -, rfl⟩ := List.mem_map.mp hx
    exact ⟨y, rfl⟩

/-- **C106**, runs without gradient return: a run whose stations are clear of the bodies gives a table, in every such arithmetic. -/
theorem C106_run_returns (E : Extends ι) (g : Geodesy S) (o : Outside S) (lib : HullLib S) (cfg : View S) (r : RunData S)
    (hr : r.Of g o lib cfg) (hshow : configShow cfg = .ok ()) (hne : r.configured ≠ []) (hne' : r.stations.coords.rows ≠ []) {hs : List (Hull ℝ)}
    (hh : List.Forall₂ (fun (m : Mass S) (h : Hull ℝ) => lib.convexHull m.dataset.coords.rows = .ok (h.map ι) ∧ h.IsHull) r.masses hs)
    {ρ Gc : ℝ} (hd : ∀ m ∈ r.configured, m.density = ι ρ ∧ m.gravityConstant = ι Gc)
    (hc : ∀ q ∈ r.stations.coords.rows, ∃ s : V3 ℝ, q = s.map ι ∧ ∀ h ∈ hs, StationClear h false s) :
    ∃ t, runTable g o lib cfg false = .ok t := by
  refine run_returns_polys hr hshow hne hne' fun first hf q hq x hx => ?_
  have hfd : first.density = ι ρ ∧ first.gravityConstant = ι Gc := by
    have hm := hr.masses
    cases hms : r.masses with
    | nil => rw [hms] at hf; cases hf
    | cons m ms =>
      rw [hms] at hm hf
      cases hf
      generalize hc : r.configured = conf at hm hd
      cases hm with
      | cons h1 _ => have := hd _ List.mem_cons_self; exact ⟨h1.1.trans this.1, h1.2.1.trans this.2⟩
  rw [hfd.1, hfd.2]
  obtain ⟨s, rfl, hcl⟩ := hc x hx
  obtain ⟨j, hj⟩ := List.getElem?_of_mem hq
  obtain ⟨m, hm, hpol⟩ := forall₂_get hr.polys.flip hj
  obtain ⟨h, hhj, hH, hI⟩ := forall₂_get hh hm
  have hcl := hcl h (List.mem_of_getElem? hhj)
  obtain ⟨p, hp⟩ := hull_mkPoly_ok hI (fun _ => true)
  have e := C106_constructs E hI hp (lib.inHull m.dataset.coords.rows)
  simp only [polyhedronOf, hH] at hpol
  have hpol : mkPoly (h.map ι) (lib.inHull m.dataset.coords.rows) = .ok q := hpol
  rw [e] at hpol
  cases hpol
  have k := C106_partial E hI hp ⟨s, ρ, Gc, false⟩ hcl.corners hcl.tame
  obtain ⟨G, T, hG⟩ := C22_total hI hp hcl.corners ρ Gc
  rw [hG] at k
  exact ⟨_, k⟩

end

/-! ### a run with NaN -/

def nanPointVal (p : V3 ℝ) : Val (Option ℝ) := .list [.num false (some p.x), .num false (some p.y), .num false (some p.z)]

def nanCrsVal : Val (Option ℝ) := .dict [("ref", .str "cart"), ("name", .null), ("semimajor_axis", .null),
  ("semiminor_axis", .null), ("longitude_origin", .null), ("latitude_origin", .null), ("altitude_origin", .null), ("vdatum", .str "ellps")]

/-- a tetrahedron of density 2 seen from one station -/
def nanTetraConfig (s : V3 ℝ) : View (Option ℝ) := View.root [.dict [
  ("masses", .list [.dict [("density", .num false (some 2)), ("gravity_constant", .num false (some 1)),
    ("points", .list [nanPointVal ⟨0, 0, 0⟩, nanPointVal ⟨1, 0, 0⟩, nanPointVal ⟨0, 1, 0⟩, nanPointVal ⟨0, 0, 1⟩]), ("file_path", .null), ("crs", nanCrsVal)]]),
  ("observers", .dict [("points", .list [nanPointVal s]),
    ("file_path", .null), ("grid", .dict [("xstart_xend_xstep", .null), ("ystart_yend_ystep", .null), ("zstart_zend_zstep", .null)]),
    ("crs", nanCrsVal)])]]

def nanTetraLib : HullLib (Option ℝ) := ⟨fun pts => .ok ⟨pts, tetra.vertices, tetra.simplices, tetra.neighbors⟩, fun _ _ => true⟩

attribute [local instance] nanArith in
theorem nanTetra_run (g : Geodesy (Option ℝ)) (o : Outside (Option ℝ)) (s : V3 ℝ) :
    ∃ r : RunData (Option ℝ), r.Of g o nanTetraLib (nanTetraConfig s) ∧ configShow (nanTetraConfig s) = .ok () ∧ r.configured ≠ [] ∧
      r.stations.coords.rows = [s.map some] ∧ (∀ m ∈ r.configured, m.density = some 2 ∧ m.gravityConstant = some 1) ∧
      List.Forall₂ (fun (m : Mass (Option ℝ)) (h : Hull ℝ) => nanTetraLib.convexHull m.dataset.coords.rows = .ok (h.map some) ∧ h.IsHull) r.masses [tetra] := by
  have hr : readRef (⟨[.ok nanCrsVal]⟩ : View (Option ℝ)) = .ok .CART := by
    have h2 : ((⟨[.ok nanCrsVal]⟩ : View (Option ℝ)).at "ref").getOptStr "ellps" = .ok "cart" := rfl
    simp only [readRef, h2, bind, Except.bind, findMember_cart]; rfl
  have hcrs : getCrs g (⟨[.ok nanCrsVal]⟩ : View (Option ℝ)) = .ok ⟨.CART, none, none, .ELLPS⟩ := by
    simp only [getCrs, hr, bind, Except.bind]
    simp [mkCrs]
  let pts : List (V3 (Option ℝ)) := tetra.points.map (V3.map some)
  let m : Mass (Option ℝ) := ⟨some 2, some 1, ⟨⟨pts, false⟩, ⟨.CART, none, none, .ELLPS⟩⟩⟩
  let d : Dataset (Option ℝ) := ⟨⟨[s.map some], false⟩, ⟨.CART, none, none, .ELLPS⟩⟩
  have hpts : pts = [⟨some 0, some 0, some 0⟩, ⟨some 1, some 0, some 0⟩, ⟨some 0, some 1, some 0⟩, ⟨some 0, some 0, some 1⟩] := rfl
  have hm : getMasses g o (nanTetraConfig s) = .ok [m] := by
    have h2 : ((nanTetraConfig s).at "masses").iter = .ok [⟨[.ok (.dict [("density", .num false (some 2)), ("gravity_constant", .num false (some 1)),
      ("points", .list [nanPointVal ⟨0, 0, 0⟩, nanPointVal ⟨1, 0, 0⟩, nanPointVal ⟨0, 1, 0⟩, nanPointVal ⟨0, 0, 1⟩]), ("file_path", .null), ("crs", nanCrsVal)])]⟩] := rfl
    simp only [getMasses, h2, bind, Except.bind, List.mapM_cons, List.mapM_nil]
    rw [show getMass g o _ = .ok m from ?_]
    · rfl
    · have h4 : readCoords o (⟨[.ok (.dict [("density", .num false (some 2)), ("gravity_constant", .num false (some 1)),
        ("points", .list [nanPointVal ⟨0, 0, 0⟩, nanPointVal ⟨1, 0, 0⟩, nanPointVal ⟨0, 1, 0⟩, nanPointVal ⟨0, 0, 1⟩]), ("file_path", .null), ("crs", nanCrsVal)])]⟩ :
          View (Option ℝ)) = .ok ⟨pts, false⟩ := rfl
      have h5 : (⟨[.ok (.dict [("density", .num false (some 2)), ("gravity_constant", .num false (some 1)),
        ("points", .list [nanPointVal ⟨0, 0, 0⟩, nanPointVal ⟨1, 0, 0⟩, nanPointVal ⟨0, 1, 0⟩, nanPointVal ⟨0, 0, 1⟩]), ("file_path", .null), ("crs", nanCrsVal)])]⟩ :
          View (Option ℝ)).at "crs" = ⟨[.ok nanCrsVal]⟩ := rfl
      simp only [getMass, getDataset, h4, h5, hcrs, bind, Except.bind]
      rfl
  have ho : getObserver g o (nanTetraConfig s) = .ok (mkObserver d) := by
    have h4 : readCoords o ((nanTetraConfig s).at "observers") = .ok ⟨[s.map some], false⟩ := rfl
    have h5 : ((nanTetraConfig s).at "observers").at "crs" = ⟨[.ok nanCrsVal]⟩ := rfl
    simp only [getObserver, getDataset, h4, h5, hcrs, bind, Except.bind]
    rfl
  obtain ⟨p, hp⟩ := hull_mkPoly_ok tetra_isHull (fun _ => true)
  refine ⟨⟨[m], [m], [p.map some], mkObserver d, d⟩, ⟨hm, .cons ⟨rfl, rfl, rfl⟩ .nil, .cons ?_ .nil, ho, rfl⟩, rfl, by simp, rfl, ?_, .cons ⟨rfl, tetra_isHull⟩ .nil⟩
  · exact @C106_constructs _ nanArith _ _ _ _ nan_extends tetra_isHull hp _
  · intro x hx
    obtain rfl := List.mem_singleton.mp hx
    exact ⟨rfl, rfl⟩

theorem tetra_stationClear (gr : Bool) : StationClear tetra gr ⟨2, 3, 5⟩ := by
  refine ⟨tetra_out_corner, fun _ => tetra_aside.tame fun t ht i hi => ?_⟩
  have : i < 4 := tetra_isHull.cornerIndex t ht i hi
  have e1 : repsilon < 1 := by unfold repsilon; norm_num
  refine e1.trans ?_
  unfold vlen
  apply Real.lt_sqrt_of_sq_lt
  interval_cases i
  · rw [tetra_pt0]; simp [rdot]; norm_num
  · rw [tetra_pt1]; simp [rdot]; norm_num
  · rw [tetra_pt2]; simp [rdot]; norm_num
  · rw [tetra_pt3]; simp [rdot]; norm_num

attribute [local instance] nanArith in
/-- C106: the run of a configuration with a tetrahedron, in the arithmetic with NaN: the table is made of numbers, and they are those of Newton's law -/
example (g : Geodesy (Option ℝ)) (o : Outside (Option ℝ)) : ∃ t, runTable g o nanTetraLib (nanTetraConfig ⟨2, 3, 5⟩) false = .ok t ∧
    ∃ row, t.rows[0]? = some row ∧ row[5]? = some (some (100000 * 1 * 2 * (attraction tetra.body ⟨2, 3, 5⟩).z)) ∧ ∀ x ∈ row, x ≠ none := by
  obtain ⟨r, hr, hshow, hne, hrows, hd, hh⟩ := nanTetra_run g o ⟨2, 3, 5⟩
  have hcl : ∀ h ∈ [tetra], StationClear h false ⟨2, 3, 5⟩ := fun h hh => by rw [List.mem_singleton.mp hh]; exact tetra_stationClear _
  obtain ⟨t, ht⟩ := C106_run_returns nan_extends g o _ _ r hr hshow hne (by rw [hrows]; simp) hh hd (by
    intro q hq
    rw [hrows] at hq
    exact ⟨_, List.mem_singleton.mp hq, hcl⟩)
  obtain ⟨row, h1, h2, h3, h4⟩ := C106_run_newton nan_extends g o _ _ false t r ht hr hh hd 0 ⟨2, 3, 5⟩ (by rw [hrows]; rfl) hcl
    (fun h hh => by rw [List.mem_singleton.mp hh]; exact tetra_regular_out)
  refine ⟨t, ht, row, h1, ?_, fun x hx => ?_⟩
  · have := congrArg (·[5]?) h3
    simpa using this
  · obtain ⟨y, rfl⟩ := h4 x hx
    simp

attribute [local instance] nanArith in
/-- **C106**, runs, is false without the proviso: the same configuration with the station two hundredths of a micron from a corner; the
run ends without an error, and the attraction in the table is not a number. -/
theorem C106_run_not_a_number (g : Geodesy (Option ℝ)) (o : Outside (Option ℝ)) : ∃ t, runTable g o nanTetraLib (nanTetraConfig untamePlace) false = .ok t ∧
    ∃ row, t.rows[0]? = some row ∧ row.take 6 = [some untamePlace.x, some untamePlace.y, some untamePlace.z, none, none, none] := by
  obtain ⟨r, hr, hshow, hne, hrows, hd, hh⟩ := nanTetra_run g o untamePlace
  obtain ⟨p, hp⟩ := hull_mkPoly_ok tetra_isHull (fun _ => true)
  obtain ⟨T, hT⟩ := C106_not_a_number hp 2 1
  have hpolys : r.polys = [p.map some] := by
    have h1 := hr.polys
    generalize r.polys = ps at h1
    generalize r.masses = ms at h1 hh
    cases hh with
    | cons hm hh =>
      cases hh
      cases h1 with
      | cons hq h1 =>
        cases h1
        simp only [polyhedronOf, hm.1] at hq
        have hq : mkPoly (tetra.map some) _ = .ok _ := hq
        rw [@C106_constructs _ nanArith _ _ _ _ nan_extends tetra_isHull hp] at hq
        cases hq
        rfl
  have hfd : ∀ first, r.masses.head? = some first → first.density = some 2 ∧ first.gravityConstant = some 1 := by
    intro first hf
    have hm := hr.masses
    cases hms : r.masses with
    | nil => rw [hms] at hf; cases hf
    | cons m ms =>
      rw [hms] at hm hf
      cases hf
      generalize hc : r.configured = conf at hm hd
      cases hm with
      | cons h1 _ => have := hd _ List.mem_cons_self; exact ⟨h1.1.trans this.1, h1.2.1.trans this.2⟩
  obtain ⟨t, ht⟩ := run_returns_polys hr hshow hne (by rw [hrows]; simp) (gr := false) (by
    intro first hf q hq x hx
    rw [hpolys] at hq
    rw [hrows] at hx
    obtain rfl := List.mem_singleton.mp hq
    obtain rfl := List.mem_singleton.mp hx
    rw [(hfd first hf).1, (hfd first hf).2]
    exact ⟨_, hT⟩)
  refine ⟨t, ht, ?_⟩
  obtain ⟨first, rest, hfirst, hline⟩ := C37_first_density g o _ _ false t r ht hr
  obtain ⟨as, has, hrow⟩ := hline 0 (untamePlace.map some) (by rw [hrows]; rfl)
  have hf := hfd first (by rw [hfirst]; rfl)
  rw [hpolys, hf.1, hf.2] at has
  refine ⟨_, hrow, ?_⟩
  cases as with
  | nil => simp at has
  | cons a as =>
    simp only [List.map_cons, List.map_nil, List.cons.injEq] at has
    rw [hT] at has
    have h2 := has.2
    cases as with
    | cons b bs => simp at h2
    | nil =>
      have h1 := has.1
      cases h1
      rfl

end Geec
