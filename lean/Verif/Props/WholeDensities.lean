import Verif.Props.WholeProgram
import Verif.Props.Exact
/-
C123: C122 for bodies of different densities: what is written, and when it is right.
-/
namespace Geec
open Arith MeasureTheory

/-- **C37**, what is written with `--gradient`: outside the bodies the columns txx … tzz are the tidal integrals of all bodies with the density and the constant of the
first one. -/
theorem C37_tidal (g : Geodesy ℝ) (o : Outside ℝ) (lib : HullLib ℝ) (hlib : lib.Honest) (cfg : View ℝ) (t : Table ℝ)
    (r : RunData ℝ) (h : runTable g o lib cfg true = .ok t) (hr : r.Of g o lib cfg) :
    ∃ first rest, r.masses = first :: rest ∧ ∀ (i : Nat) (p : V3 ℝ), r.stations.coords.rows[i]? = some p → OutsidePoint lib r.masses p →
      ∃ row, t.rows[i]? = some row ∧ row.drop 6 = [
        1000000000 * first.gravityConstant * first.density * sumOver r.masses (fun B => (tidal B p).r0.x),
        1000000000 * first.gravityConstant * first.density * sumOver r.masses (fun B => (tidal B p).r0.y),
        1000000000 * first.gravityConstant * first.density * sumOver r.masses (fun B => (tidal B p).r0.z),
        1000000000 * first.gravityConstant * first.density * sumOver r.masses (fun B => (tidal B p).r1.y),
        1000000000 * first.gravityConstant * first.density * sumOver r.masses (fun B => (tidal B p).r1.z),
        1000000000 * first.gravityConstant * first.density * sumOver r.masses (fun B => (tidal B p).r2.z)] := by
  obtain ⟨first, rest, hfirst, hrows⟩ := C37_first_density g o lib cfg true t r h hr
  refine ⟨first, rest, hfirst, fun i p hp hout => ?_⟩
  obtain ⟨as, has, hrow⟩ := hrows i p hp
  generalize first.density = ρ at has ⊢
  generalize first.gravityConstant = Gc at has ⊢
  have ans := answers_of (Q := fun H a => a.2.r0 = V3.smul (1000000000 * Gc * ρ) (tidal H.body p).r0 ∧
      a.2.r1 = V3.smul (1000000000 * Gc * ρ) (tidal H.body p).r1 ∧ a.2.r2 = V3.smul (1000000000 * Gc * ρ) (tidal H.body p).r2) hr.polys (by
    intro m hm H q a hH hq ha
    obtain ⟨G, T⟩ := a
    obtain ⟨h1, h2⟩ := hout m hm H hH
    exact C62_tidal_integrals (hlib _ _ hH).2 hq h1 h2 ha) has
  have key : ∀ d e : V3 ℝ, rdot ((accumulate (Station.new p) as).T.apply d) e =
      1000000000 * Gc * ρ * sumOver r.masses (fun B => rdot ((tidal B p).apply d) e) := by
    intro d e
    rw [accumulate_T, sum_of_answers hlib (k := 1000000000 * Gc * ρ) (v := fun a => rdot (a.2.apply d) e)
      (f := fun B => rdot ((tidal B p).apply d) e) (ans.imp ?_)]
    · simp [Station.new, M3.zeros, V3.zeros, rdot, M3.apply]
    · rintro m a ⟨H, hH, h0, h1, h2⟩
      refine ⟨H, hH, ?_⟩
      simp only [M3.apply, rdot, h0, h1, h2, smul_x, smul_y, smul_z]; ring
  have k00 := key ⟨1, 0, 0⟩ ⟨1, 0, 0⟩
  have k01 := key ⟨0, 1, 0⟩ ⟨1, 0, 0⟩
  have k02 := key ⟨0, 0, 1⟩ ⟨1, 0, 0⟩
  have k11 := key ⟨0, 1, 0⟩ ⟨0, 1, 0⟩
  have k12 := key ⟨0, 0, 1⟩ ⟨0, 1, 0⟩
  have k22 := key ⟨0, 0, 1⟩ ⟨0, 0, 1⟩
  simp only [M3.apply, rdot, mul_one, mul_zero, add_zero, zero_add] at k00 k01 k02 k11 k12 k22
  refine ⟨_, hrow, ?_⟩
  simp only [lineOf, List.drop, k00, k01, k02, k11, k12, k22]

/-- **C123** From texts to texts, bodies of any densities: the whole output is the one of bodies that all have the density and the constant of the first body of the file. -/
theorem C123_first (e : Surroundings ℝ) (hlib : e.hull.Honest) (hplain : ∀ x, PlainField (e.csv.text x)) {d : Disk} {args : List (List Char)} {v : Val ℚ} {q : Path}
    (hcall : e.Calls d args false v q) {b₁ : BodyEntry ℝ} {bs : List (BodyEntry ℝ)} {pts : List (V3 ℝ)} (hsays : SaysRun e d v (b₁ :: bs) pts)
    (hhull : ∀ b ∈ b₁ :: bs, ∃ h, e.hull.convexHull b.points = .ok h) (hclear : ∀ p ∈ pts, ClearPoint e.hull (b₁ :: bs) p) :
    ∃ d', geecProgram e args d = some (.done, d') ∧ (∀ r, r ≠ q → d' r = (setupLogger e.install d).2 r) ∧
      d' q = some (.text (outputText e.csv pts fun p => [
        100000 * b₁.constant * b₁.density * bodySum (b₁ :: bs) (fun B => (attraction B p).x),
        100000 * b₁.constant * b₁.density * bodySum (b₁ :: bs) (fun B => (attraction B p).y),
        100000 * b₁.constant * b₁.density * bodySum (b₁ :: bs) (fun B => (attraction B p).z), 0, 0, 0, 0, 0, 0])) := by
  have key : ∀ user dflt, ∃ t, runTable e.geodesy (Outside.ofDisk e.csv e.resolve e.ceil (setupLogger e.install d).2) e.hull
      (View.root (setupSources (some (v.read e.lit)) (some user) dflt)) false = .ok t ∧ toCsv e.csv t = outputText e.csv pts fun p => [
        100000 * b₁.constant * b₁.density * bodySum (b₁ :: bs) (fun B => (attraction B p).x),
        100000 * b₁.constant * b₁.density * bodySum (b₁ :: bs) (fun B => (attraction B p).y),
        100000 * b₁.constant * b₁.density * bodySum (b₁ :: bs) (fun B => (attraction B p).z), 0, 0, 0, 0, 0, 0] := by
    intro user dflt
    obtain ⟨k1, ⟨ms, k2, k3⟩, ob, k4, k5, k6, k7, k8⟩ := C122_read e hcall.disk hcall.top hsays (some user) dflt
    have hcm : ∀ m ∈ ms, m.dataset.crs.name = .CART := fun m hm => by obtain ⟨b, -, hb⟩ := member k3 hm; exact hb.2.2.2
    have hms : ms ≠ [] := by rintro rfl; cases k3
    have hpts : pts ≠ [] := by obtain ⟨w, -, h1, -⟩ := hsays.observers; exact h1.points.ne_nil
    obtain ⟨t, ht⟩ := (C69_returns e.geodesy _ e.hull hlib _ k1 ms k2 hms hcm (fun m hm => by
      obtain ⟨b, h1, h2⟩ := member k3 hm; rw [h2.2.2.1]; exact hhull b h1) ob k4 k6 (by rw [k5]; exact hpts) (by
      intro p hp m hm
      obtain ⟨b, h1, h2⟩ := member k3 hm
      rw [h2.2.2.1]; exact (hclear p (k5 ▸ hp) b h1).1)).1
    refine ⟨t, ht, ?_⟩
    obtain ⟨r, first, rest, hr, -, -, hcol, hrows⟩ := runTable_ok ht
    obtain rfl : ms = r.configured := by have := hr.configured; rw [k2] at this; exact Except.ok.inj this
    obtain rfl : ob = r.observer := by have := hr.observer; rw [k4] at this; exact Except.ok.inj this
    obtain ⟨h1, h2, -⟩ := C36_partial e.geodesy _ e.hull _ r hr hcm k6
    rw [C109_text e.geodesy _ e.csv hplain e.hull _ false t ht]
    refine header_line e.csv t _ pts (by rw [hcol, k7, k8]) (rows_eq (by rw [← hrows.length_eq, h2, k5]) fun i p hp => ?_)
    obtain ⟨m₁, rest', hm, hline⟩ := C37_newton e.geodesy _ e.hull hlib _ false t r ht hr
    obtain ⟨row, h3, h5⟩ := hline i p (by rw [h2, k5]; exact hp) (by
      rw [h1]
      intro m hm h hh
      obtain ⟨b, h1, h2⟩ := member k3 hm
      rw [h2.2.2.1] at hh; exact (hclear p (List.mem_of_getElem? hp) b h1).2 h hh)
    have h6 := C04_run_zero_columns (fun a : ℝ => add_zero a) e.geodesy _ e.hull _ t ht row (List.mem_of_getElem? h3)
    have h7 : m₁.density = b₁.density ∧ m₁.gravityConstant = b₁.constant := by
      rw [← h1, hm] at k3
      cases k3 with
      | cons h _ => exact ⟨h.1, h.2.1⟩
    rw [h3, ← List.take_append_drop 6 row, h5, h6, h1, h7.1, h7.2]
    simp only [bodySum_eq k3]
    rfl
  choose t ht1 ht2 using key
  obtain ⟨user, dflt, d', h1, h2, h3⟩ := calls_done hcall t ht1
  exact ⟨d', h1, h3, by rw [h2, ht2]⟩

/-- **C123** The same with `--gradient`, at points outside the bodies. -/
theorem C123_gradient (e : Surroundings ℝ) (hlib : e.hull.Honest) (hplain : ∀ x, PlainField (e.csv.text x)) {d : Disk} {args : List (List Char)} {v : Val ℚ} {q : Path}
    (hcall : e.Calls d args true v q) {b₁ : BodyEntry ℝ} {bs : List (BodyEntry ℝ)} {pts : List (V3 ℝ)} (hsays : SaysRun e d v (b₁ :: bs) pts)
    (hhull : ∀ b ∈ b₁ :: bs, ∃ h, e.hull.convexHull b.points = .ok h) (hclear : ∀ p ∈ pts, ClearTensor e.hull (b₁ :: bs) p) :
    ∃ d', geecProgram e args d = some (.done, d') ∧ (∀ r, r ≠ q → d' r = (setupLogger e.install d).2 r) ∧
      d' q = some (.text (outputText e.csv pts fun p => [
        100000 * b₁.constant * b₁.density * bodySum (b₁ :: bs) (fun B => (attraction B p).x),
        100000 * b₁.constant * b₁.density * bodySum (b₁ :: bs) (fun B => (attraction B p).y),
        100000 * b₁.constant * b₁.density * bodySum (b₁ :: bs) (fun B => (attraction B p).z),
        1000000000 * b₁.constant * b₁.density * bodySum (b₁ :: bs) (fun B => (tidal B p).r0.x),
        1000000000 * b₁.constant * b₁.density * bodySum (b₁ :: bs) (fun B => (tidal B p).r0.y),
        1000000000 * b₁.constant * b₁.density * bodySum (b₁ :: bs) (fun B => (tidal B p).r0.z),
        1000000000 * b₁.constant * b₁.density * bodySum (b₁ :: bs) (fun B => (tidal B p).r1.y),
        1000000000 * b₁.constant * b₁.density * bodySum (b₁ :: bs) (fun B => (tidal B p).r1.z),
        1000000000 * b₁.constant * b₁.density * bodySum (b₁ :: bs) (fun B => (tidal B p).r2.z)])) := by
  have key : ∀ user dflt, ∃ t, runTable e.geodesy (Outside.ofDisk e.csv e.resolve e.ceil (setupLogger e.install d).2) e.hull
      (View.root (setupSources (some (v.read e.lit)) (some user) dflt)) true = .ok t ∧ toCsv e.csv t = outputText e.csv pts fun p => [
        100000 * b₁.constant * b₁.density * bodySum (b₁ :: bs) (fun B => (attraction B p).x),
        100000 * b₁.constant * b₁.density * bodySum (b₁ :: bs) (fun B => (attraction B p).y),
        100000 * b₁.constant * b₁.density * bodySum (b₁ :: bs) (fun B => (attraction B p).z),
        1000000000 * b₁.constant * b₁.density * bodySum (b₁ :: bs) (fun B => (tidal B p).r0.x),
        1000000000 * b₁.constant * b₁.density * bodySum (b₁ :: bs) (fun B => (tidal B p).r0.y),
        1000000000 * b₁.constant * b₁.density * bodySum (b₁ :: bs) (fun B => (tidal B p).r0.z),
        1000000000 * b₁.constant * b₁.density * bodySum (b₁ :: bs) (fun B => (tidal B p).r1.y),
        1000000000 * b₁.constant * b₁.density * bodySum (b₁ :: bs) (fun B => (tidal B p).r1.z),
        1000000000 * b₁.constant * b₁.density * bodySum (b₁ :: bs) (fun B => (tidal B p).r2.z)] := by
    intro user dflt
    obtain ⟨k1, ⟨ms, k2, k3⟩, ob, k4, k5, k6, k7, k8⟩ := C122_read e hcall.disk hcall.top hsays (some user) dflt
    have hcm : ∀ m ∈ ms, m.dataset.crs.name = .CART := fun m hm => by obtain ⟨b, -, hb⟩ := member k3 hm; exact hb.2.2.2
    have hms : ms ≠ [] := by rintro rfl; cases k3
    have hpts : pts ≠ [] := by obtain ⟨w, -, h1, -⟩ := hsays.observers; exact h1.points.ne_nil
    obtain ⟨t, ht⟩ := (C69_returns e.geodesy _ e.hull hlib _ k1 ms k2 hms hcm (fun m hm => by
      obtain ⟨b, h1, h2⟩ := member k3 hm; rw [h2.2.2.1]; exact hhull b h1) ob k4 k6 (by rw [k5]; exact hpts) (by
      intro p hp m hm
      obtain ⟨b, h1, h2⟩ := member k3 hm
      rw [h2.2.2.1]; exact ((hclear p (k5 ▸ hp)).1 b h1).1)).2 (by
      intro p hp m hm
      obtain ⟨b, h1, h2⟩ := member k3 hm
      rw [h2.2.2.1]; exact ((hclear p (k5 ▸ hp)).2 b h1).1)
    refine ⟨t, ht, ?_⟩
    obtain ⟨r, first, rest, hr, -, -, hcol, hrows⟩ := runTable_ok ht
    obtain rfl : ms = r.configured := by have := hr.configured; rw [k2] at this; exact Except.ok.inj this
    obtain rfl : ob = r.observer := by have := hr.observer; rw [k4] at this; exact Except.ok.inj this
    obtain ⟨h1, h2, -⟩ := C36_partial e.geodesy _ e.hull _ r hr hcm k6
    rw [C109_text e.geodesy _ e.csv hplain e.hull _ true t ht]
    refine header_line e.csv t _ pts (by rw [hcol, k7, k8]) (rows_eq (by rw [← hrows.length_eq, h2, k5]) fun i p hp => ?_)
    obtain ⟨m₁, rest', hm, hline⟩ := C37_newton e.geodesy _ e.hull hlib _ true t r ht hr
    obtain ⟨row, h3, h5⟩ := hline i p (by rw [h2, k5]; exact hp) (by
      rw [h1]
      intro m hm h hh
      obtain ⟨b, h1, h2⟩ := member k3 hm
      rw [h2.2.2.1] at hh; exact ((hclear p (List.mem_of_getElem? hp)).1 b h1).2 h hh)
    obtain ⟨m₁', rest'', hm', hline'⟩ := C37_tidal e.geodesy _ e.hull hlib _ t r ht hr
    obtain ⟨row', h3', h6⟩ := hline' i p (by rw [h2, k5]; exact hp) (by
      rw [h1]
      intro m hm h hh
      obtain ⟨b, h1, h2⟩ := member k3 hm
      rw [h2.2.2.1] at hh; exact ((hclear p (List.mem_of_getElem? hp)).2 b h1).2 h hh)
    obtain rfl : row = row' := by rw [h3] at h3'; exact Option.some.inj h3'
    obtain rfl : m₁ = m₁' := by rw [hm] at hm'; exact (List.cons.inj hm').1
    have h7 : m₁.density = b₁.density ∧ m₁.gravityConstant = b₁.constant := by
      rw [← h1, hm] at k3
      cases k3 with
      | cons h _ => exact ⟨h.1, h.2.1⟩
    rw [h3, ← List.take_append_drop 6 row, h5, h6, h1, h7.1, h7.2]
    simp only [bodySum_eq k3]
    rfl
  choose t ht1 ht2 using key
  obtain ⟨user, dflt, d', h1, h2, h3⟩ := calls_done hcall t ht1
  exact ⟨d', h1, h3, by rw [h2, ht2]⟩

/-! ### When it is right -/

theorem split_at {c : Char} : ∀ {l l' r r' : List Char}, c ∉ l → c ∉ l' → l ++ c :: r = l' ++ c :: r' → l = l' ∧ r = r'
  | [], [], _, _, _, _, h => ⟨rfl, (List.cons.inj h).2⟩
  | [], a :: l', _, _, _, h2, h => absurd (List.cons.inj h).1 (by simp at h2; tauto)
  | a :: l, [], _, _, h1, _, h => absurd (List.cons.inj h).1.symm (by simp at h1; tauto)
  | a :: l, b :: l', r, r', h1, h2, h => by
    simp only [List.cons_append, List.cons.injEq] at h
    obtain ⟨h3, h4⟩ := split_at (l := l) (l' := l') (by simp at h1; tauto) (by simp at h2; tauto) h.2
    exact ⟨by rw [h.1, h3], h4⟩

/-- a line of numbers says which texts they have -/
theorem numberLine_inj (csv : CsvLib ℝ) (hplain : ∀ x, PlainField (csv.text x)) :
    ∀ (xs ys : List ℝ) (r r' : List Char), xs.length = ys.length → xs ≠ [] → numberLine csv xs ++ r = numberLine csv ys ++ r' → xs.map csv.text = ys.map csv.text ∧ r = r'
  | [], _, _, _, _, h, _ => absurd rfl h
  | [x], [y], r, r', _, _, h => by
    simp only [numberLine, List.map_cons, List.map_nil, List.intercalate, List.intersperse, List.flatten_cons, List.flatten_nil, List.append_nil, List.append_assoc,
      List.cons_append, List.nil_append] at h
    obtain ⟨h1, h2⟩ := split_at (fun hc => (hplain x _ hc).2.2.1 rfl) (fun hc => (hplain y _ hc).2.2.1 rfl) h
    exact ⟨by rw [List.map_cons, List.map_cons, h1], h2⟩
  | x :: x' :: xs, y :: y' :: ys, r, r', hl, _, h => by
    simp only [numberLine, List.map_cons, List.intercalate, List.intersperse, List.flatten_cons, List.append_assoc, List.cons_append, List.nil_append] at h
    obtain ⟨h1, h2⟩ := split_at (fun hc => (hplain x _ hc).1 rfl) (fun hc => (hplain y _ hc).1 rfl) h
    obtain ⟨h3, h4⟩ := numberLine_inj csv hplain (x' :: xs) (y' :: ys) r r' (by simpa using hl) (by simp) (by
      simpa only [numberLine, List.map_cons, List.intercalate, List.append_assoc, List.cons_append, List.nil_append] using h2)
    exact ⟨by rw [List.map_cons, h3, h1]; rfl, h4⟩

/-- the output text says which texts the numbers in it have -/
theorem outputText_inj (csv : CsvLib ℝ) (hplain : ∀ x, PlainField (csv.text x)) (pts : List (V3 ℝ))
    (f g : V3 ℝ → List ℝ) (hl : ∀ p, (f p).length = (g p).length) :
    outputText csv pts f = outputText csv pts g ↔ ∀ p ∈ pts, (f p).map csv.text = (g p).map csv.text := by
  unfold outputText
  rw [List.append_right_inj]
  induction pts with
  | nil => simp
  | cons p pts ih =>
    rw [List.flatMap_cons, List.flatMap_cons, List.forall_mem_cons, ← ih]
    constructor
    · intro h
      obtain ⟨h1, h2⟩ := numberLine_inj csv hplain _ _ _ _ (by simp [hl]) (by simp) h
      exact ⟨by simpa using h1, h2⟩
    · rintro ⟨h1, h2⟩
      rw [h2]
      simp only [numberLine, List.map_append, h1]

/-- the sum over the bodies of one number each, weighted with the density and constant of the body -/
noncomputable def ownBodies (bodies : List (BodyEntry ℝ)) (f : Set P3 → ℝ) : ℝ := (bodies.map fun b => b.constant * b.density * f (solidOf b.points)).sum

/-- `1e5` times the attraction of the bodies with their own densities and constants -/
noncomputable def ownField (bodies : List (BodyEntry ℝ)) (p : V3 ℝ) : V3 ℝ :=
  ⟨100000 * ownBodies bodies (fun B => (attraction B p).x), 100000 * ownBodies bodies (fun B => (attraction B p).y), 100000 * ownBodies bodies (fun B => (attraction B p).z)⟩

/-- an output file with a field and without tensor -/
def fieldText (csv : CsvLib ℝ) (pts : List (V3 ℝ)) (F : V3 ℝ → V3 ℝ) : List Char := outputText csv pts fun p => [(F p).x, (F p).y, (F p).z, 0, 0, 0, 0, 0, 0]

/-- `1e5` times the attraction of the bodies with one density and constant -/
noncomputable def oneField (b₁ : BodyEntry ℝ) (bodies : List (BodyEntry ℝ)) (p : V3 ℝ) : V3 ℝ :=
  ⟨100000 * b₁.constant * b₁.density * bodySum bodies (fun B => (attraction B p).x), 100000 * b₁.constant * b₁.density * bodySum bodies (fun B => (attraction B p).y),
    100000 * b₁.constant * b₁.density * bodySum bodies (fun B => (attraction B p).z)⟩

theorem fieldText_inj (csv : CsvLib ℝ) (hplain : ∀ x, PlainField (csv.text x)) (pts : List (V3 ℝ)) (F F' : V3 ℝ → V3 ℝ) :
    fieldText csv pts F = fieldText csv pts F' ↔
      ∀ p ∈ pts, csv.text (F p).x = csv.text (F' p).x ∧ csv.text (F p).y = csv.text (F' p).y ∧ csv.text (F p).z = csv.text (F' p).z := by
  unfold fieldText
  rw [outputText_inj csv hplain pts (fun p => [(F p).x, (F p).y, (F p).z, 0, 0, 0, 0, 0, 0]) (fun p => [(F' p).x, (F' p).y, (F' p).z, 0, 0, 0, 0, 0, 0]) (fun p => rfl)]
  simp only [List.map_cons, List.map_nil, List.cons.injEq, and_true]

/-- **C123** When the output is the right one.  Two bodies, observation points outside the second one.  The text of the output file is the one for the two bodies with
their own densities and constants if and only if the numbers written (those of C123_first) have the texts of the right ones.  The numbers written are the right ones if the products of density and
constant are equal; otherwise there is a wrong one on every line. -/
theorem C123_exact (e : Surroundings ℝ) (hlib : e.hull.Honest) (hplain : ∀ x, PlainField (e.csv.text x))
    {d : Disk} {args : List (List Char)} {v : Val ℚ} {q : Path}
    (hcall : e.Calls d args false v q) {b₁ b₂ : BodyEntry ℝ} {pts : List (V3 ℝ)} (hsays : SaysRun e d v [b₁, b₂] pts)
    (hhull : ∀ b ∈ [b₁, b₂], ∃ h, e.hull.convexHull b.points = .ok h) (hclear : ∀ p ∈ pts, ClearPoint e.hull [b₁, b₂] p) (hout : ∀ p ∈ pts, p.toP ∉ solidOf b₂.points) :
    ∃ d', geecProgram e args d = some (.done, d') ∧ d' q = some (.text (fieldText e.csv pts (oneField b₁ [b₁, b₂]))) ∧
      (d' q = some (.text (fieldText e.csv pts (ownField [b₁, b₂]))) ↔ ∀ p ∈ pts,
        e.csv.text (oneField b₁ [b₁, b₂] p).x = e.csv.text (ownField [b₁, b₂] p).x ∧ e.csv.text (oneField b₁ [b₁, b₂] p).y = e.csv.text (ownField [b₁, b₂] p).y ∧
        e.csv.text (oneField b₁ [b₁, b₂] p).z = e.csv.text (ownField [b₁, b₂] p).z) ∧
      (b₁.constant * b₁.density = b₂.constant * b₂.density → ∀ p ∈ pts, oneField b₁ [b₁, b₂] p = ownField [b₁, b₂] p) ∧
      (b₁.constant * b₁.density ≠ b₂.constant * b₂.density → ∀ p ∈ pts, oneField b₁ [b₁, b₂] p ≠ ownField [b₁, b₂] p) := by
  obtain ⟨d', h1, -, h2⟩ := C123_first e hlib hplain hcall hsays hhull hclear
  have h3 : d' q = some (.text (fieldText e.csv pts (oneField b₁ [b₁, b₂]))) := h2
  clear h2
  refine ⟨d', h1, h3, ?_, ?_, ?_⟩
  · rw [h3, Option.some.injEq, Node.text.injEq]
    exact fieldText_inj e.csv hplain pts _ _
  · intro h p hp
    simp only [oneField, ownField, bodySum, ownBodies, List.map_cons, List.map_nil, List.sum_cons, List.sum_nil, add_zero, V3.mk.injEq, ← h]
    exact ⟨by ring, by ring, by ring⟩
  · intro hk p hp h
    simp only [oneField, ownField, bodySum, ownBodies, List.map_cons, List.map_nil, List.sum_cons, List.sum_nil, add_zero, V3.mk.injEq] at h
    obtain ⟨hx, hy, hz⟩ := h
    have hne : attraction (solidOf b₂.points) p ≠ V3.zeros := by
      obtain ⟨H, hH⟩ := hhull b₂ (by simp)
      have e : H.body = solidOf b₂.points := congrArg solidOf (hlib _ _ hH).1
      have ho := hout p hp
      rw [← e] at ho ⊢
      exact attraction_ne_zeros (hlib _ _ hH).2 ((hclear p hp b₂ (by simp)).2 H hH) ho
    have hk' : b₁.constant * b₁.density - b₂.constant * b₂.density ≠ 0 := sub_ne_zero.mpr hk
    apply hne
    refine V3.ext' ?_ ?_ ?_ <;> apply mul_left_cancel₀ hk' <;> simp only [V3.zeros, r_zero] <;> linarith

/-! ### A complete case with two bodies -/

namespace Whole

/-- a configuration file with two bodies of different densities -/
def twoFile : List (List Char) := [
  "masses:".toList,
  "  - density: 2".toList,
  "    gravity_constant: 1".toList,
  "    points: [[0, 0, 0], [1, 0, 0], [0.5, 0.5, 0], [0, 0, 1]]".toList,
  "    file_path:".toList,
  "    crs:".toList,
  "      ref: cart".toList,
  "      name:".toList,
  "      vdatum:".toList,
  "      semimajor_axis:".toList,
  "      semiminor_axis:".toList,
  "      longitude_origin:".toList,
  "      latitude_origin:".toList,
  "      altitude_origin:".toList,
  "  - density: 5".toList,
  "    gravity_constant: 1".toList,
  "    points: [[0, 0, 0], [0.5, 0.5, 0], [0, 1, 0], [0, 0, 1]]".toList,
  "    file_path:".toList,
  "    crs:".toList,
  "      ref: cart".toList,
  "      name:".toList,
  "      vdatum:".toList,
  "      semimajor_axis:".toList,
  "      semiminor_axis:".toList,
  "      longitude_origin:".toList,
  "      latitude_origin:".toList,
  "      altitude_origin:".toList,
  "observers:".toList,
  "  points:".toList,
  "  file_path: p.csv".toList,
  "  crs:".toList,
  "    ref: cart".toList,
  "    name:".toList,
  "    vdatum:".toList,
  "    semimajor_axis:".toList,
  "    semiminor_axis:".toList,
  "    longitude_origin:".toList,
  "    latitude_origin:".toList,
  "    altitude_origin:".toList,
  "  grid:".toList,
  "    xstart_xend_xstep:".toList,
  "    ystart_yend_ystep:".toList,
  "    zstart_zend_zstep:".toList]

/-- the points of the second body -/
def secondPts : List (Val ℚ) := [.list [.num true 0, .num true 0, .num true 0], .list [.num false (1/2), .num false (1/2), .num true 0], .list [.num true 0, .num true 1, .num true 0],
  .list [.num true 0, .num true 0, .num true 1]]

/-- what is written in it -/
def twoValue : List (String × Val ℚ) := [("masses", .list [.dict [("density", .num true 2), ("gravity_constant", .num true 1), ("points", .list ptsVal), ("file_path", .null), 
  ("crs", .dict [("ref", .str "cart"), ("name", .null), ("vdatum", .null), ("semimajor_axis", .null), ("semiminor_axis", .null), ("longitude_origin", .null), ("latitude_origin", .null), ("altitude_origin", .null)])], .dict [("density", .num true 5), ("gravity_constant", .num true 1), ("points", .list secondPts), ("file_path", .null), 
  ("crs", .dict [("ref", .str "cart"), ("name", .null), ("vdatum", .null), ("semimajor_axis", .null), ("semiminor_axis", .null), ("longitude_origin", .null), ("latitude_origin", .null), ("altitude_origin", .null)])]]), 
  ("observers", .dict [("points", .null), ("file_path", .str "p.csv"), 
  ("crs", .dict [("ref", .str "cart"), ("name", .null), ("vdatum", .null), ("semimajor_axis", .null), ("semiminor_axis", .null), ("longitude_origin", .null), ("latitude_origin", .null), ("altitude_origin", .null)]), 
  ("grid", .dict [("xstart_xend_xstep", .null), ("ystart_yend_ystep", .null), ("zstart_zend_zstep", .null)])])]

theorem n5 : Inline ['5'] (.num true 5) := by simpa [digitOf] using digit_inline (c := '5') (by decide)

theorem secondInline : Inline "[[0, 0, 0], [0.5, 0.5, 0], [0, 1, 0], [0, 0, 1]]".toList (.list secondPts) := by
  have := Inline.list _ _ (.cons 0 0 _ _ _ _ (triple_inline n0 n0 n0) (.cons 1 0 _ _ _ _ (triple_inline nh nh n0)
    (.cons 1 0 _ _ _ _ (triple_inline n0 n1 n0) (.last 1 0 _ _ (triple_inline n0 n0 n1)))))
  rw [show "[[0, 0, 0], [0.5, 0.5, 0], [0, 1, 0], [0, 0, 1]]".toList =
    ['[', '[', '0', ',', ' ', '0', ',', ' ', '0', ']', ',', ' ', '[', '0', '.', '5', ',', ' ', '0', '.', '5', ',', ' ', '0', ']', ',', ' ', '[', '0', ',', ' ', '1', ',', ' ', '0', ']', ',', ' ', '[', '0', ',', ' ', '0', ',', ' ', '1', ']', ']'] by decide +kernel]
  simpa [blanks, secondPts] using this

theorem two_lines : List.Forall₂ YamlLine twoFile [[(0, "masses:".toList)], [(2, ['-']), (4, "density: 2".toList)], [(4, "gravity_constant: 1".toList)], [(4, "points: [[0, 0, 0], [1, 0, 0], [0.5, 0.5, 0], [0, 0, 1]]".toList)], [(4, "file_path:".toList)], [(4, "crs:".toList)], [(6, "ref: cart".toList)], [(6, "name:".toList)], [(6, "vdatum:".toList)], [(6, "semimajor_axis:".toList)], [(6, "semiminor_axis:".toList)], [(6, "longitude_origin:".toList)], [(6, "latitude_origin:".toList)], [(6, "altitude_origin:".toList)], [(2, ['-']), (4, "density: 5".toList)], [(4, "gravity_constant: 1".toList)], [(4, "points: [[0, 0, 0], [0.5, 0.5, 0], [0, 1, 0], [0, 0, 1]]".toList)], [(4, "file_path:".toList)], [(4, "crs:".toList)], [(6, "ref: cart".toList)], [(6, "name:".toList)], [(6, "vdatum:".toList)], [(6, "semimajor_axis:".toList)], [(6, "semiminor_axis:".toList)], [(6, "longitude_origin:".toList)], [(6, "latitude_origin:".toList)], [(6, "altitude_origin:".toList)], [(0, "observers:".toList)], [(2, "points:".toList)], [(2, "file_path: p.csv".toList)], [(2, "crs:".toList)], [(4, "ref: cart".toList)], [(4, "name:".toList)], [(4, "vdatum:".toList)], [(4, "semimajor_axis:".toList)], [(4, "semiminor_axis:".toList)], [(4, "longitude_origin:".toList)], [(4, "latitude_origin:".toList)], [(4, "altitude_origin:".toList)], [(2, "grid:".toList)], [(4, "xstart_xend_xstep:".toList)], [(4, "ystart_yend_ystep:".toList)], [(4, "zstart_zend_zstep:".toList)]] :=
  (.cons (y_text (by decide +kernel)) (.cons (y_hyphen (i := 2) (by decide +kernel)) (.cons (y_text (by decide +kernel)) (.cons (y_text (by decide +kernel)) (.cons (y_text (by decide +kernel)) (.cons (y_text (by decide +kernel)) (.cons (y_text (by decide +kernel)) (.cons (y_text (by decide +kernel)) (.cons (y_text (by decide +kernel)) (.cons (y_text (by decide +kernel)) (.cons (y_text (by decide +kernel)) (.cons (y_text (by decide +kernel)) (.cons (y_text (by decide +kernel)) (.cons (y_text (by decide +kernel)) (.cons (y_hyphen (i := 2) (by decide +kernel)) (.cons (y_text (by decide +kernel)) (.cons (y_text (by decide +kernel)) (.cons (y_text (by decide +kernel)) (.cons (y_text (by decide +kernel)) (.cons (y_text (by decide +kernel)) (.cons (y_text (by decide +kernel)) (.cons (y_text (by decide +kernel)) (.cons (y_text (by decide +kernel)) (.cons (y_text (by decide +kernel)) (.cons (y_text (by decide +kernel)) (.cons (y_text (by decide +kernel)) (.cons (y_text (by decide +kernel)) (.cons (y_text (by decide +kernel)) (.cons (y_text (by decide +kernel)) (.cons (y_text (by decide +kernel)) (.cons (y_text (by decide +kernel)) (.cons (y_text (by decide +kernel)) (.cons (y_text (by decide +kernel)) (.cons (y_text (by decide +kernel)) (.cons (y_text (by decide +kernel)) (.cons (y_text (by decide +kernel)) (.cons (y_text (by decide +kernel)) (.cons (y_text (by decide +kernel)) (.cons (y_text (by decide +kernel)) (.cons (y_text (by decide +kernel)) (.cons (y_text (by decide +kernel)) (.cons (y_text (by decide +kernel)) (.cons (y_text (by decide +kernel)) .nil)))))))))))))))))))))))))))))))))))))))))))

theorem two_writes : Writes twoFile (.dict twoValue) := by
  have h := Block.dict 0 _ _ (List.cons_ne_nil _ _)
    (e_block kw_masses (line := "masses:") (by decide +kernel) (by decide +kernel) (by decide : 0 < 2) (.list 2 _ _ (List.cons_ne_nil _ _) (.item 2 4 _ _ _ _ (by decide) (.dict 4 _ _ (List.cons_ne_nil _ _) (e_inline kw_density (line := "density: 2") (by decide +kernel) n2 (by decide +kernel) (e_inline kw_gravity_constant (line := "gravity_constant: 1") (by decide +kernel) n1 (by decide +kernel) (e_inline kw_points (line := "points: [[0, 0, 0], [1, 0, 0], [0.5, 0.5, 0], [0, 0, 1]]") (by decide +kernel) ptsInline (by decide +kernel) (e_null kw_file_path (line := "file_path:") (by decide +kernel) (by decide +kernel) (e_block kw_crs (line := "crs:") (by decide +kernel) (by decide +kernel) (by decide : 4 < 6) (.dict 6 _ _ (List.cons_ne_nil _ _) (e_inline kw_ref (line := "ref: cart") (by decide +kernel) (w_inline w_cart) (by decide +kernel) (e_null kw_name (line := "name:") (by decide +kernel) (by decide +kernel) (e_null kw_vdatum (line := "vdatum:") (by decide +kernel) (by decide +kernel) (e_null kw_semimajor_axis (line := "semimajor_axis:") (by decide +kernel) (by decide +kernel) (e_null kw_semiminor_axis (line := "semiminor_axis:") (by decide +kernel) (by decide +kernel) (e_null kw_longitude_origin (line := "longitude_origin:") (by decide +kernel) (by decide +kernel) (e_null kw_latitude_origin (line := "latitude_origin:") (by decide +kernel) (by decide +kernel) (e_null kw_altitude_origin (line := "altitude_origin:") (by decide +kernel) (by decide +kernel) (.nil 6)))))))))) (.nil 4))))))) (.item 2 4 _ _ _ _ (by decide) (.dict 4 _ _ (List.cons_ne_nil _ _) (e_inline kw_density (line := "density: 5") (by decide +kernel) n5 (by decide +kernel) (e_inline kw_gravity_constant (line := "gravity_constant: 1") (by decide +kernel) n1 (by decide +kernel) (e_inline kw_points (line := "points: [[0, 0, 0], [0.5, 0.5, 0], [0, 1, 0], [0, 0, 1]]") (by decide +kernel) secondInline (by decide +kernel) (e_null kw_file_path (line := "file_path:") (by decide +kernel) (by decide +kernel) (e_block kw_crs (line := "crs:") (by decide +kernel) (by decide +kernel) (by decide : 4 < 6) (.dict 6 _ _ (List.cons_ne_nil _ _) (e_inline kw_ref (line := "ref: cart") (by decide +kernel) (w_inline w_cart) (by decide +kernel) (e_null kw_name (line := "name:") (by decide +kernel) (by decide +kernel) (e_null kw_vdatum (line := "vdatum:") (by decide +kernel) (by decide +kernel) (e_null kw_semimajor_axis (line := "semimajor_axis:") (by decide +kernel) (by decide +kernel) (e_null kw_semiminor_axis (line := "semiminor_axis:") (by decide +kernel) (by decide +kernel) (e_null kw_longitude_origin (line := "longitude_origin:") (by decide +kernel) (by decide +kernel) (e_null kw_latitude_origin (line := "latitude_origin:") (by decide +kernel) (by decide +kernel) (e_null kw_altitude_origin (line := "altitude_origin:") (by decide +kernel) (by decide +kernel) (.nil 6)))))))))) (.nil 4))))))) (.nil 2)))) (e_block kw_observers (line := "observers:") (by decide +kernel) (by decide +kernel) (by decide : 0 < 2) (.dict 2 _ _ (List.cons_ne_nil _ _) (e_null kw_points (line := "points:") (by decide +kernel) (by decide +kernel) (e_inline kw_file_path (line := "file_path: p.csv") (by decide +kernel) (w_inline w_p_csv) (by decide +kernel) (e_block kw_crs (line := "crs:") (by decide +kernel) (by decide +kernel) (by decide : 2 < 4) (.dict 4 _ _ (List.cons_ne_nil _ _) (e_inline kw_ref (line := "ref: cart") (by decide +kernel) (w_inline w_cart) (by decide +kernel) (e_null kw_name (line := "name:") (by decide +kernel) (by decide +kernel) (e_null kw_vdatum (line := "vdatum:") (by decide +kernel) (by decide +kernel) (e_null kw_semimajor_axis (line := "semimajor_axis:") (by decide +kernel) (by decide +kernel) (e_null kw_semiminor_axis (line := "semiminor_axis:") (by decide +kernel) (by decide +kernel) (e_null kw_longitude_origin (line := "longitude_origin:") (by decide +kernel) (by decide +kernel) (e_null kw_latitude_origin (line := "latitude_origin:") (by decide +kernel) (by decide +kernel) (e_null kw_altitude_origin (line := "altitude_origin:") (by decide +kernel) (by decide +kernel) (.nil 4)))))))))) (e_block kw_grid (line := "grid:") (by decide +kernel) (by decide +kernel) (by decide : 2 < 4) (.dict 4 _ _ (List.cons_ne_nil _ _) (e_null kw_xstart_xend_xstep (line := "xstart_xend_xstep:") (by decide +kernel) (by decide +kernel) (e_null kw_ystart_yend_ystep (line := "ystart_yend_ystep:") (by decide +kernel) (by decide +kernel) (e_null kw_zstart_zend_zstep (line := "zstart_zend_zstep:") (by decide +kernel) (by decide +kernel) (.nil 4))))) (.nil 2)))))) (.nil 0)))
  refine ⟨0, _, two_lines, ?_⟩
  unfold twoValue
  simpa only [List.flatten_cons, List.flatten_nil, List.cons_append, List.nil_append, List.append_nil] using h

theorem two_plain : PlainLines twoFile := by
  have h : twoFile.all (fun l => l.all fun c => 32 ≤ c.toNat && c.toNat ≤ 126) = true := by decide +kernel
  intro l hl c hc
  have := List.all_eq_true.mp (List.all_eq_true.mp h l hl) c hc
  simp only [Bool.and_eq_true, decide_eq_true_eq] at this
  exact .inl this

/-- what is on the disk -/
def twoContents : List (Path × Node) := [([], .dir), (["a".toList], .dir), (["a".toList, "geec".toList], .dir), (["a".toList, "geec".toList, "data".toList], .dir),
  (["a".toList, "geec".toList, "data".toList, "geoids".toList], .dir),
  (["a".toList, "geec".toList, "data".toList, "geoids".toList, "egm2008-2_5.pgm".toList], .text "P5".toList),
  (["a".toList, "geec".toList, "data".toList, "geoids".toList, "egm96-5.pgm".toList], .text "P5".toList),
  (["a".toList, "geec".toList, "data".toList, "geoids".toList, "egm84-15.pgm".toList], .text "P5".toList),
  (["a".toList, "in.yaml".toList], .text (unlines twoFile)), (["a".toList, "p.csv".toList], .text "2,3,5\n".toList)]

/-- the disk -/
def twoDisk : Disk := fun p => (twoContents.find? (·.1 = p)).map (·.2)

theorem two_wf : twoDisk.WF := by
  have h : twoContents.all (fun x => x.1 == [] || decide (twoDisk x.1.dropLast = some .dir)) = true := by decide +kernel
  intro p c hp
  rcases hf : twoContents.find? (·.1 = p ++ [c]) with _ | x
  · exact absurd (by rw [twoDisk, hf]; rfl) hp
  · have h1 := List.all_eq_true.mp h x (List.mem_of_find?_eq_some hf)
    have h2 : x.1 = p ++ [c] := by simpa using List.find?_some hf
    rw [h2] at h1
    simpa using h1

theorem two_calls (gr : Bool) : around.Calls twoDisk (theWords (if gr then "--gradient" else "--no-gradient")) gr (.dict twoValue) ["a".toList, "out.csv".toList] where
  disk := two_wf
  top := by decide +kernel
  grids := by
    intro n hn
    refine ⟨"P5".toList, ?_, by decide +kernel⟩
    simp only [List.mem_cons, List.not_mem_nil, or_false] at hn
    show twoDisk (["a".toList] ++ ["geec".toList, "data".toList, "geoids".toList, n]) = some (.text "P5".toList)
    rcases hn with rfl | rfl | rfl <;> decide +kernel
  logger := by
    have h : isOkB (setupLogger install twoDisk).1 = true := by decide +kernel
    show (setupLogger install twoDisk).1 = .ok ()
    rcases hh : (setupLogger install twoDisk).1 with e | u
    · rw [hh] at h; cases h
    · rfl
  other := by
    have h1 : twoDisk ["home".toList, "config.yaml".toList] = none := by decide +kernel
    have h2 : twoDisk (install.cfg ++ ["config_default.yaml".toList]) = none := by decide +kernel
    refine ⟨.dict [], .dict [], .missing fun t h => ?_, .missing fun t h => ?_, ?_, ?_⟩
    · exact absurd (h1.symm.trans h) (by simp)
    · exact absurd (h2.symm.trans h) (by simp)
    · show ["home".toList, "config.yaml".toList] ≠ install.logFile
      decide +kernel
    · show install.cfg ++ ["config_default.yaml".toList] ≠ install.logFile
      decide +kernel
  words := by
    refine ⟨["--gradient".toList, "out.txt".toList, "--config=in.yaml".toList, (if gr then "--gradient" else "--no-gradient").toList],
      [("--gradient".toList, []), ("--config".toList, "in.yaml".toList), ((if gr then "--gradient" else "--no-gradient").toList, [])], "out.txt".toList, "in.yaml".toList,
      twoFile, twoValue, .inl rfl, ?_, ?_, ?_, ?_, by decide +kernel, ?_, ?_, two_plain, rfl, two_writes, by decide +kernel, ?_⟩
    · refine .flag _ _ _ _ (by simp) (.operand _ _ _ _ rfl (.inl (by decide +kernel)) ?_)
      rw [show "--config=in.yaml".toList = "--config".toList ++ '=' :: "in.yaml".toList by decide +kernel]
      refine .attached _ _ _ _ _ (by simp) (.flag _ _ _ _ ?_ .nil)
      cases gr <;> simp
    · rintro ⟨v, hv⟩
      simp only [List.mem_cons, List.not_mem_nil, or_false, Prod.mk.injEq] at hv
      rcases hv with ⟨h, -⟩ | ⟨h, -⟩ | ⟨h, -⟩
      · exact absurd h (by decide +kernel)
      · exact absurd h (by decide +kernel)
      · cases gr
        · exact absurd h (by decide +kernel)
        · exact absurd h (by decide +kernel)
    · refine .inl ⟨[("--gradient".toList, [])], [((if gr then "--gradient" else "--no-gradient").toList, [])], rfl, fun w hw => ?_⟩
      simp only [List.mem_cons, List.not_mem_nil, or_false, Prod.mk.injEq] at hw
      cases gr
      · exact absurd hw.1 (by decide +kernel)
      · exact absurd hw.1 (by decide +kernel)
    · cases gr
      · refine ⟨fun h => (by cases h), ?_⟩
        intro h
        have h' := (gradient_iff _).mp h
        exact absurd h' (by decide +kernel)
      · refine ⟨fun _ => ⟨[("--gradient".toList, []), ("--config".toList, "in.yaml".toList)], [], [], rfl, by simp⟩, fun _ => rfl⟩
    · show ["a".toList, (String.ofList "in.yaml".toList).toList] ≠ install.logFile
      decide +kernel
    · show twoDisk ["a".toList, (String.ofList "in.yaml".toList).toList] = some (.text (unlines twoFile))
      decide +kernel
    · exact pathSuffixReplaced_iff.mpr (by rfl)
  place := by decide +kernel
  free := by
    refine ⟨by decide +kernel, ?_⟩
    show ¬ ["a".toList, "out.csv".toList] <+: install.logdir
    decide +kernel
  writable := rfl



/-- the second body, the other half of the tetrahedron -/
noncomputable def second : BodyEntry ℝ := ⟨5, 1, [⟨0, 0, 0⟩, ⟨1 / 2, 1 / 2, 0⟩, ⟨0, 1, 0⟩, ⟨0, 0, 1⟩]⟩

theorem two_says : SaysRun around twoDisk (.dict twoValue) [body, second] [⟨2, 3, 5⟩] where
  masses := by
    refine ⟨_, rfl, .cons ?_ (.cons ?_ .nil)⟩
    · refine ⟨⟨?_, ⟨"cart", rfl, cart_upper⟩, ?_⟩, ⟨true, 2, rfl, ?_⟩, ⟨true, 1, rfl, ?_⟩, ⟨.null, rfl⟩⟩
      · have := SaysPoints.listed (e := around) (d := twoDisk) (v := ?_) ptsVal [⟨0, 0, 0⟩, ⟨1, 0, 0⟩, ⟨1/2, 1/2, 0⟩, ⟨0, 0, 1⟩] ?_ ?_ (by simp)
        · simpa [body, around] using this
        · rfl
        · exact .cons ⟨_, _, _, rfl⟩ (.cons ⟨_, _, _, rfl⟩ (.cons ⟨_, _, _, rfl⟩ (.cons ⟨_, _, _, rfl⟩ .nil)))
      · intro p hp
        simp only [List.mem_cons, List.not_mem_nil, or_false] at hp
        rcases hp with rfl | rfl | rfl | rfl | rfl | rfl | rfl | rfl <;> exact ⟨_, rfl⟩
      · simp [body, around]
      · simp [body, around]
    · refine ⟨⟨?_, ⟨"cart", rfl, cart_upper⟩, ?_⟩, ⟨true, 5, rfl, ?_⟩, ⟨true, 1, rfl, ?_⟩, ⟨.null, rfl⟩⟩
      · have := SaysPoints.listed (e := around) (d := twoDisk) (v := ?_) secondPts [⟨0, 0, 0⟩, ⟨1/2, 1/2, 0⟩, ⟨0, 1, 0⟩, ⟨0, 0, 1⟩] ?_ ?_ (by simp)
        · simpa [second, around] using this
        · rfl
        · exact .cons ⟨_, _, _, rfl⟩ (.cons ⟨_, _, _, rfl⟩ (.cons ⟨_, _, _, rfl⟩ (.cons ⟨_, _, _, rfl⟩ .nil)))
      · intro p hp
        simp only [List.mem_cons, List.not_mem_nil, or_false] at hp
        rcases hp with rfl | rfl | rfl | rfl | rfl | rfl | rfl | rfl <;> exact ⟨_, rfl⟩
      · simp [second, around]
      · simp [second, around]
  observers := by
    refine ⟨_, rfl, ⟨?_, ⟨"cart", rfl, cart_upper⟩, ?_⟩, ?_⟩
    · refine SaysPoints.file (e := around) (d := twoDisk) "p.csv" [(.row [.plain ['2'], .plain ['3'], .plain ['5']], .lf)] (.blank []) [(⟨2, 3, 5⟩, true)] rfl rfl (by decide +kernel)
        ?_ ?_ (by decide +kernel) (by decide +kernel) (.cons ?_ .nil) (by simp)
      · show twoDisk ["a".toList, "p.csv".toList] = _
        decide +kernel
      · show ["a".toList, "p.csv".toList] ≠ install.logFile
        decide +kernel
      · refine ⟨['2'], ['3'], ['5'], true, true, true, rfl, ?_, ?_, ?_, rfl⟩ <;> simp only [around] <;> rw [if_pos (by decide)] <;> norm_num [digitOf, show '2'.toNat = 50 from rfl, show '3'.toNat = 51 from rfl, show '5'.toNat = 53 from rfl]
    · intro p hp
      simp only [List.mem_cons, List.not_mem_nil, or_false] at hp
      rcases hp with rfl | rfl | rfl | rfl | rfl | rfl | rfl | rfl <;> exact ⟨_, rfl⟩
    · intro p hp
      simp only [List.mem_cons, List.not_mem_nil, or_false] at hp
      rcases hp with rfl | rfl | rfl <;> exact ⟨_, rfl⟩

theorem second_hull : fourPoints.convexHull second.points = .ok halfB := fourPoints_B

theorem second_solid : solidOf second.points = halfB.body := by
  show solidOf [⟨0, 0, 0⟩, ⟨1 / 2, 1 / 2, 0⟩, ⟨0, 1, 0⟩, ⟨0, 0, 1⟩] = _
  rw [← halfB_points]; rfl

theorem two_hulls : ∀ b ∈ [body, second], ∃ h, around.hull.convexHull b.points = .ok h := by
  intro b hb
  rcases List.mem_cons.mp hb with rfl | hb
  · exact ⟨_, whole_hull⟩
  · obtain rfl : b = second := by simpa using hb
    exact ⟨_, second_hull⟩

theorem two_clear : ClearTensor around.hull [body, second] ⟨2, 3, 5⟩ := by
  have hh : ∀ h, around.hull.convexHull second.points = .ok h → h = halfB := fun h hh => by
    have : Except.ok h = (.ok halfB : Except PyErr (Hull ℝ)) := hh.symm.trans second_hull
    exact Except.ok.inj this
  refine ⟨fun b hb => ?_, fun b hb => ?_⟩
  · rcases List.mem_cons.mp hb with rfl | hb
    · exact whole_clear.1 _ (by simp)
    · obtain rfl : b = second := by simpa using hb
      refine ⟨by simp [second], fun h hb => ?_⟩
      rw [hh h hb]; exact halfB_regular
  · rcases List.mem_cons.mp hb with rfl | hb
    · exact whole_clear.2 _ (by simp)
    · obtain rfl : b = second := by simpa using hb
      refine ⟨?_, fun h hb => ?_⟩
      · intro a ha c hc heq
        have h1 : rdot (c.sub a) (c.sub a) = rdot (a.sub ⟨2, 3, 5⟩) (a.sub ⟨2, 3, 5⟩) := by
          have h := congrArg (fun t : ℝ => t * t) heq
          simpa only [vlen_sq] using h
        simp only [second, List.mem_cons, List.not_mem_nil, or_false] at ha hc
        rcases ha with rfl | rfl | rfl | rfl <;> rcases hc with rfl | rfl | rfl | rfl <;> norm_num [rdot, V3.sub, Arith.sub] at h1
      · rw [hh h hb]
        refine ⟨halfB_tensorRegular, ?_⟩
        rw [halfB_body]; rintro ⟨h1, h2, h3, h4⟩; simp only [V3.toP] at h4; norm_num at h4

/-- C123_first and C123_exact: the file gives the densities 2 and 5; the output is that for the densities 2 and 2, and not the right one -/
example : ∃ d', geecProgram around (theWords "--no-gradient") twoDisk = some (.done, d') ∧
    d' ["a".toList, "out.csv".toList] = some (.text (fieldText around.csv [⟨2, 3, 5⟩] (oneField body [body, second]))) ∧
    oneField body [body, second] ⟨2, 3, 5⟩ ≠ ownField [body, second] ⟨2, 3, 5⟩ := by
  obtain ⟨d', h1, h2, -, -, h3⟩ := C123_exact around fourPoints_honest whole_text (two_calls false) two_says two_hulls (fun p hp => by
    obtain rfl : p = ⟨2, 3, 5⟩ := by simpa using hp
    exact two_clear.1) (fun p hp => by
    obtain rfl : p = ⟨2, 3, 5⟩ := by simpa using hp
    rw [second_solid, halfB_body]; rintro ⟨h1, h2, h3, h4⟩; simp only [V3.toP] at h4; norm_num at h4)
  exact ⟨d', h1, h2, h3 (by norm_num [body, second]) _ (by simp)⟩

/-- C123_gradient: the same with `--gradient` -/
example : ∃ d' t, geecProgram around (theWords "--gradient") twoDisk = some (.done, d') ∧ d' ["a".toList, "out.csv".toList] = some (.text t) := by
  obtain ⟨d', h1, -, h2⟩ := C123_gradient around fourPoints_honest whole_text (two_calls true) two_says two_hulls (fun p hp => by
    obtain rfl : p = ⟨2, 3, 5⟩ := by simpa using hp
    exact two_clear)
  exact ⟨d', _, h1, h2⟩

/-! ### Further cases for C121, C122 and C109 -/

/-- an installation in which nothing can be written -/
noncomputable def locked : Surroundings ℝ := { around with install := { install with ro := fun _ => true } }

/-- C121_logger: the log cannot be written, the command raises, also `--help` after a command -/
example : ∃ err, geecProgram locked ["run".toList, "--help".toList] disk = some (.raised err, (setupLogger locked.install disk).2) := by
  have h : isOkB (setupLogger { install with ro := fun _ => true } disk).1 = false := by decide +kernel
  rcases hh : (setupLogger { install with ro := fun _ => true } disk).1 with err | u
  · exact ⟨err, C121_logger locked disk whole_grids true ["--help".toList] _ ((C121_command _ (.inl rfl) _ _).mpr (.inl rfl)) hh⟩
  · rw [hh] at h; cases h

/-- C121_files: the run of C122 makes the file `out.csv`, which was not there, and which the words name -/
example : ∃ d' t, geecProgram around (theWords "--no-gradient") disk = some (.done, d') ∧ d' ["a".toList, "out.csv".toList] = some (.text t) ∧
    disk ["a".toList, "out.csv".toList] ≠ some (.text t) := by
  obtain ⟨d', h1, -, h2⟩ := C122_run around fourPoints_honest whole_text (whole_calls false) whole_says (by simp) (fun b hb => by
    obtain rfl : b = body := by simpa using hb
    exact ⟨_, whole_hull⟩) (ρ := 2) (Gc := 1) (fun b hb => by
    obtain rfl : b = body := by simpa using hb
    exact ⟨rfl, rfl⟩) (fun p hp => by
    obtain rfl : p = ⟨2, 3, 5⟩ := by simpa using hp
    exact whole_clear.1)
  have h3 : disk ["a".toList, "out.csv".toList] = none := by decide +kernel
  exact ⟨d', _, h1, h2, by rw [h3]; simp⟩

/-- C122_read: the two bodies and the observation point of the file -/
example : ∃ ms ob, getMasses toyGeo (Outside.ofDisk around.csv around.resolve around.ceil (setupLogger install twoDisk).2)
      (View.root (setupSources (some ((Val.dict twoValue).read around.lit)) none (.dict []))) = .ok ms ∧ ms.map (·.density) = [2, 5] ∧
    getObserver toyGeo (Outside.ofDisk around.csv around.resolve around.ceil (setupLogger install twoDisk).2)
      (View.root (setupSources (some ((Val.dict twoValue).read around.lit)) none (.dict []))) = .ok ob ∧ ob.dataset.coords.rows = [⟨2, 3, 5⟩] := by
  obtain ⟨-, ⟨ms, h1, h2⟩, ob, h3, h4, -⟩ := C122_read around two_wf (by decide +kernel) two_says none (.dict [])
  refine ⟨ms, ob, h1, ?_, h3, h4⟩
  cases h2 with
  | cons a h2 =>
    cases h2 with
    | cons b h2 =>
      cases h2
      simp [a.1, b.1, body, second]

end Whole

section
attribute [local instance] toyArith

/-- texts of rational numbers, different ones for different numbers -/
def strokes : CsvLib Rat := ⟨fun _ => none, fun x => List.replicate (Encodable.encode x) '1'⟩

/-- C109_injective: its hypothesis on the texts holds, and the run returns; two runs that write the same text have the same table -/
example : ∃ t, runTable Toy.geo Toy.outside Toy.hullLib (Toy.config "ecef" "ellps" "egm96") true = .ok t ∧
    ∀ gr t', runTable Toy.geo Toy.outside Toy.hullLib (Toy.config "ecef" "ellps" "egm96") gr = .ok t' → toCsv strokes t' = toCsv strokes t → t' = t := by
  obtain ⟨t, ht⟩ := toy_run_returns
  refine ⟨t, ht, fun gr t' ht' h => C109_injective _ _ _ _ strokes (fun x y hxy => ?_) _ _ _ _ _ _ t' t ht' ht h⟩
  have := congrArg List.length hxy
  simpa [strokes] using this
end

end Geec
