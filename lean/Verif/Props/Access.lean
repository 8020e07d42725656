import Verif.Model.Access
import Verif.Props.Methods
import Verif.Props.InHull
import Verif.Props.Station
/-
C92: the accessors of edges.  C93: printing objects.
-/
namespace Geec
open Arith
variable {S : Type} [Arith S]
set_option linter.unusedSectionVars false

theorem edge?_isSome {p : Poly S} {i j : Nat} : (∃ e, p.edge? i j = some e) ↔ p.HasEdge i j := by
  unfold Poly.edge? Poly.HasEdge
  constructor
  · rintro ⟨e, h⟩
    obtain ⟨f, hf, he⟩ := Option.bind_eq_some_iff.mp h
    exact ⟨f, e, hf, he⟩
  · rintro ⟨f, e, hf, he⟩
    exact ⟨e, Option.bind_eq_some_iff.mpr ⟨f, hf, he⟩⟩

theorem edge?_setEdge (p : Poly S) (i j : Nat) (g : Edge S → Edge S) (i' j' : Nat) :
    (p.setEdge i j g).edge? i' j' = if i' = i ∧ j' = j then (p.edge? i' j').map g else p.edge? i' j' := by
  unfold Poly.edge? Poly.setEdge
  simp only [List.getElem?_modify]
  by_cases hi : i = i'
  · subst hi
    rcases hf : p.faces[i]? with _ | f
    · simp
    · by_cases hj : j = j'
      · subst hj; simp
      · have : ¬ (j' = j) := fun h => hj h.symm
        simp [hj, this]
  · have : ¬ (i' = i) := fun h => hi h.symm
    rcases hf : p.faces[i']? with _ | f <;> simp [hi, this]

theorem hasEdge_setEdge (p : Poly S) (i j : Nat) (g : Edge S → Edge S) (i' j' : Nat) : (p.setEdge i j g).HasEdge i' j' ↔ p.HasEdge i' j' := by
  rw [← edge?_isSome, ← edge?_isSome, edge?_setEdge]
  split <;> simp

theorem twinsInside_iff {p : Poly S} : p.TwinsInside ↔ ∀ i j e, p.edge? i j = some e → ∀ t : Nat × Nat, e.twin = some t → p.HasEdge t.1 t.2 := by
  unfold Poly.TwinsInside Poly.edge?
  constructor
  · intro h i j e he t ht
    obtain ⟨f, hf, he⟩ := Option.bind_eq_some_iff.mp he
    exact h i f hf j e he t ht
  · intro h i f hf j e he t ht
    exact h i j e (Option.bind_eq_some_iff.mpr ⟨f, hf, he⟩) t ht

/-- A body without its twin references. -/
def Poly.noTwins (p : Poly S) : Poly S :=
  { p with faces := p.faces.map fun f => { f with edges := f.edges.map fun e => { e with twin := none } } }

theorem map_modify_same {α β : Type} (f : α → β) (g : α → α) (h : ∀ a, f (g a) = f a) (l : List α) (i : Nat) : (l.modify i g).map f = l.map f := by
  apply List.ext_getElem?
  intro k
  simp only [List.getElem?_map, List.getElem?_modify]
  cases l[k]? with
  | none => rfl
  | some a => by_cases hk : i = k <;> simp [hk, h]

theorem noTwins_setTwin (p : Poly S) (i j : Nat) (t : Option (Nat × Nat)) : (p.setEdge i j fun e => { e with twin := t }).noTwins = p.noTwins := by
  unfold Poly.noTwins Poly.setEdge
  simp only
  congr 1
  apply map_modify_same
  intro f
  congr 1
  apply map_modify_same
  intro e; rfl

/-- **C92** An accessor that raises has changed nothing. -/
theorem C92_atomic (x : Access S) (hx : ∀ y, x ≠ .method y) (st : Poly S × Mem S) (e : PyErr) (h : (x.run st).1 = .error e) : (x.run st).2 = st := by
  cases x with
  | method y => exact absurd rfl (hx y)
  | setTwin i j twin =>
    revert h
    simp only [Access.run]
    split
    · intro _; rfl
    · rcases twin.bind fun t => (st.1.edge? t.1 t.2).map fun _ => t with _ | t
      · intro _; rfl
      · intro h; cases h
  | setPqr i j a =>
    revert h
    simp only [Access.run]
    split
    · intro _; rfl
    · cases a with
      | none => intro _; rfl
      | some l => intro h; cases h
  | setDpqr i j a =>
    revert h
    simp only [Access.run]
    split
    · intro _; rfl
    · cases a with
      | none => intro _; rfl
      | some l => intro h; cases h

/-- **C92** On an existing edge the accessors raise exactly for arguments of the wrong type, and it is `TypeError`. -/
theorem C92_types {p : Poly S} {i j : Nat} (hij : p.HasEdge i j) (m : Mem S) :
    (∀ t, (Access.run (.setTwin i j (some t)) (p, m)).1 = if p.edge? t.1 t.2 = none then .error .typeError else .ok none) ∧
    (Access.run (.setTwin i j none) (p, m)).1 = .error .typeError ∧
    (∀ l, (Access.run (.setPqr i j (some l)) (p, m)).1 = .ok none) ∧ (Access.run (.setPqr i j none) (p, m)).1 = .error .typeError ∧
    (∀ l, (Access.run (.setDpqr i j (some l)) (p, m)).1 = .ok none) ∧ (Access.run (.setDpqr i j none) (p, m)).1 = .error .typeError := by
  obtain ⟨e, he⟩ := edge?_isSome.mpr hij
  refine ⟨fun t => ?_, ?_, fun l => ?_, ?_, fun l => ?_, ?_⟩ <;> simp only [Access.run, he]
  · rcases ht : p.edge? t.1 t.2 with _ | e' <;> simp [ht, Edge.setTwin, Except.map]
  all_goals rfl

/-- **C92** `_set_pqr` makes the edge refer to the array given: `pqr` returns it, with whatever is written to it later, and nothing else has changed —
not the gradient of the edge, not its twin's values, no face, no array, no geometry. -/
theorem C92_set_pqr {p : Poly S} {i j : Nat} (hij : p.HasEdge i j) (m : Mem S) (l : Nat) :
    (Access.run (.setPqr i j (some l)) (p, m)).2.1 = p ∧
    Edge.getPqr i j (Access.run (.setPqr i j (some l)) (p, m)).2.2 = some (m.va l) ∧
    (∀ v, Edge.getPqr i j ((Access.run (.setPqr i j (some l)) (p, m)).2.2.setV l v) = some v) ∧
    (∀ i' j', (i', j') ≠ (i, j) → Edge.getPqr i' j' (Access.run (.setPqr i j (some l)) (p, m)).2.2 = Edge.getPqr i' j' m) ∧
    (∀ i' j', Edge.getDpqr i' j' (Access.run (.setPqr i j (some l)) (p, m)).2.2 = Edge.getDpqr i' j' m) ∧
    (Access.run (.setPqr i j (some l)) (p, m)).2.2.face = m.face ∧ (Access.run (.setPqr i j (some l)) (p, m)).2.2.va = m.va := by
  obtain ⟨e, he⟩ := edge?_isSome.mpr hij
  simp only [Access.run, he, Edge.setPqr, Edge.getPqr, Edge.getDpqr, Mem.setEdge, Mem.setV]
  refine ⟨trivial, by simp, fun v => by simp, fun i' j' hne => ?_, fun i' j' => ?_, trivial, trivial⟩
  · have : ¬ (i' = i ∧ j' = j) := fun h => hne (Prod.ext h.1 h.2)
    simp [this]
  · by_cases h : i' = i ∧ j' = j
    · obtain ⟨rfl, rfl⟩ := h; simp
    · simp [h]

/-- **C92** `_set_dpqr` likewise for the gradient. -/
theorem C92_set_dpqr {p : Poly S} {i j : Nat} (hij : p.HasEdge i j) (m : Mem S) (l : Nat) :
    (Access.run (.setDpqr i j (some l)) (p, m)).2.1 = p ∧
    Edge.getDpqr i j (Access.run (.setDpqr i j (some l)) (p, m)).2.2 = some (m.ma l) ∧
    (∀ v, Edge.getDpqr i j ((Access.run (.setDpqr i j (some l)) (p, m)).2.2.setM l v) = some v) ∧
    (∀ i' j', (i', j') ≠ (i, j) → Edge.getDpqr i' j' (Access.run (.setDpqr i j (some l)) (p, m)).2.2 = Edge.getDpqr i' j' m) ∧
    (∀ i' j', Edge.getPqr i' j' (Access.run (.setDpqr i j (some l)) (p, m)).2.2 = Edge.getPqr i' j' m) ∧
    (Access.run (.setDpqr i j (some l)) (p, m)).2.2.face = m.face ∧ (Access.run (.setDpqr i j (some l)) (p, m)).2.2.ma = m.ma := by
  obtain ⟨e, he⟩ := edge?_isSome.mpr hij
  simp only [Access.run, he, Edge.setDpqr, Edge.getPqr, Edge.getDpqr, Mem.setEdge, Mem.setM]
  refine ⟨trivial, by simp, fun v => by simp, fun i' j' hne => ?_, fun i' j' => ?_, trivial, trivial⟩
  · have : ¬ (i' = i ∧ j' = j) := fun h => hne (Prod.ext h.1 h.2)
    simp [this]
  · by_cases h : i' = i ∧ j' = j
    · obtain ⟨rfl, rfl⟩ := h; simp
    · simp [h]

/-- **C92** `set_twin` makes the edge refer to the twin given, and changes nothing else: not the reference of that twin back, no other attribute. -/
theorem C92_set_twin {p : Poly S} {i j : Nat} (hij : p.HasEdge i j) (m : Mem S) {t : Nat × Nat} (ht : p.HasEdge t.1 t.2) :
    (Access.run (.setTwin i j (some t)) (p, m)).2.2 = m ∧
    ((Access.run (.setTwin i j (some t)) (p, m)).2.1.edge? i j).bind (·.twin) = some t ∧
    (∀ i' j', (i', j') ≠ (i, j) → (Access.run (.setTwin i j (some t)) (p, m)).2.1.edge? i' j' = p.edge? i' j') ∧
    (Access.run (.setTwin i j (some t)) (p, m)).2.1.noTwins = p.noTwins := by
  obtain ⟨e, he⟩ := edge?_isSome.mpr hij
  obtain ⟨e', he'⟩ := edge?_isSome.mpr ht
  simp only [Access.run, he, he', Edge.setTwin, Option.bind_some, Option.map_some]
  refine ⟨trivial, ?_, fun i' j' hne => ?_, noTwins_setTwin _ _ _ _⟩
  · simp only [edge?_setEdge, and_self, if_true, he, Option.map_some, Option.bind_some]
  · have : ¬ (i' = i ∧ j' = j) := fun h => hne (Prod.ext h.1 h.2)
    rw [edge?_setEdge, if_neg this]

/-- the state stays sensible -/
theorem access_inv (x : Access S) {st : Poly S × Mem S} (ht : st.1.TwinsInside) (hw : Within st.1 st.2) :
    (x.run st).2.1.TwinsInside ∧ Within (x.run st).2.1 (x.run st).2.2 ∧ (x.run st).2.1.noTwins = st.1.noTwins := by
  cases x with
  | method y => exact ⟨ht, within_method ht y hw, rfl⟩
  | setTwin i j twin =>
    simp only [Access.run]
    split
    · exact ⟨ht, hw, rfl⟩
    · next e he =>
      rcases hb : twin.bind fun t => (st.1.edge? t.1 t.2).map fun _ => t with _ | t
      · exact ⟨ht, hw, rfl⟩
      · obtain ⟨t', -, ht'⟩ := Option.bind_eq_some_iff.mp hb
        obtain ⟨e', he', rfl⟩ := Option.map_eq_some_iff.mp ht'
        simp only [Edge.setTwin]
        refine ⟨?_, ⟨?_, ?_⟩, noTwins_setTwin _ _ _ _⟩
        · rw [twinsInside_iff] at ht ⊢
          intro a b e1 h1 t1 h2
          rw [hasEdge_setEdge]
          rw [edge?_setEdge] at h1
          split at h1
          · obtain ⟨e2, h3, rfl⟩ := Option.map_eq_some_iff.mp h1
            cases h2
            exact edge?_isSome.mp ⟨e', he'⟩
          · exact ht a b e1 h1 t1 h2
        · intro a b hn
          rw [hasEdge_setEdge] at hn
          exact hw.edge a b hn
        · intro a ha
          exact hw.face a (by simpa [Poly.setEdge] using ha)
  | setPqr i j a =>
    simp only [Access.run]
    split
    · exact ⟨ht, hw, rfl⟩
    · next e he =>
      cases a with
      | none => exact ⟨ht, hw, rfl⟩
      | some l => exact ⟨ht, hw.setEdge (edge?_isSome.mp ⟨e, he⟩) _, rfl⟩
  | setDpqr i j a =>
    simp only [Access.run]
    split
    · exact ⟨ht, hw, rfl⟩
    · next e he =>
      cases a with
      | none => exact ⟨ht, hw, rfl⟩
      | some l => exact ⟨ht, hw.setEdge (edge?_isSome.mp ⟨e, he⟩) _, rfl⟩

theorem accesses_inv (xs : List (Access S)) : ∀ {st : Poly S × Mem S}, st.1.TwinsInside → Within st.1 st.2 →
    (runAccesses xs st).1.TwinsInside ∧ Within (runAccesses xs st).1 (runAccesses xs st).2 ∧ (runAccesses xs st).1.noTwins = st.1.noTwins := by
  induction xs with
  | nil => intro st ht hw; exact ⟨ht, hw, rfl⟩
  | cons x xs ih =>
    intro st ht hw
    obtain ⟨h1, h2, h3⟩ := access_inv x ht hw
    obtain ⟨h4, h5, h6⟩ := ih h1 h2
    exact ⟨h4, h5, h6.trans h3⟩

/-- **C92** Whatever was called — queries, resets, accessors of edges with arguments right or wrong — and whatever raised: after
one `Polyhedron.reset`, a query gives what it gives on a new object with the twins that the edges now have, and on the object as constructed if the
twins are the ones of the construction. -/
theorem C92_reset {h : Hull S} {inHull : V3 S → Bool} {p : Poly S} (hp : mkPoly h inHull = .ok p) (before : List (Access S)) (c : Call S) :
    let st := runAccesses before (p, Mem.fresh)
    (c.run st.1 (Access.run (.method .reset) st).2.2).1 = c.onNew st.1 ∧ st.1.noTwins = p.noTwins ∧
      (st.1 = p → (c.run p (Access.run (.method .reset) st).2.2).1 = c.onNew p) := by
  intro st
  obtain ⟨h1, h2, h3⟩ := accesses_inv before (st := (p, Mem.fresh)) (mkPoly_inside hp) (within_of_clean clean_fresh)
  have key : (c.run st.1 (Access.run (.method .reset) st).2.2).1 = c.onNew st.1 := getGravity_of_clean (clean_polyReset h2) _ _ _ _ _
  exact ⟨key, h3, fun e => by rw [← e]; exact key⟩

/-! ### printing -/

theorem shown_of_noTwins {p p' : Poly S} (h : p.noTwins = p'.noTwins) : p.shown = p'.shown := by
  have key : ∀ q : Poly S, q.shown = q.noTwins.shown := by
    intro q
    unfold Poly.shown Poly.noTwins Face.shown
    simp only [List.map_map, Function.comp_def]
    rfl
  rw [key p, key p', h]

/-- **C93** Printing an object changes nothing and yields the empty string, and what it shows of a body is the same at all times: whatever was called
before, the description on the console is the one of the body as constructed. -/
theorem C93_same {h : Hull S} {inHull : V3 S → Bool} {p : Poly S} (hp : mkPoly h inHull = .ok p) (before : List (Access S)) :
    let st := runAccesses before (p, Mem.fresh)
    (Poly.repr st).2 = st ∧ (Poly.repr st).1.text = "" ∧ (Poly.repr st).1.console = (Poly.repr (p, Mem.fresh)).1.console := by
  intro st
  obtain ⟨-, -, h3⟩ := accesses_inv before (st := (p, Mem.fresh)) (mkPoly_inside hp) (within_of_clean clean_fresh)
  exact ⟨rfl, rfl, shown_of_noTwins h3⟩

theorem objects_list (cls : String) (l : List (Shown S)) : (Shown.list l).objects cls = (l.map (Shown.objects cls)).flatten := by
  rw [Shown.objects]; congr 1
  exact List.attach_map_val (f := Shown.objects cls) (l := l)

theorem objects_edge (e : Edge S) : e.shown.objects "Edge" =
    [[("start", .array e.start), ("end", .array e.fin), ("vector", .array e.vector), ("length", .number e.length), ("points", .tuple [e.start, e.fin])]] := by
  simp [Edge.shown, Shown.objects]

theorem objects_edge_face (e : Edge S) : e.shown.objects "Face" = [] := by
  simp [Edge.shown, Shown.objects]

theorem objects_face (f : Face S) : f.shown.objects "Edge" = (f.edges.map fun e => e.shown.objects "Edge").flatten := by
  simp [Face.shown, Shown.objects, objects_list, Function.comp_def]

theorem objects_face_face (f : Face S) : f.shown.objects "Face" = [[("points", .arrays f.points), ("simplex", .indices f.simplex),
    ("un", .array f.un), ("neighbors", .indices f.neighbors), ("edges", .list (f.edges.map Edge.shown))]] := by
  simp [Face.shown, Shown.objects, objects_list, Function.comp_def, objects_edge_face]

theorem objects_poly (p : Poly S) : p.shown.objects "Edge" = (p.faces.map fun f => f.shown.objects "Edge").flatten := by
  simp [Poly.shown, Shown.objects, objects_list, Function.comp_def]

theorem objects_poly_face (p : Poly S) : p.shown.objects "Face" = (p.faces.map fun f => f.shown.objects "Face").flatten := by
  simp [Poly.shown, Shown.objects, objects_list, Function.comp_def]

/-- A description of an edge that runs from `a` to `b`. -/
def RunsFrom (a b : V3 S) (fields : List (String × Shown S)) : Prop := ("start", .array a) ∈ fields ∧ ("end", .array b) ∈ fields

theorem runsFrom_edge {e : Edge S} {a b : V3 S} : (∃ x ∈ e.shown.objects "Edge", RunsFrom a b x) ↔ e.start = a ∧ e.fin = b := by
  rw [objects_edge]
  simp [RunsFrom, eq_comm]

/-- **C93** What printing a body shows is a closed surface: one face for each facet of the hull, three edges to a face,
and with each edge from `a` to `b` an edge from `b` to `a`. -/
theorem C93_closed {h : Hull ℝ} (hh : h.IsHull) {inHull : V3 ℝ → Bool} {p : Poly ℝ} (hp : mkPoly h inHull = .ok p) :
    (p.shown.objects "Face").length = h.simplices.length ∧ (p.shown.objects "Edge").length = 3 * h.simplices.length ∧
    ∀ a b : V3 ℝ, (∃ x ∈ p.shown.objects "Edge", RunsFrom a b x) → ∃ x ∈ p.shown.objects "Edge", RunsFrom b a x := by
  obtain ⟨hl, hf⟩ := C24_counter_clockwise hh hp
  refine ⟨?_, ?_, ?_⟩
  · rw [objects_poly_face]; simp [objects_face_face, hl, Function.comp_def]
  · rw [objects_poly, ← hl]
    have : ∀ f ∈ p.faces, (f.shown.objects "Edge").length = 3 := by
      intro f hfm
      obtain ⟨k, hk⟩ := List.mem_iff_getElem?.mp hfm
      obtain ⟨s, a, b, c, -, -, -, -, -, he, -⟩ := hf k f hk
      have := congrArg List.length he
      simp only [List.length_map, List.length_cons, List.length_nil] at this
      rw [objects_face]; simp [objects_edge, this, Function.comp_def]
    rw [List.length_flatten, List.map_map,
      List.map_congr_left (f := List.length ∘ fun f : Face ℝ => f.shown.objects "Edge") (g := fun _ => 3) this]
    simp [mul_comm]
  · rintro a b ⟨x, hx, hr⟩
    rw [objects_poly] at hx
    obtain ⟨l, hl', hx⟩ := List.mem_flatten.mp hx
    obtain ⟨f, hfm, rfl⟩ := List.mem_map.mp hl'
    rw [objects_face] at hx
    obtain ⟨l, hl', hx⟩ := List.mem_flatten.mp hx
    obtain ⟨e, hem, rfl⟩ := List.mem_map.mp hl'
    obtain ⟨h1, h2⟩ := runsFrom_edge.mp ⟨x, hx, hr⟩
    obtain ⟨i, hi⟩ := List.mem_iff_getElem?.mp hfm
    obtain ⟨j, hj⟩ := List.mem_iff_getElem?.mp hem
    obtain ⟨i', j', f', e', -, hf', he', -, -, -, -, h3, h4, -⟩ := C25_twins hh hp hi hj
    obtain ⟨y, hy, hr'⟩ := (runsFrom_edge (e := e') (a := b) (b := a)).mpr ⟨by rw [h3, h2], by rw [h4, h1]⟩
    refine ⟨y, ?_, hr'⟩
    rw [objects_poly]
    refine List.mem_flatten.mpr ⟨_, List.mem_map.mpr ⟨f', List.mem_of_getElem? hf', rfl⟩, ?_⟩
    rw [objects_face]
    exact List.mem_flatten.mpr ⟨_, List.mem_map.mpr ⟨e', List.mem_of_getElem? he', rfl⟩, hy⟩

/-- **C93** What is shown of each face: the corners `a`, `b`, `c` of the facet, counter-clockwise seen along the outward unit normal shown, and the edges
from `a` to `b`, `b` to `c` and `c` to `a` with their vectors and lengths. -/
theorem C93_faces {h : Hull ℝ} (hh : h.IsHull) {inHull : V3 ℝ → Bool} {p : Poly ℝ} (hp : mkPoly h inHull = .ok p) {k : Nat} {x : List (String × Shown ℝ)}
    (hx : (p.shown.objects "Face")[k]? = some x) : ∃ (s : Nat × Nat × Nat) (a b c : Nat) (un : V3 ℝ), h.simplices[k]? = some s ∧ List.Perm [a, b, c] [s.1, s.2.1, s.2.2] ∧
      ("points", .arrays [h.pt a, h.pt b, h.pt c]) ∈ x ∧ ("simplex", .indices [a, b, c]) ∈ x ∧ ("un", .array un) ∈ x ∧
      rdot un un = 1 ∧ (∀ q ∈ h.body, rdot un (P3.toV q) ≤ rdot un (h.pt a)) ∧ 0 < rdot un (cross ((h.pt b).sub (h.pt a)) ((h.pt c).sub (h.pt a))) ∧
      ("edges", .list ([(h.pt a, h.pt b), (h.pt b, h.pt c), (h.pt c, h.pt a)].map fun e => .object "Edge" [("start", .array e.1), ("end", .array e.2),
        ("vector", .array (e.2.sub e.1)), ("length", .number (Real.sqrt (rdot (e.2.sub e.1) (e.2.sub e.1)))), ("points", .tuple [e.1, e.2])])) ∈ x := by
  obtain ⟨hl, hf⟩ := C24_counter_clockwise hh hp
  have e0 : p.shown.objects "Face" = p.faces.map fun f => [("points", .arrays f.points), ("simplex", .indices f.simplex),
      ("un", .array f.un), ("neighbors", .indices f.neighbors), ("edges", .list (f.edges.map Edge.shown))] := by
    rw [objects_poly_face]
    simp only [objects_face_face]
    induction p.faces with
    | nil => rfl
    | cons f fs ih => simp only [List.map_cons, List.flatten_cons, ih]; rfl
  rw [e0, List.getElem?_map] at hx
  cases hk : p.faces[k]? with
  | none => rw [hk] at hx; cases hx
  | some f =>
    rw [hk] at hx
    simp only [Option.map_some, Option.some.injEq] at hx
    subst hx
    obtain ⟨s, a, b, c, h1, h2, h3, h4, h5, h6, h7⟩ := hf k f hk
    have hn := C23_outward_unit_normals hh hp (List.mem_of_getElem? hk)
    refine ⟨s, a, b, c, f.un, h1, h3, by simp [h4], by simp [h2], by simp, hn.1, ?_, h5, ?_⟩
    · intro q hq; exact hn.2.2.1 _ (by simp [h4]) q hq
    · have : f.edges.map Edge.shown = [(h.pt a, h.pt b), (h.pt b, h.pt c), (h.pt c, h.pt a)].map fun e => .object "Edge" [("start", .array e.1), ("end", .array e.2),
        ("vector", .array (e.2.sub e.1)), ("length", .number (Real.sqrt (rdot (e.2.sub e.1) (e.2.sub e.1)))), ("points", .tuple [e.1, e.2])] := by
        match hes : f.edges, h6, h7 with
        | [e1, e2, e3], h6, h7 =>
          simp only [List.map_cons, List.map_nil, List.cons.injEq, Prod.mk.injEq, and_true] at h6
          obtain ⟨⟨-, a1, a2⟩, ⟨-, b1, b2⟩, -, c1, c2⟩ := h6
          obtain ⟨d1, d2⟩ := h7 e1 (by simp)
          obtain ⟨d3, d4⟩ := h7 e2 (by simp)
          obtain ⟨d5, d6⟩ := h7 e3 (by simp)
          simp only [List.map_cons, List.map_nil, Edge.shown, d2, d4, d6, d1, d3, d5, a1, a2, b1, b2, c1, c2]
        | [], h6, _ => exact absurd (congrArg List.length h6) (by simp)
        | [_], h6, _ => exact absurd (congrArg List.length h6) (by simp)
        | [_, _], h6, _ => exact absurd (congrArg List.length h6) (by simp)
        | _ :: _ :: _ :: _ :: _, h6, _ => exact absurd (congrArg List.length h6) (by simp)
      simp [this]

/-- **C93** A station shows its coordinates and the sum of the fields computed so far. -/
theorem C93_station (density Gc : S) (gr : Bool) (ids : List Nat) (s : Station S) (w : World S) (hw : w.Ready) (rs : List (V3 S × M3 S))
    (hrs : ids.map (fun k => (Call.mk s.coord density Gc gr).onNew (w.poly k)) = rs.map .ok) :
    let s' := (computeGravity (.list (ids.map .poly)) density Gc gr s w).2.1
    (Station.repr s').1.console = .object "Station" [("coord", .array s.coord), ("G", .array (rs.foldl (fun g r => g.add r.1) s.G))] ∧
      (Station.repr s').1.text = "" ∧ (Station.repr s').2 = s' := by
  obtain ⟨w', h1, -, -⟩ := C06_station_accumulates density Gc gr ids s w hw rs hrs
  intro s'
  have hs : s' = accumulate s rs := by change (computeGravity _ _ _ _ _ _).2.1 = _; rw [h1]
  have hc : ∀ (rs : List (V3 S × M3 S)) (s : Station S), (accumulate s rs).coord = s.coord ∧ (accumulate s rs).G = rs.foldl (fun g r => g.add r.1) s.G := by
    intro rs
    induction rs with
    | nil => intro s; exact ⟨rfl, rfl⟩
    | cons r rs ih => intro s; exact ih _
  refine ⟨?_, rfl, rfl⟩
  rw [hs]
  simp only [Station.repr, Station.shown, hc]

/-! ### non-vacuity -/

section
attribute [local instance] toyArith
/-- the toy body has edges; a twin set by hand is kept, and `reset` does not restore the one of the construction -/
example : (Toy.poly.edge? 0 0).isSome ∧ (Toy.poly.edge? 1 1).isSome := by decide +kernel
example : ((runAccesses [.setTwin 0 0 (some (0, 0)), .method .reset] (Toy.poly, (Mem.fresh : Mem Rat))).1.edge? 0 0).bind (·.twin) = some (0, 0) ∧
    (Toy.poly.edge? 0 0).bind (·.twin) ≠ some (0, 0) := by decide +kernel
/-- an array set by hand is used by the next query, and `reset` undoes that -/
example : (Call.run Toy.poly (runAccesses [.setPqr 0 0 (some 7)] (Toy.poly, (Mem.fresh : Mem Rat))).2 ⟨⟨3, 5, 7⟩, 1, 1, false⟩).1.toOption.map (·.1.x) ≠
    (Call.onNew Toy.poly ⟨⟨3, 5, 7⟩, 1, 1, false⟩).toOption.map (·.1.x) := by decide +kernel
example : (Call.run Toy.poly (runAccesses [.setPqr 0 0 (some 7), .method .reset] (Toy.poly, (Mem.fresh : Mem Rat))).2 ⟨⟨3, 5, 7⟩, 1, 1, false⟩).1.toOption.map (·.1.x) =
    (Call.onNew Toy.poly ⟨⟨3, 5, 7⟩, 1, 1, false⟩).toOption.map (·.1.x) := by decide +kernel
/-- something that is not an array raises, as does an edge that does not exist -/
example : ((Access.run (.setPqr 0 0 none) (Toy.poly, (Mem.fresh : Mem Rat))).1 matches .error .typeError) := by decide +kernel
example : ((Access.run (.setPqr 0 9 (some 0)) (Toy.poly, (Mem.fresh : Mem Rat))).1 matches .error .indexError) := by decide +kernel
end
/-- the tetrahedron shows four faces and twelve edges, also after a query that raised and a twin set by hand -/
example : ∃ p, mkPoly tetra (fun _ => true) = .ok p ∧ (p.shown.objects "Face").length = 4 ∧ (p.shown.objects "Edge").length = 12 ∧
    (Poly.repr (runAccesses [.method (.gravity ⟨0, 0, 0⟩ 1 1 true), .setTwin 0 0 (some (1, 1))] (p, Mem.fresh))).1.console = p.shown := by
  obtain ⟨p, hp⟩ := hull_mkPoly_ok tetra_isHull (fun _ => true)
  obtain ⟨h1, h2, -⟩ := C93_closed tetra_isHull hp
  exact ⟨p, hp, h1, h2, (C93_same hp _).2.2⟩

end Geec
