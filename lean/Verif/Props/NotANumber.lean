import Verif.Props.EndToEnd
import Verif.Lemmas.Partial
/-
C105: what a missing number (NaN) among the inputs does.
-/
namespace Geec
open Arith

section
variable {S : Type} [Arith S]

/-- some entry satisfies `N` -/
def V3.Some (N : S → Prop) (v : V3 S) : Prop := N v.x ∨ N v.y ∨ N v.z

/-- all entries satisfy `N` -/
def V3.All (N : S → Prop) (v : V3 S) : Prop := N v.x ∧ N v.y ∧ N v.z

/-- all entries satisfy `N` -/
def M3.All (N : S → Prop) (t : M3 S) : Prop := t.r0.All N ∧ t.r1.All N ∧ t.r2.All N

/-- `N` behaves as "is NaN" in IEEE 754: the result of an operation is NaN when an operand is, comparisons with it are
false. -/
structure NaNLike (N : S → Prop) : Prop where
  add : ∀ {a b}, N a ∨ N b → N (a +. b)
  sub : ∀ {a b}, N a ∨ N b → N (a -. b)
  mul : ∀ {a b}, N a ∨ N b → N (a *. b)
  div : ∀ {a b}, N a ∨ N b → N (a /. b)
  neg : ∀ {a}, N a → N (Arith.neg a)
  abs : ∀ {a}, N a → N (Arith.abs a)
  log : ∀ {a}, N a → N (Arith.log a)
  dot : ∀ {a b : V3 S}, a.Some N ∨ b.Some N → N (Arith.dot a b)
  norm : ∀ {a : V3 S}, a.Some N → N (Arith.norm a)
  lt : ∀ {a b}, N a ∨ N b → (a <. b) = false
  eq : ∀ {a b}, N a ∨ N b → (a ==. b) = false

variable {N : S → Prop}

omit [Arith S] in
theorem V3.All.some {v : V3 S} (h : v.All N) : v.Some N := .inl h.1

theorem NaNLike.vsub (hN : NaNLike N) {a b : V3 S} (h : b.Some N) : (a.sub b).Some N := by
  rcases h with h | h | h
  · exact .inl (hN.sub (.inr h))
  · exact .inr (.inl (hN.sub (.inr h)))
  · exact .inr (.inr (hN.sub (.inr h)))

theorem NaNLike.vadd (hN : NaNLike N) {a b : V3 S} (h : a.All N ∨ b.All N) : (a.add b).All N := by
  rcases h with h | h
  · exact ⟨hN.add (.inl h.1), hN.add (.inl h.2.1), hN.add (.inl h.2.2)⟩
  · exact ⟨hN.add (.inr h.1), hN.add (.inr h.2.1), hN.add (.inr h.2.2)⟩

theorem NaNLike.madd (hN : NaNLike N) {a b : M3 S} (h : a.All N ∨ b.All N) : (a.add b).All N := by
  rcases h with h | h
  · exact ⟨hN.vadd (.inl h.1), hN.vadd (.inl h.2.1), hN.vadd (.inl h.2.2)⟩
  · exact ⟨hN.vadd (.inr h.1), hN.vadd (.inr h.2.1), hN.vadd (.inr h.2.2)⟩

/-- the height of a station with a NaN coordinate above a face -/
theorem NaNLike.height (hN : NaNLike N) (f : Face S) {obs : V3 S} (h : obs.Some N) : N (f.height obs) :=
  hN.dot (.inr (hN.vsub h))

/-- the formulas at the end of `Face.get_gravity` when the height, the density or the constant is NaN -/
theorem NaNLike.faceField (hN : NaNLike N) {un : V3 S} {d w : S} {dw pqr : V3 S} {dpqr : M3 S} {ρ Gc : S}
    (h : N d ∨ N ρ ∨ N Gc) (gr : Bool) :
    (faceField un d w dw pqr dpqr ρ Gc gr).1.All N ∧ (gr = true → (faceField un d w dw pqr dpqr ρ Gc gr).2.All N) := by
  have hf : N d ∨ N (Arith.neg ρ *. Gc *. k1e5) := by
    rcases h with h | h | h
    · exact .inl h
    · exact .inr (hN.mul (.inl (hN.mul (.inl (hN.neg h)))))
    · exact .inr (hN.mul (.inl (hN.mul (.inr h))))
  have h1 : ∀ x, N (d *. (Arith.neg ρ *. Gc *. k1e5) *. x) := fun x => hN.mul (.inl (hN.mul hf))
  have h2 : ∀ x y, N (Arith.neg ρ *. Gc *. k1e5 *. k1e4 *. (d *. x +. y)) := by
    intro x y
    rcases hf with h | h
    · exact hN.mul (.inr (hN.add (.inl (hN.mul (.inl h)))))
    · exact hN.mul (.inl (hN.mul (.inl h)))
  cases gr
  · exact ⟨⟨h1 _, h1 _, h1 _⟩, fun h => by cases h⟩
  · exact ⟨⟨h1 _, h1 _, h1 _⟩, fun _ => ⟨⟨h2 _ _, h2 _ _, h2 _ _⟩, ⟨h2 _ _, h2 _ _, h2 _ _⟩, ⟨h2 _ _, h2 _ _, h2 _ _⟩⟩⟩

/-- the integral over an edge when a coordinate of the station is NaN -/
theorem nan_edge (hN : NaNLike N) (e : Edge S) {obs : V3 S} (h : obs.Some N) (gr : Bool) : ∃ v, edgeIntegral e obs gr = .ok v := by
  have h1 : N (norm (e.start.sub obs)) := hN.norm (hN.vsub h)
  have h2 : N (norm (e.fin.sub obs)) := hN.norm (hN.vsub h)
  have hb : N (two *. dot (e.start.sub obs) e.vector /. e.length /. two) :=
    hN.div (.inl (hN.div (.inl (hN.mul (.inr (hN.dot (.inl (hN.vsub h))))))))
  have hc : N (norm (e.start.sub obs) +. two *. dot (e.start.sub obs) e.vector /. e.length /. two) := hN.add (.inl h1)
  have hd : N (e.length -. norm (e.start.sub obs)) := hN.sub (.inr h1)
  unfold edgeIntegral lineIntegralAlongEdge numbaDiv
  simp only [hN.lt (.inl h2), Bool.false_and, Bool.false_eq_true, if_false, hN.lt (.inl (hN.abs hc)), hN.lt (.inr (hN.abs hc)), hN.eq (.inl h1),
    hN.eq (.inl (hN.abs hd)), bind, Except.bind, pure, Except.pure]
  cases gr <;> exact ⟨_, rfl⟩

/-- what `Face.get_gravity` returns, whatever the state of the caches -/
theorem faceEdges_dp1 (i : Nat) (obs : V3 S) (gr : Bool) (es : List (Edge S)) : ∀ (j : Nat) (m m' : Mem S) (k : Nat),
    faceEdges i obs gr j es m = (.ok (), m') → (m'.face k).dp1 = (m.face k).dp1 := by
  induction es with
  | nil => intro j m m' k h; cases h; rfl
  | cons e es ih =>
    intro j m m' k h
    have key : ∀ {x : Act S Unit} {y : Act S Unit} {m m' : Mem S}, (x >>= fun _ => y) m = (.ok (), m') → ∃ m1, x m = (.ok (), m1) ∧ y m1 = (.ok (), m') := by
      intro x y m m' h
      simp only [bind, Act.bind] at h
      rcases hx : x m with ⟨a | a, m1⟩
      · rw [hx] at h; cases h
      · rw [hx] at h; exact ⟨m1, rfl, h⟩
    obtain ⟨m1, h1, h⟩ := key h
    obtain ⟨m2, h2, h⟩ := key h
    obtain ⟨m3, h3, h⟩ := key h
    rw [ih _ _ _ _ h]
    have e3 : (m3.face k).dp1 = (m2.face k).dp1 := by
      unfold addDpqr at h3
      split at h3 <;> cases h3
      · rfl
      · simp only [Mem.setFace]; split <;> simp_all
    have e2 : (m2.face k).dp1 = (m1.face k).dp1 := by
      unfold addPqr at h2
      split at h2 <;> cases h2
      · rfl
      · simp only [Mem.setFace]; split <;> simp_all
    have e1 : m1.face = m.face := by
      unfold edgeCompute at h1
      split at h1
      · cases h1; rfl
      · split at h1
        · cases h1
        · next p d _ =>
          unfold setTwinPqr at h1
          split at h1
          · cases h1
          · cases h1
            have f1 : ∀ (m : Mem S) a b v, (m.newEdgePqr a b v).face = m.face := fun _ _ _ _ => rfl
            have f2 : ∀ (m : Mem S) a b v, (m.newEdgeDpqr a b v).face = m.face := by intro m a b v; cases v <;> rfl
            split <;> split <;> simp only [f1, f2]
    rw [e3, e2, e1]

theorem faceGravity_field {i : Nat} {f : Face S} {obs : V3 S} {ρ Gc : S} {gr : Bool} {m m' : Mem S} {r : V3 S × M3 S}
    (h : faceGravity i f obs ρ Gc gr m = (.ok r, m')) :
    ∃ w dw pqr dpqr, r = faceField f.un (f.height obs) w dw pqr dpqr ρ Gc gr := by
  have key : ∀ {α} {x : Act S Unit} {y : Act S α} {m m' : Mem S} {a}, (x >>= fun _ => y) m = (.ok a, m') → ∃ m1, x m = (.ok (), m1) ∧ y m1 = (.ok a, m') := by
    intro α x y m m' a h
    simp only [bind, Act.bind] at h
    rcases hx : x m with ⟨b | b, m1⟩
    · rw [hx] at h; cases h
    · rw [hx] at h; exact ⟨m1, rfl, h⟩
  obtain ⟨m1, h1, h⟩ := key h
  obtain ⟨m2, h2, h⟩ := key h
  obtain ⟨m3, h3, h⟩ := key h
  obtain ⟨m4, h4, h⟩ := key h
  have e1 : (m1.face i).dp1 = some (f.height obs) := by cases h1; simp [Mem.setFace, Face.height]
  have e2 : (m2.face i).dp1 = some (f.height obs) := by
    unfold getSign at h2
    rw [e1] at h2
    cases h2
    simp [Mem.setFace, e1]
  have e3 : (m3.face i).dp1 = some (f.height obs) := by
    unfold getOmega at h3
    rw [e2] at h3
    rcases hs : (m2.face i).sign with _ | s
    · rw [hs] at h3; cases h3
    · rw [hs] at h3
      simp only at h3
      split at h3
      · split at h3
        · cases h3
        · cases h3; simp [Mem.setFace, e2]
      · cases h3; simp [Mem.setFace, e2]
  have e4 : (m4.face i).dp1 = some (f.height obs) := (faceEdges_dp1 _ _ _ _ _ _ _ _ h4).trans e3
  unfold faceFinish at h
  simp only [e4] at h
  split at h
  · next hd _ _ _ =>
    cases hd
    split at h
    · cases h
    · cases h; exact ⟨_, _, _, _, rfl⟩
    · cases h; exact ⟨_, _, _, _, rfl⟩
  · cases h

theorem nan_faces (hN : NaNLike N) {obs : V3 S} {ρ Gc : S} {gr : Bool} (h : obs.Some N ∨ N ρ ∨ N Gc) (fs : List (Face S)) :
    ∀ (i : Nat) (G : V3 S) (T : M3 S) (m m' : Mem S) (r : V3 S × M3 S), (fs ≠ [] ∨ (G.All N ∧ (gr = true → T.All N))) →
      polyFaces obs ρ Gc gr i fs G T m = (.ok r, m') → r.1.All N ∧ (gr = true → r.2.All N) := by
  induction fs with
  | nil =>
    intro i G T m m' r h1 h2
    cases h2
    exact h1.resolve_left (by simp)
  | cons f fs ih =>
    intro i G T m m' r _ h2
    simp only [polyFaces, bind, Act.bind] at h2
    rcases hx : faceGravity i f obs ρ Gc gr m with ⟨e | ⟨g, t⟩, m1⟩
    · rw [hx] at h2; cases h2
    · rw [hx] at h2
      obtain ⟨w, dw, pqr, dpqr, hr⟩ := faceGravity_field hx
      have h3 := hN.faceField (un := f.un) (d := f.height obs) (w := w) (dw := dw) (pqr := pqr) (dpqr := dpqr)
        (h.imp_left (hN.height f)) gr
      rw [← hr] at h3
      exact ih _ _ _ _ _ _ (.inr ⟨hN.vadd (.inr h3.1), fun k => hN.madd (.inr (h3.2 k))⟩) h2

/-- **C105** A query with a NaN among the coordinates of the station, or a NaN density or constant, answers NaN in all
components: never a number.  Whatever the body (not even closed), the history of the object and the arithmetic. -/
theorem C105_answer (hN : NaNLike N) {p : Poly S} (hne : p.faces ≠ []) (c : Call S) (hc : c.obs.Some N ∨ N c.density ∨ N c.Gc)
    {m m' : Mem S} {G : V3 S} {T : M3 S} (h : c.run p m = (.ok (G, T), m')) : G.All N ∧ (c.gradient = true → T.All N) := by
  simp only [Call.run, getGravity, bind, Act.bind] at h
  rcases hx : polyFaces c.obs c.density c.Gc c.gradient 0 p.faces V3.zeros M3.zeros m with ⟨e | r, m1⟩
  · rw [hx] at h; cases h
  · rw [hx] at h
    cases h
    exact nan_faces hN hc _ _ _ _ _ _ _ (.inl hne) hx

/-- **C105**, no exception: with a NaN coordinate every query of a closed polyhedron returns, although the angle and the
logarithm are computed with functions and divisions that raise: the comparisons steer around them. -/
theorem C105_returns (hN : NaNLike N) {p : Poly S} (hw : p.WellTwinned) (hedges : ∀ f ∈ p.faces, f.edges ≠ []) (c : Call S)
    (hc : c.obs.Some N) : ∃ a, c.onNew p = .ok a := by
  rw [onNew_closed hw]
  refine facesValue_ok _ _ _ _ fun k f hf => ?_
  rw [Nat.zero_add]
  have ho : omegaValue f c.obs c.gradient = .ok (zero, V3.zeros) := by
    unfold omegaValue
    rw [hN.lt (.inr (hN.abs (hN.height f hc)))]
    rfl
  obtain ⟨vs, hvs, hl⟩ := edgesValue_ok (p := p) (obs := c.obs) (gr := c.gradient) (i := k) (es := f.edges) (by
    intro e he
    obtain ⟨j, hj⟩ := List.getElem?_of_mem he
    obtain ⟨i', j', e', t1, t2, -, -⟩ := hw k j e (by unfold Poly.edgeAt; rw [hf]; exact hj)
    unfold edgeValue
    rw [t1]
    simp only [t2]
    split
    · obtain ⟨v, hv⟩ := nan_edge hN e' hc c.gradient
      exact ⟨_, by rw [hv]; rfl⟩
    · exact nan_edge hN e hc c.gradient)
  simp only [faceValue, ho, hvs]
  cases vs with
  | nil => exact absurd (List.length_eq_zero_iff.mp hl.symm) (hedges f (List.mem_of_getElem? hf))
  | cons v vs => exact ⟨_, rfl⟩

/-- **C105**, density: whether a query raises, and what, does not depend on the density and the constant: a NaN there
does not raise by itself. -/
theorem C105_density {p : Poly S} (hw : p.WellTwinned) (obs : V3 S) (ρ Gc ρ' Gc' : S) (gr : Bool) (x : PyErr) :
    (Call.mk obs ρ Gc gr).onNew p = .error x ↔ (Call.mk obs ρ' Gc' gr).onNew p = .error x := by
  have hf : ∀ (ρ Gc ρ' Gc' : S) i f, faceValue p obs ρ Gc gr i f = .error x → faceValue p obs ρ' Gc' gr i f = .error x := by
    intro ρ Gc ρ' Gc' i f h
    unfold faceValue at h ⊢
    rcases ha : omegaValue f obs gr with a | a <;> rw [ha] at h
    · cases h; rfl
    · simp only at h ⊢
      rcases hb : edgesValue p obs gr i f.edges with b | b <;> rw [hb] at h
      · cases h; rfl
      · cases b with
        | nil => exact h
        | cons v vs => cases h
  have hok : ∀ (ρ Gc ρ' Gc' : S) i f v, faceValue p obs ρ Gc gr i f = .ok v → ∃ v', faceValue p obs ρ' Gc' gr i f = .ok v' := by
    intro ρ Gc ρ' Gc' i f v h
    unfold faceValue at h ⊢
    rcases ha : omegaValue f obs gr with a | a <;> rw [ha] at h
    · cases h
    · simp only at h ⊢
      rcases hb : edgesValue p obs gr i f.edges with b | b <;> rw [hb] at h
      · cases h
      · cases b with
        | nil => cases h
        | cons v vs => exact ⟨_, rfl⟩
  have key : ∀ (ρ Gc ρ' Gc' : S) (fs : List (Face S)) i G T G' T', facesValue p obs ρ Gc gr i fs G T = .error x →
      facesValue p obs ρ' Gc' gr i fs G' T' = .error x := by
    intro ρ Gc ρ' Gc' fs
    induction fs with
    | nil => intro i G T G' T' h; cases h
    | cons f fs ih =>
      intro i G T G' T' h
      simp only [facesValue] at h ⊢
      rcases hv : faceValue p obs ρ Gc gr i f with e | ⟨g, t⟩
      · rw [hv] at h
        cases h
        rw [hf _ _ _ _ _ _ hv]
      · rw [hv] at h
        obtain ⟨⟨g', t'⟩, hv'⟩ := hok ρ Gc ρ' Gc' i f _ hv
        rw [hv']
        exact ih _ _ _ _ _ h
  rw [onNew_closed hw, onNew_closed hw]
  exact ⟨key _ _ _ _ _ _ _ _ _ _, key _ _ _ _ _ _ _ _ _ _⟩

theorem nan_accumulate (hN : NaNLike N) {gr : Bool} (as : List (V3 S × M3 S)) : ∀ s : Station S,
    ((s.G.All N ∧ (gr = true → s.T.All N)) ∨ ∃ a ∈ as, a.1.All N ∧ (gr = true → a.2.All N)) →
      (accumulate s as).G.All N ∧ (gr = true → (accumulate s as).T.All N) := by
  induction as with
  | nil => intro s h; exact h.resolve_right (by simp)
  | cons a as ih =>
    obtain ⟨G, T⟩ := a
    intro s h
    refine ih _ ?_
    rcases h with h | ⟨a, ha, h⟩
    · exact .inl ⟨hN.vadd (.inl h.1), fun k => hN.madd (.inl (h.2 k))⟩
    · rcases List.mem_cons.mp ha with rfl | ha
      · exact .inl ⟨hN.vadd (.inr h.1), fun k => hN.madd (.inr (h.2 k))⟩
      · exact .inr ⟨a, ha, h⟩

/-- **C105**, tables: the line of a station with a NaN coordinate has NaN in the columns of the attraction, and in those
of the gradient when it is computed; with a NaN density or constant of the first body all lines do. -/
theorem C105_run (hN : NaNLike N) (g : Geodesy S) (o : Outside S) (lib : HullLib S) (cfg : View S) (gr : Bool) (t : Table S) (r : RunData S)
    (h : runTable g o lib cfg gr = .ok t) (hr : r.Of g o lib cfg) (hbody : ∃ q ∈ r.polys, q.faces ≠ []) (i : Nat) (p : V3 S)
    (hp : r.stations.coords.rows[i]? = some p)
    (hn : p.Some N ∨ ∃ m, r.masses.head? = some m ∧ (N m.density ∨ N m.gravityConstant)) :
    ∃ row, t.rows[i]? = some row ∧ row.take 3 = [p.x, p.y, p.z] ∧ (∀ x ∈ (row.drop 3).take 3, N x) ∧ (gr = true → ∀ x ∈ row.drop 3, N x) := by
  obtain ⟨first, rest, hfirst, hrows⟩ := C37_first_density g o lib cfg gr t r h hr
  obtain ⟨as, has, hrow⟩ := hrows i p hp
  refine ⟨_, hrow, ?_, ?_⟩
  · have : (accumulate (Station.new p) as).coord = p := by
      have key : ∀ (as : List (V3 S × M3 S)) (s : Station S), (accumulate s as).coord = s.coord := by
        intro as
        induction as with
        | nil => intro s; rfl
        | cons a as ih => intro s; exact ih _
      exact key as _
    simp only [lineOf, List.take_succ_cons, List.take_zero, this]
  · have hc : (Call.mk p first.density first.gravityConstant gr).obs.Some N ∨
        N (Call.mk p first.density first.gravityConstant gr).density ∨ N (Call.mk p first.density first.gravityConstant gr).Gc := by
      rcases hn with hn | ⟨m, hm, hn⟩
      · exact .inl hn
      · rw [hfirst] at hm
        cases hm
        exact .inr hn
    obtain ⟨q, hq, hqf⟩ := hbody
    have hmem : (Call.mk p first.density first.gravityConstant gr).onNew q ∈ as.map Except.ok := by
      rw [← has]; exact List.mem_map_of_mem hq
    obtain ⟨a, ha, hqa⟩ := List.mem_map.mp hmem
    obtain ⟨G, T⟩ := a
    have h1 := C105_answer hN hqf _ hc (m := Mem.fresh) (m' := ((Call.mk p first.density first.gravityConstant gr).run q Mem.fresh).2) (G := G) (T := T)
      (Prod.ext hqa.symm rfl)
    obtain ⟨h2, h3⟩ := nan_accumulate hN (gr := gr) as (Station.new p) (.inr ⟨_, ha, h1⟩)
    refine ⟨?_, fun k => ?_⟩
    · intro x hx
      simp only [lineOf, List.drop_succ_cons, List.drop_zero, List.take_succ_cons, List.take_zero, List.mem_cons, List.not_mem_nil, or_false] at hx
      rcases hx with rfl | rfl | rfl
      exacts [h2.1, h2.2.1, h2.2.2]
    · intro x hx
      simp only [lineOf, List.drop_succ_cons, List.drop_zero, List.mem_cons, List.not_mem_nil, or_false] at hx
      have h3 := h3 k
      rcases hx with rfl | rfl | rfl | rfl | rfl | rfl | rfl | rfl | rfl
      exacts [h2.1, h2.2.1, h2.2.2, h3.1.1, h3.1.2.1, h3.1.2.2, h3.2.1.2.1, h3.2.1.2.2, h3.2.2.2.2]

/-- **C105**, runs: stations with NaN coordinates do not stop a run. -/
theorem C105_run_returns (hN : NaNLike N) (g : Geodesy S) (o : Outside S) (lib : HullLib S) (cfg : View S) (gr : Bool) (r : RunData S)
    (hr : r.Of g o lib cfg) (hshow : configShow cfg = .ok ()) (hne : r.configured ≠ []) (hne' : r.stations.coords.rows ≠ [])
    (hclosed : ∀ q ∈ r.polys, q.WellTwinned ∧ ∀ f ∈ q.faces, f.edges ≠ [])
    (hans : ∀ p ∈ r.stations.coords.rows, p.Some N ∨ ∀ q ∈ r.polys, ∃ ρ Gc a, (Call.mk p ρ Gc gr).onNew q = .ok a) :
    ∃ t, runTable g o lib cfg gr = .ok t := by
  refine run_returns_polys hr hshow hne hne' fun first _ q hq p hp => ?_
  obtain ⟨hw, he⟩ := hclosed q hq
  rcases hans p hp with h | h
  · exact C105_returns hN hw he _ h
  · obtain ⟨ρ, Gc, a, ha⟩ := h q hq
    rcases hx : (Call.mk p first.density first.gravityConstant gr).onNew q with x | b
    · rw [(C105_density hw p _ _ ρ Gc gr x).mp hx] at ha; cases ha
    · exact ⟨b, rfl⟩

end

/-- NaN is NaN-like in `nanArith` -/
theorem nan_nanLike : @NaNLike (Option ℝ) nanArith (· = none) := by
  have hd : ∀ {a b : V3 (Option ℝ)}, a.Some (· = none) ∨ b.Some (· = none) → odot a b = none := by
    rintro ⟨_ | x, _ | y, _ | z⟩ ⟨_ | u, _ | v, _ | w⟩ h <;> simp_all [V3.Some, odot]
  refine @NaNLike.mk _ nanArith _ ?_ ?_ ?_ ?_ ?_ ?_ ?_ hd (fun {a} h => ?_) ?_ ?_
  · rintro (_ | a) (_ | b) <;> simp <;> rfl
  · rintro (_ | a) (_ | b) <;> simp <;> rfl
  · rintro (_ | a) (_ | b) <;> simp <;> rfl
  · rintro (_ | a) (_ | b) <;> simp <;> rfl
  · rintro (_ | a) <;> simp; rfl
  · rintro (_ | a) <;> simp; rfl
  · rintro (_ | a) <;> simp; rfl
  · show (odot a a).map Real.sqrt = none
    rw [hd (.inl h)]
    rfl
  · intro a b h
    refine @decide_eq_false _ (Classical.propDecidable _) ?_
    rintro ⟨x, y, rfl, rfl, -⟩
    simp at h
  · intro a b h
    refine @decide_eq_false _ _ ?_
    rintro ⟨x, rfl, rfl⟩
    simp at h

/-! A run with a NaN, in a computable arithmetic. -/
namespace Toy

/-- an operation of two numbers, NaN if one of them is -/
def lift2 (f : Rat → Rat → Rat) : Option Rat → Option Rat → Option Rat
  | some a, some b => some (f a b)
  | _, _ => none

/-- a comparison, false if one of the numbers is NaN -/
def cmp (f : Rat → Rat → Bool) : Option Rat → Option Rat → Bool
  | some a, some b => f a b
  | _, _ => false

/-- a function of a vector, NaN if one of its entries is -/
def liftV (f : V3 Rat → Rat) : V3 (Option Rat) → Option Rat
  | ⟨some x, some y, some z⟩ => f ⟨x, y, z⟩
  | _ => none

/-- a function of two vectors, NaN if one of their entries is -/
def liftV2 (f : V3 Rat → V3 Rat → Rat) : V3 (Option Rat) → V3 (Option Rat) → Option Rat
  | ⟨some x, some y, some z⟩, b => liftV (f ⟨x, y, z⟩) b
  | _, _ => none

/-- the arithmetic of the examples with NaN -/
@[reducible] def nanToy : Arith (Option Rat) where
  zero := some toyArith.zero
  one := some toyArith.one
  two := some toyArith.two
  negOne := some toyArith.negOne
  pi := some toyArith.pi
  eps := some toyArith.eps
  k1e5 := some toyArith.k1e5
  k1e4 := some toyArith.k1e4
  ofNat := fun n => some (toyArith.ofNat n)
  add := lift2 toyArith.add
  sub := lift2 toyArith.sub
  mul := lift2 toyArith.mul
  div := lift2 toyArith.div
  neg := Option.map toyArith.neg
  abs := Option.map toyArith.abs
  sqrt := Option.map toyArith.sqrt
  log := Option.map toyArith.log
  acos := Option.map toyArith.acos
  lt := cmp toyArith.lt
  eq := cmp toyArith.eq
  dot := liftV2 toyArith.dot
  mdot := liftV2 toyArith.mdot
  norm := liftV toyArith.norm
  mnorm := liftV toyArith.mnorm

attribute [local instance] nanToy

theorem nanToy_nan : NaNLike (S := Option Rat) (· = none) := by
  have hv : ∀ (f : V3 Rat → Rat) (a : V3 (Option Rat)), a.Some (· = none) → liftV f a = none := by
    rintro f ⟨_ | x, _ | y, _ | z⟩ h <;> simp_all [V3.Some, liftV]
  have hd : ∀ {a b : V3 (Option Rat)}, a.Some (· = none) ∨ b.Some (· = none) → Arith.dot a b = none := by
    rintro ⟨_ | x, _ | y, _ | z⟩ b h
    all_goals try rfl
    exact hv _ _ (h.resolve_left (by simp [V3.Some]))
  refine ⟨?_, ?_, ?_, ?_, ?_, ?_, ?_, hd, fun {a} h => hv _ _ h, ?_, ?_⟩
  · rintro (_ | a) (_ | b) <;> simp <;> rfl
  · rintro (_ | a) (_ | b) <;> simp <;> rfl
  · rintro (_ | a) (_ | b) <;> simp <;> rfl
  · rintro (_ | a) (_ | b) <;> simp <;> rfl
  · rintro (_ | a) <;> simp; rfl
  · rintro (_ | a) <;> simp; rfl
  · rintro (_ | a) <;> simp; rfl
  · rintro (_ | a) (_ | b) <;> simp <;> rfl
  · rintro (_ | a) (_ | b) <;> simp <;> rfl

def nanGeo : Geodesy (Option Rat) where
  models := []
  ellipsoidErr := fun _ _ => none
  ellEq := fun _ _ => false
  geodetic2ecef := fun _ p => .ok p
  enu2ecef := fun _ _ _ _ p => .ok p
  ecef2geodetic := fun p => .ok p
  ecef2enu := fun _ _ _ p => .ok p
  geodetic2enu := fun _ _ _ p => .ok p
  latLonErr := fun _ _ => none
  geoid := fun _ _ _ => some 5

def nanOutside : Outside (Option Rat) := ⟨fun _ => false, fun _ => .error .fileNotFoundError, fun _ => 0⟩

def nanHullLib : HullLib (Option Rat) where
  convexHull := fun pts => .ok ⟨pts, Toy.hull.vertices, Toy.hull.simplices, Toy.hull.neighbors⟩
  inHull := fun _ _ => true

def nanPoint (x y z : Option Rat) : Val (Option Rat) := .list [.num false x, .num false y, .num false z]

def nanCrs : Val (Option Rat) := .dict [("ref", .str "cart"), ("name", .null), ("semimajor_axis", .null),
  ("semiminor_axis", .null), ("longitude_origin", .null), ("latitude_origin", .null), ("altitude_origin", .null), ("vdatum", .str "ellps")]

/-- a tetrahedron seen from three stations, one of which has no second coordinate -/
def nanConfig : View (Option Rat) := View.root [.dict [
  ("masses", .list [.dict [("density", .num false (some 2)), ("gravity_constant", .num false (some 1)),
    ("points", .list [nanPoint (some 0) (some 0) (some 0), nanPoint (some 1) (some 0) (some 0), nanPoint (some 0) (some 1) (some 0),
      nanPoint (some 0) (some 0) (some 1)]), ("file_path", .null), ("crs", nanCrs)]]),
  ("observers", .dict [("points", .list [nanPoint (some 3) (some 5) (some 7), nanPoint (some 4) none (some 9), nanPoint (some 4) (some 6) (some 9)]),
    ("file_path", .null), ("grid", .dict [("xstart_xend_xstep", .null), ("ystart_yend_ystep", .null), ("zstart_zend_zstep", .null)]),
    ("crs", nanCrs)])]]

/-- twins, checked one by one -/
def twinned (p : Poly (Option Rat)) : Bool :=
  (List.range p.faces.length).all fun i => (List.range ((p.faces[i]?).elim 0 (·.edges.length))).all fun j =>
    match p.edgeAt i j with
    | none => true
    | some e => match e.twin with
      | none => false
      | some (i', j') => match p.edgeAt i' j' with
        | none => false
        | some e' => decide (e'.twin = some (i, j) ∧ i' ≠ i)

theorem twinned_spec {p : Poly (Option Rat)} (h : twinned p = true) : p.WellTwinned := by
  intro i j e he
  have hi : i < p.faces.length := by
    by_contra hc
    unfold Poly.edgeAt at he
    rw [List.getElem?_eq_none (by omega)] at he
    cases he
  have hj : j < (p.faces[i]?).elim 0 (·.edges.length) := by
    by_contra hc
    unfold Poly.edgeAt at he
    rw [List.getElem?_eq_getElem hi] at he hc
    simp only [Option.elim_some, Option.bind_some] at hc he
    rw [List.getElem?_eq_none (by omega)] at he
    cases he
  have := (List.all_eq_true.mp ((List.all_eq_true.mp h) i (List.mem_range.mpr hi))) j (List.mem_range.mpr hj)
  rw [he] at this
  simp only at this
  split at this
  · cases this
  · next i' j' ht =>
    split at this
    · cases this
    · next e' he' =>
      obtain ⟨h1, h2⟩ := of_decide_eq_true this
      exact ⟨i', j', e', ht, he', h1, h2⟩

/-- what the run of the configuration works with -/
theorem nanRun_data : ∃ r : RunData (Option Rat), r.Of nanGeo nanOutside nanHullLib nanConfig ∧ configShow nanConfig = .ok () ∧ r.configured ≠ [] ∧
    r.stations.coords.rows = [⟨some 3, some 5, some 7⟩, ⟨some 4, none, some 9⟩, ⟨some 4, some 6, some 9⟩] ∧ (∃ q ∈ r.polys, q.faces ≠ []) ∧
    ∀ q ∈ r.polys, q.WellTwinned ∧ (∀ f ∈ q.faces, f.edges ≠ []) ∧ (∃ ρ Gc a, (Call.mk ⟨some 3, some 5, some 7⟩ ρ Gc true).onNew q = .ok a) ∧
      ∃ ρ Gc a, (Call.mk ⟨some 4, some 6, some 9⟩ ρ Gc true).onNew q = .ok a := by
  have h0 : isOkB (runTable nanGeo nanOutside nanHullLib nanConfig true) = true := by decide +kernel
  obtain ⟨t, ht⟩ : ∃ t, runTable nanGeo nanOutside nanHullLib nanConfig true = .ok t := by
    cases h : runTable nanGeo nanOutside nanHullLib nanConfig true with
    | ok t => exact ⟨t, rfl⟩
    | error e => rw [h] at h0; cases h0
  have hok : ∀ {q : Poly (Option Rat)} {c : Call (Option Rat)}, isOkB (c.onNew q) = true → ∃ a, c.onNew q = .ok a := by
    intro q c h
    cases hc : c.onNew q with
    | ok t => exact ⟨t, rfl⟩
    | error e => rw [hc] at h; cases h
  have hsh : isOkB (configShow nanConfig) = true := by decide +kernel
  have hb : (match bodiesOf nanGeo nanOutside nanHullLib nanConfig with
      | .ok (_, ps) => decide (ps.length = 1) && ps.all fun q => !q.faces.isEmpty && twinned q && (q.faces.all fun f => !f.edges.isEmpty) &&
        isOkB ((Call.mk ⟨some 3, some 5, some 7⟩ (some 2) (some 1) true).onNew q) && isOkB ((Call.mk ⟨some 4, some 6, some 9⟩ (some 2) (some 1) true).onNew q)
      | .error _ => false) = true := by decide +kernel
  have hm : (match getMasses nanGeo nanOutside nanConfig with
      | .ok ms => decide (ms.length = 1)
      | .error _ => false) = true := by decide +kernel
  have hs : (match getObserver nanGeo nanOutside nanConfig with
      | .ok ob => decide (ob.dataset.coords.rows = [⟨some 3, some 5, some 7⟩, ⟨some 4, none, some 9⟩, ⟨some 4, some 6, some 9⟩] ∧ ob.dataset.crs.name = .CART)
      | .error _ => false) = true := by decide +kernel
  obtain ⟨r, -, -, hr, -⟩ := runTable_ok ht
  rw [bodiesOf_eq hr] at hb
  rw [hr.observer] at hs
  rw [hr.configured] at hm
  simp only [Bool.and_eq_true, decide_eq_true_eq, List.all_eq_true] at hb hs hm
  have hst : r.stations = r.observer.dataset := by
    have := hr.stations
    simp only [Dataset.toWgs84, hs.2, Dataset.apply, crsId] at this
    exact (Prod.mk.inj this).2.symm
  refine ⟨r, hr, ?_, ?_, by rw [hst]; exact hs.1, ?_, fun q hq => ?_⟩
  · cases h : configShow nanConfig with
    | ok u => rfl
    | error e => rw [h] at hsh; cases hsh
  · intro h; rw [h] at hm; cases hm
  · cases hl : r.polys with
    | nil => rw [hl] at hb; exact absurd hb.1 (by simp)
    | cons q _ => exact ⟨q, by simp, by have := (hb.2 q (by simp [hl])).1.1.1.1; simpa using this⟩
  · obtain ⟨⟨⟨⟨-, h2⟩, h3⟩, h4⟩, h5⟩ := hb.2 q hq
    exact ⟨twinned_spec h2, fun f hf => by have := h3 f hf; simpa using this, ⟨_, _, hok h4⟩, ⟨_, _, hok h5⟩⟩

/-- the run returns, with NaN in the second line -/
example : ∃ t, runTable nanGeo nanOutside nanHullLib nanConfig true = .ok t ∧
    ∃ row, t.rows[1]? = some row ∧ row.take 3 = [some 4, none, some 9] ∧ ∀ x ∈ row.drop 3, x = none := by
  obtain ⟨r, hr, hshow, hne, hrows, hbody, hpolys⟩ := nanRun_data
  obtain ⟨t, ht⟩ := C105_run_returns nanToy_nan _ _ _ _ true r hr hshow hne (by rw [hrows]; simp) (fun q hq => ⟨(hpolys q hq).1, (hpolys q hq).2.1⟩) (by
    rw [hrows]
    intro p hp
    simp only [List.mem_cons, List.not_mem_nil, or_false] at hp
    rcases hp with rfl | rfl | rfl
    · exact .inr fun q hq => (hpolys q hq).2.2.1
    · exact .inl (.inr (.inl rfl))
    · exact .inr fun q hq => (hpolys q hq).2.2.2)
  obtain ⟨row, h1, h2, -, h3⟩ := C105_run nanToy_nan _ _ _ _ _ t r ht hr hbody 1 ⟨some 4, none, some 9⟩ (by rw [hrows]; rfl) (.inl (.inr (.inl rfl)))
  exact ⟨t, ht, row, h1, h2, h3 rfl⟩

/-- the tetrahedron of the run meets the hypotheses of `C105_returns` and `C105_density` -/
example : ∃ p : Poly (Option Rat), polyhedronOf nanHullLib [⟨some 0, some 0, some 0⟩, ⟨some 1, some 0, some 0⟩, ⟨some 0, some 1, some 0⟩,
    ⟨some 0, some 0, some 1⟩] = .ok p ∧ p.WellTwinned ∧ (∃ a, (Call.mk ⟨some 3, none, some 7⟩ (some 2) (some 1) true).onNew p = .ok a) ∧
    ∃ G T, (Call.mk ⟨some 3, some 5, some 7⟩ none (some 1) true).onNew p = .ok (G, T) ∧ G.All (· = none) ∧ T.All (· = none) := by
  have h0 : (match polyhedronOf nanHullLib [⟨some 0, some 0, some 0⟩, ⟨some 1, some 0, some 0⟩, ⟨some 0, some 1, some 0⟩, ⟨some 0, some 0, some 1⟩] with
      | .ok q => !q.faces.isEmpty && twinned q && (q.faces.all fun f => !f.edges.isEmpty) && isOkB ((Call.mk ⟨some 3, some 5, some 7⟩ (some 2) (some 1) true).onNew q)
      | .error _ => false) = true := by decide +kernel
  rcases hp : polyhedronOf nanHullLib [⟨some 0, some 0, some 0⟩, ⟨some 1, some 0, some 0⟩, ⟨some 0, some 1, some 0⟩, ⟨some 0, some 0, some 1⟩] with e | p
  · rw [hp] at h0; cases h0
  · rw [hp] at h0
    simp only [Bool.and_eq_true, List.all_eq_true] at h0
    obtain ⟨⟨⟨h1, h2⟩, h3⟩, h4⟩ := h0
    have hw := twinned_spec h2
    refine ⟨p, rfl, hw, C105_returns nanToy_nan hw (fun f hf => by have := h3 f hf; simpa using this) _ (.inr (.inl rfl)), ?_⟩
    rcases ha : (Call.mk (⟨some 3, some 5, some 7⟩ : V3 (Option Rat)) none (some 1) true).onNew p with e | ⟨G, T⟩
    · rw [(C105_density hw _ _ _ (some 2) (some 1) _ _).mp ha] at h4; cases h4
    · obtain ⟨h5, h6⟩ := C105_answer nanToy_nan (p := p) (by simpa using h1) (Call.mk ⟨some 3, some 5, some 7⟩ none (some 1) true) (.inr (.inl rfl))
        (m := Mem.fresh) (m' := ((Call.mk ⟨some 3, some 5, some 7⟩ none (some 1) true).run p Mem.fresh).2) (G := G) (T := T) (Prod.ext ha rfl)
      exact ⟨G, T, rfl, h5, h6 rfl⟩

end Toy
end Geec
